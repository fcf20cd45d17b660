import Verif.Props.C106
import Verif.Props.C58
/-!
# C110: nobody sends with more streams than the other side receives

A VHT station says in the VHT capabilities element (9.4.2.157) for each number of spatial streams up to which MCS it receives.
Who sends to it uses the greatest number of streams with which it can send and the other receives, and the highest MCS that
both have for it.  The program is not in the crate; it is written here with the functions of the crate.
-/
namespace Verif

namespace Spec

/-- The highest MCS for a number of streams in a map of two octets (9.4.2.157.3): two bits each. -/
def mcsFor (map streams : Nat) : Option Nat :=
  if 1 ≤ streams ∧ streams ≤ 8 then
    match map / 4 ^ (streams - 1) % 4 with
    | 0 => some 7
    | 1 => some 8
    | 2 => some 9
    | _ => none
  else none

/-- What a station receives, by its elements: the map is in octets 4 and 5. -/
def receives (raws : List RawElement) (streams : Nat) : Option Nat :=
  (saidIn 191 12 raws).bind fun p => mcsFor (octetAt p 4 + 256 * octetAt p 5) streams

/-- The greatest number of streams that both have, with the lower of the two highest MCS. -/
def BestStreams (rx tx : Nat → Option Nat) : Option (Nat × Nat) → Prop
  | none => ∀ n, rx n = none ∨ tx n = none
  | some (n, m) => (∃ a b, rx n = some a ∧ tx n = some b ∧ m = min a b) ∧ ∀ k, n < k → rx k = none ∨ tx k = none

/-! ## The sender, with the functions of the crate -/

/-- The highest MCS of a level. -/
def topMcs : VHTMCSSupport → Option Nat
  | .ZeroToSeven => some 7
  | .ZeroToEight => some 8
  | .ZeroToNine => some 9
  | _ => none

/-- That in a map. -/
def mapTop (m : VHTMCSMap) (streams : Nat) : Option Nat := (m.supportForNss streams).bind topMcs

/-- The choice. -/
def streamsFor (own peer : VHTMCSMap) : Option (Nat × Nat) :=
  [8, 7, 6, 5, 4, 3, 2, 1].findSome? fun n =>
    match mapTop peer n, mapTop own n with
    | some a, some b => some (n, min a b)
    | _, _ => none

variable [ScrollRule] [Crc32]

omit [Crc32] in
/-- About the elements of a frame. -/
def streamsIn (own : VHTMCSMap) (els : Bytes) : Res (Option (Nat × Nat)) := do
  match ← getFirstElement els vhtCapabilitiesKind with
  | none => pure none
  | some e => pure (streamsFor own e.supported_vht_mcs_and_nss_set.rxMap)

/-- About a frame: to whom, and how. -/
def streamsHeard (own : VHTMCSMap) (fcs : Bool) (frame : Bytes) : Res (Option (Mac × Option (Nat × Nat))) :=
  match matchFrames frame (if fcs then some true else none)
    [armOf MgmtKind.Beacon.frame (readMgmtFrame readBeaconLike) fun r => (r.1.bssid, r.2.elements),
      armOf MgmtKind.ProbeResponse.frame (readMgmtFrame readBeaconLike) fun r => (r.1.bssid, r.2.elements)] with
  | .panic => .panic
  | .err _ => .ok none
  | .ok (_, who, els) => do
    let x ← streamsIn own els
    pure (some (who, x))

omit [ScrollRule] [Crc32] in
/-- The element of a station that receives as a map says, whatever else it can. -/
def vhtReceiver (info : VHTCapabilitiesInfo) (rest : SupportedVHTMCSAndNSSSet) (m : VHTMCSMap) : VHTCapabilitiesElement :=
  ⟨info, rest.with_rx_vht_mcs_map m.bits⟩

end Spec

open Spec

/-! ## Maps -/

private theorem top_of (o : Option VHTMCSSupport) (map n : Nat)
    (h : o = if 1 ≤ n ∧ n ≤ 8 then vhtSupport (map / 4 ^ (n - 1) % 4) else none) : o.bind topMcs = mcsFor map n := by
  rw [h, mcsFor]
  by_cases hn : 1 ≤ n ∧ n ≤ 8
  · rw [if_pos hn, if_pos hn]
    have h4 : map / 4 ^ (n - 1) % 4 < 4 := Nat.mod_lt _ (by decide)
    generalize map / 4 ^ (n - 1) % 4 = c at h4
    match c, h4 with
    | 0, _ | 1, _ | 2, _ | 3, _ => rfl
  · rw [if_neg hn, if_neg hn]
    rfl

private theorem mapTop_eq (m : VHTMCSMap) (n : Nat) : mapTop m n = mcsFor m.bits.toNat n := by
  rw [mapTop]
  exact top_of _ _ _ (c15_support m n)

private theorem outside (map n : Nat) (h : ¬ (1 ≤ n ∧ n ≤ 8)) : mcsFor map n = none := by
  rw [mcsFor, if_neg h]

private theorem best_of (rx tx : Nat → Option Nat) (h : ∀ n, ¬ (1 ≤ n ∧ n ≤ 8) → tx n = none) :
    BestStreams rx tx ([8, 7, 6, 5, 4, 3, 2, 1].findSome? fun n =>
      match rx n, tx n with
      | some a, some b => some (n, min a b)
      | _, _ => none) := by
  have key (k : Nat) : ∀ l : List Nat, (∀ n, k ≤ n → rx n = none ∨ tx n = none) → l = (List.range k).reverse →
      BestStreams rx tx (l.findSome? fun n => match rx n, tx n with
        | some a, some b => some (n, min a b)
        | _, _ => none) := by
    induction k with
    | zero =>
      rintro l h rfl
      exact fun n => h n (by omega)
    | succ k ih =>
      rintro l h rfl
      rw [List.range_succ, List.reverse_append, List.reverse_singleton, List.singleton_append, List.findSome?_cons]
      cases ha : rx k with
      | none =>
        refine ih _ (fun n hn => ?_) rfl
        rcases Nat.eq_or_lt_of_le hn with rfl | hn
        · exact .inl ha
        · exact h n hn
      | some a =>
        cases hb : tx k with
        | none =>
          refine ih _ (fun n hn => ?_) rfl
          rcases Nat.eq_or_lt_of_le hn with rfl | hn
          · exact .inr hb
          · exact h n hn
        | some b => exact ⟨⟨a, b, ha, hb, rfl⟩, fun n hn => h n hn⟩
  have := key 9 [8, 7, 6, 5, 4, 3, 2, 1, 0] (fun n hn => .inr (h n (by omega))) (by decide)
  rw [show ([8, 7, 6, 5, 4, 3, 2, 1, 0] : List Nat) = [8, 7, 6, 5, 4, 3, 2, 1] ++ [0] from rfl, List.findSome?_append] at this
  have h0 : ([0] : List Nat).findSome? (fun n => match rx n, tx n with
      | some a, some b => some (n, min a b)
      | _, _ => none) = none := by
    simp only [List.findSome?_cons, List.findSome?_nil, h 0 (by omega)]
    split <;> simp_all
  rw [h0, Option.or_none] at this
  exact this

variable [ScrollRule]

private theorem vht_safe (p : Bytes) : readVHTCapabilities p ≠ .panic := by
  intro h
  by_cases hp : p.length < 12
  · obtain ⟨e, he⟩ := c12_vht_capabilities.short p hp
    rw [he] at h; cases h
  · obtain ⟨a, r, hv, rfl⟩ := c12_vht_capabilities.onto p (by omega)
    rw [c12_vht_capabilities.read a r hv] at h; cases h

private def vhtFrom (p : Bytes) : VHTCapabilitiesElement :=
  match readVHTCapabilities p with
  | .ok (e, _) => e
  | _ => ⟨⟨0⟩, ⟨0⟩⟩

private theorem vht_parsed (p : Bytes) : parsed vhtCapabilitiesKind p = if 12 ≤ p.length then some (vhtFrom p) else none := by
  have hsl := slack_le
  by_cases hp : 12 ≤ p.length
  · obtain ⟨a, r, hv, rfl⟩ := c12_vht_capabilities.onto p hp
    rw [if_pos hp, parsed, if_neg (by omega)]
    simp only [vhtCapabilitiesKind, vhtFrom, c12_vht_capabilities.read a r hv]
  · rw [if_neg hp, parsed]
    obtain ⟨e, he⟩ := c12_vht_capabilities.short p (by omega)
    simp only [vhtCapabilitiesKind, he, ite_self]

/-- For all elements: the sender uses exactly the streams that both have, by the octets of the standard. -/
theorem c110_exact (own : VHTMCSMap) (els : Bytes) (raws : List RawElement) (h : ElementsOf els raws) :
    ∃ o, streamsIn own els = .ok o ∧ BestStreams (receives raws) (mcsFor own.bits.toNat) o := by
  have h1 := getFirst_said h 191 vhtCapabilitiesKind rfl vht_safe 12 _ vht_parsed
  simp only [BitVec.reduceToNat] at h1
  simp only [streamsIn, h1, Res.ok_bind]
  cases hs : saidIn 191 12 raws with
  | none =>
    refine ⟨none, rfl, fun n => .inl ?_⟩
    rw [receives, hs]
    rfl
  | some p =>
    refine ⟨_, rfl, ?_⟩
    have hp : 12 ≤ p.length := by
      obtain ⟨r, -, hr⟩ := List.exists_of_findSome?_eq_some hs
      split at hr
      · rename_i hc
        cases hr
        exact hc.2
      · cases hr
    obtain ⟨a, r, hv, rfl⟩ := c12_vht_capabilities.onto p hp
    have hrd := c12_vht_capabilities.read a r hv
    have hrx : receives raws = mapTop (vhtFrom (toLE a.vht_capabilities_info.bits ++
        toLE a.supported_vht_mcs_and_nss_set.bits ++ r)).supported_vht_mcs_and_nss_set.rxMap := by
      funext n
      rw [receives, hs, mapTop, Option.bind_some, vhtFrom, hrd]
      exact (top_of _ _ _ ((c58_vht_maps _ _ _ hrd n).1)).symm
    have htx : mcsFor own.bits.toNat = mapTop own := by
      funext n
      rw [mapTop_eq]
    rw [hrx, htx]
    exact best_of _ _ fun n hn => by rw [mapTop_eq]; exact outside _ _ hn

variable [Crc32]

/-- For frames: a beacon or a probe response of the crate with any elements, and what the sender makes of it.  Partial: HT control
must agree with the order bit, and under the strict rule of `scroll` neither the name nor the last element is empty. -/
theorem c110_heard_partial (own : VHTMCSMap) (resp : Bool) (a : Surroundings) (name : Str) (fcs : Bool)
    (h : (OnAir.network resp a name).Fine fcs) :
    ∃ size, ∀ buf : Bytes, size ≤ buf.length → ∃ frame o, announce resp a name fcs buf = .ok frame ∧
      streamsHeard own fcs frame = .ok (some (a.header.bssid, o)) ∧
      BestStreams (receives (a.elements name)) (mcsFor own.bits.toNat) o := by
  obtain ⟨ha, hn1, hn2⟩ := h
  have hn : SSIDLikeElement.new name = some ⟨name⟩ := (c10_new _ _).2 ⟨hn2, rfl⟩
  obtain ⟨x, hx⟩ := announced_item name _ hn
  obtain ⟨size, hA⟩ := announce_arrives resp a ha _ _ x hx (fun _ => hn1) fcs
  refine ⟨size, fun buf hb => ?_⟩
  obtain ⟨frame, els, h1, ⟨j, h2⟩, h3⟩ := hA buf hb
  obtain ⟨o, h4, h5⟩ := c110_exact own els _ h3
  refine ⟨frame, o, by rw [announce, hn]; exact h1, ?_, h5⟩
  simp only [streamsHeard, h2, h4, Res.ok_bind]
  rfl

/-- Nothing panics, unless a check sequence is expected in fewer than four bytes. -/
theorem c110_panics_iff (own : VHTMCSMap) (fcs : Bool) (frame : Bytes) :
    streamsHeard own fcs frame = .panic ↔ fcs = true ∧ frame.length < 4 := by
  rw [← (match_mgmt readBeaconLike readBeaconLike_safe (fun r => (r.1.bssid, r.2.elements)) [.Beacon, .ProbeResponse]
    (by decide) fcs frame).1]
  simp only [List.map_cons, List.map_nil]
  unfold streamsHeard
  split
  · rename_i hr
    simp [hr]
  · rename_i hr
    simp [hr]
  · rename_i els hr
    obtain ⟨raws, hraws⟩ := elementsOf_exists els
    obtain ⟨o, h1, -⟩ := c110_exact own _ _ hraws
    rw [hr, h1]
    simp [pure]

/-- Whatever is received, nothing is sent with streams or an MCS that a beacon or probe response of the receiver does not have. -/
theorem c110_heard_only (own : VHTMCSMap) (fcs : Bool) (frame : Bytes) (who : Mac) (streams mcs : Nat)
    (h : streamsHeard own fcs frame = .ok (some (who, some (streams, mcs)))) :
    ∃ (h : ManagementFrameHeader) (b0 : Byte) (fixed els : Bytes) (raws : List RawElement) (top ours : Nat),
      frame = withFcs fcs (b0 :: h.fcf_flags.bits :: (mgmtHeaderWire h ++ (fixed ++ els))) ∧
      (b0.toNat / 4 % 4, b0.toNat / 16) ∈ [(0, 8), (0, 5)] ∧ HtConsistent h ∧ h.bssid = who ∧ fixed.length = 12 ∧
      ElementsOf els raws ∧ receives raws streams = some top ∧ mcs ≤ top ∧
      mcsFor own.bits.toNat streams = some ours ∧ mcs ≤ ours := by
  have hm := (match_mgmt readBeaconLike readBeaconLike_safe (fun r => (r.1.bssid, r.2.elements)) [.Beacon, .ProbeResponse]
    (by decide) fcs frame).2.2
  simp only [List.map_cons, List.map_nil] at hm
  unfold streamsHeard at h
  split at h
  · cases h
  · cases h
  · rename_i j bs els hr
    obtain ⟨inner, hin, k, hk, hkind, ⟨hd, body⟩, n, hread, hx⟩ := hm _ _ hr
    simp only [Prod.mk.injEq] at hx
    obtain ⟨rfl, rfl⟩ := hx
    have hbr : Bounded readBeaconLike := by
      intro inp b k h
      obtain ⟨_, _, _, _, h, _⟩ := c22_beacon.parse inp b k h
      omega
    obtain ⟨b0, rest, m, h1, h2, h3, h4, -⟩ := c23_parse _ hbr false inner hd body n hread
    obtain ⟨fx, h5, h6, -⟩ := c22_beacon.parse _ _ _ h4
    obtain ⟨raws, hraws⟩ := elementsOf_exists body.elements
    obtain ⟨o', h7, h8⟩ := c110_exact own _ _ hraws
    rw [h7, Res.ok_bind] at h
    simp only [pure, Res.ok.injEq, Option.some.injEq, Prod.mk.injEq] at h
    obtain ⟨rfl, rfl⟩ := h
    obtain ⟨⟨a, b, e1, e2, rfl⟩, -⟩ := h8
    refine ⟨hd, b0, fx, body.elements, raws, a, b, ?_, ?_, h3, rfl, h6, hraws, e1, Nat.min_le_left _ _, e2,
      Nat.min_le_right _ _⟩
    · rw [hin, h1, h5]
      rfl
    · obtain ⟨c0, c1, r', hc, hk1, hk2, -⟩ := hkind
      rw [h1] at hc
      simp only [withFcs, Bool.false_eq_true, if_false, List.cons.injEq] at hc
      obtain ⟨rfl, -⟩ := hc
      rw [hk1, hk2]
      simp only [List.mem_cons, List.not_mem_nil, or_false] at hk
      rcases hk with rfl | rfl <;> simp [kindNumber]

/-! ## Maps that the crate builds -/

omit [ScrollRule] [Crc32] in
private theorem fold_small (l : List VHTMCSSupport) (i : Nat) (acc b : BitVec 16) (ha : acc.toNat < 256)
    (h : VHTMCSMap.foldSupport i acc l = .ok b) : b.toNat < 256 := by
  induction l generalizing i acc with
  | nil => cases h; exact ha
  | cons s l ih =>
    rw [VHTMCSMap.foldSupport] at h
    split at h
    · refine ih _ _ ?_ h
      rw [BitVec.toNat_or]
      refine Nat.or_lt_two_pow (n := 8) ha ?_
      rw [BitVec.zeroExtend_eq_setWidth, BitVec.toNat_setWidth]
      have := (s.intoBits <<< (i * 2)).isLt
      omega
    · cases h

omit [ScrollRule] [Crc32] in
private theorem built_claims (l : List VHTMCSSupport) (m : VHTMCSMap) (h : VHTMCSMap.fromIter l = .ok m) (n : Nat)
    (hn : 5 ≤ n ∧ n ≤ 8) : mcsFor m.bits.toNat n = some 7 := by
  have hb : m.bits.toNat < 256 := by
    rw [VHTMCSMap.fromIter] at h
    cases hf : VHTMCSMap.foldSupport 0 0 (l.take 8) with
    | ok b =>
      rw [hf] at h
      cases h
      exact fold_small _ _ _ _ (by decide) hf
    | err e => rw [hf] at h; cases h
    | panic => rw [hf] at h; cases h
  have : 4 ^ 4 ≤ 4 ^ (n - 1) := Nat.pow_le_pow_right (by decide) (by omega)
  rw [mcsFor, if_pos (by omega), Nat.div_eq_of_lt (Nat.lt_of_lt_of_le hb this)]
  rfl

omit [ScrollRule] [Crc32] in
/-- What a station says with a map of the crate is what it receives. -/
theorem c110_said (raws : List RawElement) (info : VHTCapabilitiesInfo) (rest : SupportedVHTMCSAndNSSSet) (m : VHTMCSMap)
    (h : saidIn 191 12 raws = some (toLE (vhtReceiver info rest m).vht_capabilities_info.bits ++
      toLE (vhtReceiver info rest m).supported_vht_mcs_and_nss_set.bits)) (n : Nat) :
    receives raws n = mcsFor m.bits.toNat n := by
  letI : ScrollRule := ⟨true⟩
  have hrd := c12_vht_capabilities.read (vhtReceiver info rest m) [] trivial
  have hm : (vhtReceiver info rest m).supported_vht_mcs_and_nss_set.rxMap = m := by
    obtain ⟨bits⟩ := m
    simp only [vhtReceiver, SupportedVHTMCSAndNSSSet.rxMap]
    congr 1
    exact getField_setField_same _ _ _ _ (by decide)
  rw [List.append_nil] at hrd
  have ht := top_of _ _ _ ((c58_vht_maps _ _ _ hrd n).1)
  rw [hm] at ht
  rw [receives, h, Option.bind_some, ← mapTop_eq, mapTop]
  exact ht.symm

/-- Violation: from a list of levels, however short, the crate builds a map with MCS 0 to 7 for five to eight streams.  Who can
send with five or more streams sends so, and the station, for which a list has at most four levels (C15), does not receive. -/
theorem c110_built_wrong (l : List VHTMCSSupport) (m : VHTMCSMap) (hm : VHTMCSMap.fromIter l = .ok m)
    (info : VHTCapabilitiesInfo) (rest : SupportedVHTMCSAndNSSSet) (own : VHTMCSMap) (k : Nat) (hk : 5 ≤ k ∧ k ≤ 8)
    (hown : mcsFor own.bits.toNat k ≠ none) (resp : Bool) (a : Surroundings) (name : Str) (fcs : Bool)
    (h : (OnAir.network resp a name).Fine fcs)
    (hs : saidIn 191 12 (a.elements name) = some (toLE (vhtReceiver info rest m).vht_capabilities_info.bits ++
      toLE (vhtReceiver info rest m).supported_vht_mcs_and_nss_set.bits)) :
    ∃ size, ∀ buf : Bytes, size ≤ buf.length → ∃ frame streams mcs, announce resp a name fcs buf = .ok frame ∧
      streamsHeard own fcs frame = .ok (some (a.header.bssid, some (streams, mcs))) ∧ l.length < 5 ∧ 5 ≤ streams := by
  obtain ⟨size, hA⟩ := c110_heard_partial own resp a name fcs h
  refine ⟨size, fun buf hb => ?_⟩
  obtain ⟨frame, o, h1, h2, h3⟩ := hA buf hb
  have hrx : receives (a.elements name) k = some 7 := by
    rw [c110_said _ info rest m hs, built_claims l m hm k hk]
  have hl : l.length < 5 := by
    rcases Nat.lt_or_ge l.length 5 with h | h
    · exact h
    · rw [c15_build_five_panics l h] at hm; cases hm
  cases o with
  | none =>
    rcases h3 k with h | h
    · rw [hrx] at h; cases h
    · exact absurd h hown
  | some q =>
    obtain ⟨n, mcs⟩ := q
    refine ⟨frame, n, mcs, h1, h2, hl, ?_⟩
    rcases Nat.lt_or_ge n k with hlt | hge
    · rcases h3.2 k hlt with h | h
      · rw [hrx] at h; cases h
      · exact absurd h hown
    · omega

/-- Stations as they should be: one that says in its map that it does not receive five or more streams is not sent to so. -/
theorem c110_plain_partial (m own : VHTMCSMap) (info : VHTCapabilitiesInfo) (rest : SupportedVHTMCSAndNSSSet) (most : Nat)
    (hmost : ∀ n, most < n → mcsFor m.bits.toNat n = none) (resp : Bool) (a : Surroundings) (name : Str) (fcs : Bool)
    (h : (OnAir.network resp a name).Fine fcs)
    (hs : saidIn 191 12 (a.elements name) = some (toLE (vhtReceiver info rest m).vht_capabilities_info.bits ++
      toLE (vhtReceiver info rest m).supported_vht_mcs_and_nss_set.bits)) :
    ∃ size, ∀ buf : Bytes, size ≤ buf.length → ∃ frame o, announce resp a name fcs buf = .ok frame ∧
      streamsHeard own fcs frame = .ok (some (a.header.bssid, o)) ∧ ∀ streams mcs, o = some (streams, mcs) → streams ≤ most := by
  obtain ⟨size, hA⟩ := c110_heard_partial own resp a name fcs h
  refine ⟨size, fun buf hb => ?_⟩
  obtain ⟨frame, o, h1, h2, h3⟩ := hA buf hb
  refine ⟨frame, o, h1, h2, ?_⟩
  rintro n mcs rfl
  obtain ⟨⟨x, _, hx, -⟩, -⟩ := h3
  rw [c110_said _ info rest m hs] at hx
  rcases Nat.lt_or_ge most n with hlt | hge
  · rw [hmost n hlt] at hx; cases hx
  · exact hge

/-- An access point with a map for what it receives. -/
private def exReceiver (m : VHTMCSMap) : OnAir :=
  .network false ⟨⟨⟨0⟩, 0, Arr.zero 6, Arr.zero 6, ⟨[2, 0, 0, 0, 0, 1], rfl⟩, ⟨0⟩, none⟩, ⟨0, 100, ⟨0⟩, ()⟩, [],
    [(.typed (vhtCapabilitiesElem (vhtReceiver ⟨0⟩ ⟨0⟩ m)), ⟨191, toLE (0 : BitVec 32) ++
      toLE (vhtReceiver ⟨0⟩ ⟨0⟩ m).supported_vht_mcs_and_nss_set.bits⟩)]⟩ ⟨[0x6d], rfl⟩

/-- Concrete case: a receiver with two streams, MCS 0 to 9 and 0 to 8; one that the crate built from these two levels. -/
example :
    letI : ScrollRule := ⟨true⟩
    letI : Crc32 := ⟨fun _ => 0⟩
    (do let fs ← transmit true (List.replicate 60 0) [exReceiver ⟨0xfff6⟩]
        streamsHeard ⟨0xaaaa⟩ true (fs.headD [])) = .ok (some (⟨[2, 0, 0, 0, 0, 1], rfl⟩, some (2, 8))) ∧
    (do let m ← VHTMCSMap.fromIter [.ZeroToNine, .ZeroToEight]
        let fs ← transmit true (List.replicate 60 0) [exReceiver m]
        streamsHeard ⟨0xaaaa⟩ true (fs.headD [])) = .ok (some (⟨[2, 0, 0, 0, 0, 1], rfl⟩, some (8, 7))) := by
  exact ⟨by decide +kernel, by decide +kernel⟩

/-- Concrete case: such receivers are fine. -/
example (fcs : Bool) (m : VHTMCSMap) : (exReceiver m).Fine fcs := by
  have hs := slack_le
  refine ⟨⟨by unfold HtConsistent; simp; decide, ?_, ?_⟩, by simp; omega, by simp⟩
  · intro p hp
    simp only [List.nil_append, List.mem_cons, List.not_mem_nil, or_false] at hp
    subst hp
    exact ⟨(c54_vht_capabilities (vhtReceiver ⟨0⟩ ⟨0⟩ m)).item, show ¬ (191 : Byte) = 0 by decide⟩
  · intro p hp
    simp only [List.getLast?_singleton, Option.some.injEq] at hp
    subst hp
    simp
    omega

end Verif
