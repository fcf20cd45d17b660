import Verif.Props.C106
import Verif.Props.C87
import Verif.Props.C46
/-!
# C112: a transmission is one that its receiver understands

An HT station says in the HT capabilities element (9.4.2.55) which MCS it receives, and whether 40 MHz, a short guard interval and
LDPC codes.  Who sends to it describes each transmission in an HT-SIG (C87), and leaves away what the other does not have.  The
program is not in the crate; it is written here with the functions of the crate.
-/
namespace Verif

namespace Spec

/-- What the receiver with the capabilities `p` understands, by the bits of the element: those of the MCS begin with octet 3. -/
structure Understands (p : Bytes) (t : Transmission) : Prop where
  mcs : bitAt p (24 + t.mcs) = true
  wide : t.wide = true → bitAt p 1 = true
  ldpc : t.ldpc = true → bitAt p 0 = true
  guard_narrow : t.shortGi = true → t.wide = false → bitAt p 5 = true
  guard_wide : t.shortGi = true → t.wide = true → bitAt p 6 = true
  streams : t.stbc = 0

/-- What a sender can and would like to do: MCS in the order of its preference. -/
structure Wish where
  prefs : List Nat
  wide : Bool
  shortGi : Bool
  ldpc : Bool
  length : Nat
  prefs_lt : ∀ m ∈ prefs, m < 77
  length_lt : length < 65536

/-- With this width an MCS is understood; MCS 32 is for 40 MHz only. -/
def UsableMcs (p : Bytes) (wide : Bool) (m : Nat) : Prop := bitAt p (24 + m) = true ∧ (m = 32 → wide = true)

/-- The transmission is that of the wish, but for what the other does not have. -/
structure Granted (w : Wish) (p : Bytes) (t : Transmission) : Prop where
  mcs : ∃ before after, w.prefs = before ++ t.mcs :: after ∧ UsableMcs p t.wide t.mcs ∧ ∀ m ∈ before, ¬ UsableMcs p t.wide m
  wide : t.wide = (w.wide && bitAt p 1)
  ldpc : t.ldpc = (w.ldpc && bitAt p 0)
  guard : t.shortGi = (w.shortGi && if t.wide then bitAt p 6 else bitAt p 5)
  length : t.length = w.length
  plain : t.stbc = 0 ∧ t.aggregated = false ∧ t.sounding = false ∧ t.smoothing = true

/-! ## The sender, with the functions of the crate -/

/-- The HT-SIG of a transmission to a station. -/
def sigFor (w : Wish) (e : HTCapabilitiesElement) : Option HtSig :=
  let i := e.ht_capabilities_info
  let wide := w.wide && i.supported_channel_width_set
  let gi := w.shortGi && if wide then i.short_gi_40mhz else i.short_gi_20mhz
  (w.prefs.find? fun m => e.supported_mcs_set.supportedRxMcsIndices.getD m false && (m != 32 || wide)).map fun m =>
    ((((((HtSig.new.with_mcs (BitVec.ofNat 7 m)).with_is_40mhz wide).with_ht_length
      (BitVec.ofNat 16 w.length)).with_smoothing_recommended true).with_not_sounding true).with_is_ldpc
      (w.ldpc && i.ldpc_coding_capability)).with_short_gi gi

variable [ScrollRule] [Crc32]

omit [Crc32] in
/-- By the elements of a frame. -/
def sigIn (w : Wish) (els : Bytes) : Res (Option HtSig) := do
  match ← getFirstElement els htCapabilitiesKind with
  | none => pure none
  | some e => pure (sigFor w e)

/-- By a frame: to whom, and how. -/
def sigHeard (w : Wish) (fcs : Bool) (frame : Bytes) : Res (Option (Mac × Option HtSig)) :=
  match matchFrames frame (if fcs then some true else none)
    [armOf MgmtKind.Beacon.frame (readMgmtFrame readBeaconLike) fun r => (r.1.bssid, r.2.elements),
      armOf MgmtKind.ProbeResponse.frame (readMgmtFrame readBeaconLike) fun r => (r.1.bssid, r.2.elements)] with
  | .panic => .panic
  | .err _ => .ok none
  | .ok (_, who, els) => do
    let x ← sigIn w els
    pure (some (who, x))

omit [ScrollRule] [Crc32] in
/-- What the HT-SIG should be. -/
def RightSig (w : Wish) (raws : List RawElement) : Option HtSig → Prop
  | none => ∀ p, saidIn 45 26 raws = some p → ∀ m ∈ w.prefs, ¬ UsableMcs p (w.wide && bitAt p 1) m
  | some s => ∃ p t, saidIn 45 26 raws = some p ∧ Describes s t ∧ Granted w p t

end Spec

open Spec

/-! ## The octets of the element -/

private theorem ht_bits (e : HTCapabilitiesElement) (i : Nat) :
    (i < 8 → bitAt (htCapabilities e) i = e.ht_capabilities_info.bits.getLsbD i) ∧
    (i < 80 → bitAt (htCapabilities e) (24 + i) = bitAt e.supported_mcs_set.supported_rx_mcs_set.val i) := by
  obtain ⟨⟨b⟩, ⟨a⟩, ⟨⟨set, hset⟩, ⟨fl⟩⟩, ⟨x⟩, ⟨t⟩, ⟨s⟩⟩ := e
  refine ⟨fun h => ?_, fun h => ?_⟩
  · have h0 : i / 8 = 0 := by omega
    have h1 : i % 8 = i := by omega
    simp only [bitAt, htCapabilities, h0, h1, toLE, leBytes]
    simp only [List.cons_append, List.getD_cons_zero, BitVec.getLsbD_ofNat, h, decide_true, Bool.true_and]
    rfl
  · have h0 : (24 + i) / 8 = i / 8 + 3 := by omega
    have h1 : (24 + i) % 8 = i % 8 := by omega
    simp only [bitAt, htCapabilities, h0, h1, toLE, leBytes]
    simp only [List.cons_append, List.nil_append, List.append_assoc, List.getD_cons_succ]
    have : i / 8 < set.length := by omega
    simp [List.getD_eq_getElem?_getD, List.getElem?_append_left this]

private theorem bits_taken (l : Bytes) (n i : Nat) (h : i < 8 * n) : bitAt (l.take n) i = bitAt l i := by
  simp only [bitAt, List.getD_eq_getElem?_getD]
  rw [List.getElem?_take, if_pos (by omega)]

private theorem bits_before (l r : Bytes) (i : Nat) (h : i < 8 * l.length) : bitAt (l ++ r) i = bitAt l i := by
  simp only [bitAt, List.getD_eq_getElem?_getD]
  rw [List.getElem?_append_left (by omega)]

/-! ## One station -/

private theorem find_first (f : Nat → Bool) (l : List Nat) :
    match l.find? f with
    | none => ∀ m ∈ l, f m = false
    | some m => ∃ before after, l = before ++ m :: after ∧ f m = true ∧ ∀ x ∈ before, f x = false := by
  induction l with
  | nil => exact fun m hm => by cases hm
  | cons a l ih =>
    rw [List.find?_cons]
    cases ha : f a with
    | true => exact ⟨[], l, rfl, ha, fun x hx => by cases hx⟩
    | false =>
      simp only
      split at ih
      · rename_i hn
        intro m hm
        rcases List.mem_cons.1 hm with rfl | hm
        · exact ha
        · exact ih m hm
      · rename_i m hn
        obtain ⟨b, c, h1, h2, h3⟩ := ih
        refine ⟨a :: b, c, by rw [h1]; rfl, h2, fun x hx => ?_⟩
        rcases List.mem_cons.1 hx with rfl | hx
        · exact ha
        · exact h3 x hx

private theorem unset_stbc (m : BitVec 7) (wide : Bool) (len : BitVec 16) (l g : Bool) :
    ((((((HtSig.new.with_mcs m).with_is_40mhz wide).with_ht_length len).with_smoothing_recommended true).with_not_sounding
      true).with_is_ldpc l).with_short_gi g =
    ((((((((HtSig.new.with_mcs m).with_is_40mhz wide).with_ht_length len).with_smoothing_recommended true).with_not_sounding
      (!false)).with_is_ampdu false).with_spatial_stream_count (BitVec.ofNat 2 0)).with_is_ldpc l).with_short_gi g := by
  obtain ⟨h0, h1, h2, h3, h4, -, h6, h7, h8, h9⟩ := c03_HtSig
  have key : ∀ s t : HtSig, (∀ i, i < 32 → s.bits.getLsbD i = t.bits.getLsbD i) → s = t := by
    rintro ⟨s⟩ ⟨t⟩ h
    congr 1
    exact BitVec.eq_of_getLsbD_eq h
  refine key _ _ fun i hi => ?_
  simp only [h9.2.2, h8.2.2, h7.2.2, h6.2.2, h4.2.2, h3.2.2, h2.2.2, h1.2.2, h0.2.2]
  by_cases ha : i = 27
  · subst ha
    rfl
  · by_cases hb : 28 ≤ i ∧ i < 30
    · have : HtSig.new.bits.getLsbD i = false := by
        rcases (by omega : i = 28 ∨ i = 29) with rfl | rfl <;> rfl
      simp [hb.1, hb.2, show i ≠ 31 by omega, show i ≠ 30 by omega, show i ≠ 25 by omega, show i ≠ 24 by omega,
        show i ≠ 7 by omega, show ¬ i < 24 by omega, show ¬ i < 7 by omega, this]
    · simp [ha, hb]

private theorem sig_describes (t : Transmission) (h0 : t.stbc = 0) (h1 : t.aggregated = false) (h2 : t.sounding = false)
    (h3 : t.smoothing = true) :
    Describes (((((((HtSig.new.with_mcs (BitVec.ofNat 7 t.mcs)).with_is_40mhz t.wide).with_ht_length
      (BitVec.ofNat 16 t.length)).with_smoothing_recommended true).with_not_sounding true).with_is_ldpc
      t.ldpc).with_short_gi t.shortGi) t := by
  have h := c87_build_partial t
  rw [h0, h1, h2, h3] at h
  rw [unset_stbc]
  exact h

private theorem sigFor_right (w : Wish) (e : HTCapabilitiesElement) (p : Bytes)
    (h0 : ∀ i, i < 8 → bitAt p i = e.ht_capabilities_info.bits.getLsbD i)
    (h1 : ∀ i, i < 80 → bitAt p (24 + i) = bitAt e.supported_mcs_set.supported_rx_mcs_set.val i) :
    match sigFor w e with
    | none => ∀ m ∈ w.prefs, ¬ UsableMcs p (w.wide && bitAt p 1) m
    | some s => ∃ t, Describes s t ∧ Granted w p t := by
  obtain ⟨c0, c1, -, -, c5, c6, -⟩ := c03_HTCapabilitiesInfo
  have hw : e.ht_capabilities_info.supported_channel_width_set = bitAt p 1 := by rw [c1.2.1, h0 1 (by omega)]
  have hl : e.ht_capabilities_info.ldpc_coding_capability = bitAt p 0 := by rw [c0.2.1, h0 0 (by omega)]
  have hn : e.ht_capabilities_info.short_gi_20mhz = bitAt p 5 := by rw [c5.2.1, h0 5 (by omega)]
  have hg : e.ht_capabilities_info.short_gi_40mhz = bitAt p 6 := by rw [c6.2.1, h0 6 (by omega)]
  have husable : ∀ m ∈ w.prefs, (e.supported_mcs_set.supportedRxMcsIndices.getD m false &&
      (m != 32 || (w.wide && bitAt p 1))) = true ↔ UsableMcs p (w.wide && bitAt p 1) m := by
    intro m hm
    have hm := w.prefs_lt m hm
    rw [List.getD_eq_getElem?_getD, c46_indices, if_pos (by omega), Option.getD_some, ← h1 m (by omega), UsableMcs]
    by_cases h32 : m = 32 <;> simp [h32]
  simp only [sigFor, hw, hl, hn, hg]
  have hf := find_first (fun m => e.supported_mcs_set.supportedRxMcsIndices.getD m false &&
      (m != 32 || (w.wide && bitAt p 1))) w.prefs
  split at hf
  · rename_i hnone
    rw [hnone]
    intro m hm hu
    have := hf m hm
    rw [(husable m hm).2 hu] at this
    cases this
  · rename_i m hsome
    rw [hsome]
    obtain ⟨before, after, e1, e2, e3⟩ := hf
    have hm : m ∈ w.prefs := by rw [e1]; simp
    have hd := sig_describes ⟨m, w.wide && bitAt p 1, w.length, true, false, false, 0, w.ldpc && bitAt p 0,
      w.shortGi && if w.wide && bitAt p 1 then bitAt p 6 else bitAt p 5, w.prefs_lt m hm, w.length_lt, by omega⟩
      rfl rfl rfl rfl
    dsimp only at hd
    rw [Option.map_some]
    refine ⟨_, hd, ⟨⟨before, after, e1, (husable m hm).1 e2, fun x hx hu => ?_⟩, rfl, rfl, rfl, rfl, rfl, rfl, rfl, rfl⟩⟩
    · have := e3 x hx
      rw [(husable x (by rw [e1]; simp [hx])).2 hu] at this
      cases this

/-- What is granted is understood. -/
theorem c112_understood (w : Wish) (p : Bytes) (t : Transmission) (h : Granted w p t) : Understands p t := by
  obtain ⟨before, after, -, hu, -⟩ := h.mcs
  have h1 := h.wide
  have h2 := h.ldpc
  have h3 := h.guard
  refine ⟨hu.1, fun hw => ?_, fun hl => ?_, fun hg hw => ?_, fun hg hw => ?_, h.plain.1⟩
  · rw [hw] at h1
    exact (Bool.and_eq_true_iff.1 h1.symm).2
  · rw [hl] at h2
    exact (Bool.and_eq_true_iff.1 h2.symm).2
  · rw [hg, hw] at h3
    exact (Bool.and_eq_true_iff.1 h3.symm).2
  · rw [hg, hw] at h3
    exact (Bool.and_eq_true_iff.1 h3.symm).2

variable [ScrollRule]

private theorem ht_safe (p : Bytes) : readHTCapabilities p ≠ .panic := by
  intro h
  by_cases hp : p.length < 26
  · obtain ⟨e, he⟩ := c13_short p hp
    rw [he] at h; cases h
  · obtain ⟨e, he, -⟩ := c13_parse_write p (by omega)
    rw [he] at h; cases h

private def htFrom (p : Bytes) : HTCapabilitiesElement :=
  match readHTCapabilities p with
  | .ok (e, _) => e
  | _ => ⟨⟨0⟩, ⟨0⟩, ⟨Arr.zero 10, ⟨0⟩⟩, ⟨0⟩, ⟨0⟩, ⟨0⟩⟩

private theorem ht_parsed (p : Bytes) : parsed htCapabilitiesKind p = if 26 ≤ p.length then some (htFrom p) else none := by
  have hsl := slack_le
  by_cases hp : 26 ≤ p.length
  · obtain ⟨e, he, -⟩ := c13_parse_write p hp
    rw [if_pos hp, parsed, if_neg (by omega)]
    simp only [htCapabilitiesKind, htFrom, he]
  · rw [if_neg hp, parsed]
    obtain ⟨e, he⟩ := c13_short p (by omega)
    simp only [htCapabilitiesKind, he, ite_self]

/-- For all elements: the HT-SIG is right, by the octets of the standard. -/
theorem c112_exact (w : Wish) (els : Bytes) (raws : List RawElement) (h : ElementsOf els raws) :
    ∃ o, sigIn w els = .ok o ∧ RightSig w raws o := by
  have h1 := getFirst_said h 45 htCapabilitiesKind rfl ht_safe 26 _ ht_parsed
  simp only [BitVec.reduceToNat] at h1
  simp only [sigIn, h1, Res.ok_bind]
  cases hs : saidIn 45 26 raws with
  | none =>
    refine ⟨none, rfl, fun p hp => ?_⟩
    rw [hs] at hp; cases hp
  | some p =>
    have hp : 26 ≤ p.length := by
      obtain ⟨r, -, hr⟩ := List.exists_of_findSome?_eq_some hs
      split at hr
      · rename_i hc
        cases hr
        exact hc.2
      · cases hr
    obtain ⟨e, he, hw⟩ := c13_parse_write p hp
    have hbits : ∀ i, i < 136 → bitAt p i = bitAt (htCapabilities e) i := by
      intro i hi
      rw [hw, List.append_assoc, bits_before _ _ _ (by rw [List.length_take]; omega), bits_taken _ _ _ (by omega)]
    have hr := sigFor_right w e p (fun i hi => by rw [hbits i (by omega), (ht_bits e i).1 hi])
      (fun i hi => by rw [hbits _ (by omega), (ht_bits e i).2 hi])
    refine ⟨_, rfl, ?_⟩
    have hf : htFrom p = e := by simp only [htFrom, he]
    rw [hf]
    cases ho : sigFor w e with
    | none =>
      rw [ho] at hr
      intro q hq
      rw [hs] at hq
      cases hq
      exact hr
    | some s =>
      rw [ho] at hr
      obtain ⟨t, e1, e2⟩ := hr
      exact ⟨p, t, hs, e1, e2⟩

variable [Crc32]

/-- For frames: a beacon or a probe response of the crate with any elements, and what the sender makes of it.  Partial: HT control
must agree with the order bit, and under the strict rule of `scroll` neither the name nor the last element is empty. -/
theorem c112_heard_partial (w : Wish) (resp : Bool) (a : Surroundings) (name : Str) (fcs : Bool)
    (h : (OnAir.network resp a name).Fine fcs) :
    ∃ size, ∀ buf : Bytes, size ≤ buf.length → ∃ frame o, announce resp a name fcs buf = .ok frame ∧
      sigHeard w fcs frame = .ok (some (a.header.bssid, o)) ∧ RightSig w (a.elements name) o := by
  obtain ⟨ha, hn1, hn2⟩ := h
  have hn : SSIDLikeElement.new name = some ⟨name⟩ := (c10_new _ _).2 ⟨hn2, rfl⟩
  obtain ⟨x, hx⟩ := announced_item name _ hn
  obtain ⟨size, hA⟩ := announce_arrives resp a ha _ _ x hx (fun _ => hn1) fcs
  refine ⟨size, fun buf hb => ?_⟩
  obtain ⟨frame, els, h1, ⟨j, h2⟩, h3⟩ := hA buf hb
  obtain ⟨o, h4, h5⟩ := c112_exact w els _ h3
  refine ⟨frame, o, by rw [announce, hn]; exact h1, ?_, h5⟩
  simp only [sigHeard, h2, h4, Res.ok_bind]
  rfl

/-- Nothing panics, unless a check sequence is expected in fewer than four bytes. -/
theorem c112_panics_iff (w : Wish) (fcs : Bool) (frame : Bytes) :
    sigHeard w fcs frame = .panic ↔ fcs = true ∧ frame.length < 4 := by
  rw [← (match_mgmt readBeaconLike readBeaconLike_safe (fun r => (r.1.bssid, r.2.elements)) [.Beacon, .ProbeResponse]
    (by decide) fcs frame).1]
  simp only [List.map_cons, List.map_nil]
  unfold sigHeard
  split
  · rename_i hr
    simp [hr]
  · rename_i hr
    simp [hr]
  · rename_i els hr
    obtain ⟨raws, hraws⟩ := elementsOf_exists els
    obtain ⟨o, h1, -⟩ := c112_exact w _ _ hraws
    rw [hr, h1]
    simp [pure]

/-- Whatever is received, an HT-SIG is of a transmission that the station understands by its own beacon or probe response. -/
theorem c112_heard_only (w : Wish) (fcs : Bool) (frame : Bytes) (who : Mac) (s : HtSig)
    (h : sigHeard w fcs frame = .ok (some (who, some s))) :
    ∃ (h : ManagementFrameHeader) (b0 : Byte) (fixed els : Bytes) (raws : List RawElement) (p : Bytes) (t : Transmission),
      frame = withFcs fcs (b0 :: h.fcf_flags.bits :: (mgmtHeaderWire h ++ (fixed ++ els))) ∧
      (b0.toNat / 4 % 4, b0.toNat / 16) ∈ [(0, 8), (0, 5)] ∧ HtConsistent h ∧ h.bssid = who ∧ fixed.length = 12 ∧
      ElementsOf els raws ∧ saidIn 45 26 raws = some p ∧ Describes s t ∧ Understands p t ∧ t.length = w.length ∧
      t.mcs ∈ w.prefs := by
  have hm := (match_mgmt readBeaconLike readBeaconLike_safe (fun r => (r.1.bssid, r.2.elements)) [.Beacon, .ProbeResponse]
    (by decide) fcs frame).2.2
  simp only [List.map_cons, List.map_nil] at hm
  unfold sigHeard at h
  split at h
  · cases h
  · cases h
  · rename_i j bs els hr
    obtain ⟨inner, hin, k, hk, hkind, ⟨hd, body⟩, n, hread, hx⟩ := hm _ _ hr
    simp only [Prod.mk.injEq] at hx
    obtain ⟨rfl, rfl⟩ := hx
    have hbr : Bounded readBeaconLike := by
      intro inp b k h
      obtain ⟨_, _, _, _, h, _⟩ := c22_beacon.parse inp b k h
      omega
    obtain ⟨b0, rest, m, h1, h2, h3, h4, -⟩ := c23_parse _ hbr false inner hd body n hread
    obtain ⟨fx, h5, h6, -⟩ := c22_beacon.parse _ _ _ h4
    obtain ⟨raws, hraws⟩ := elementsOf_exists body.elements
    obtain ⟨o', h7, h8⟩ := c112_exact w _ _ hraws
    rw [h7, Res.ok_bind] at h
    simp only [pure, Res.ok.injEq, Option.some.injEq, Prod.mk.injEq] at h
    obtain ⟨rfl, rfl⟩ := h
    obtain ⟨p, t, e1, e2, e3⟩ := h8
    refine ⟨hd, b0, fx, body.elements, raws, p, t, ?_, ?_, h3, rfl, h6, hraws, e1, e2, c112_understood w p t e3, e3.length, ?_⟩
    · rw [hin, h1, h5]
      rfl
    · obtain ⟨c0, c1, r', hc, hk1, hk2, -⟩ := hkind
      rw [h1] at hc
      simp only [withFcs, Bool.false_eq_true, if_false, List.cons.injEq] at hc
      obtain ⟨rfl, -⟩ := hc
      rw [hk1, hk2]
      simp only [List.mem_cons, List.not_mem_nil, or_false] at hk
      rcases hk with rfl | rfl <;> simp [kindNumber]
    · obtain ⟨before, after, e4, -, -⟩ := e3.mcs
      rw [e4]
      simp

/-! ## Receivers whose set the crate builds -/

omit [ScrollRule] [Crc32] in
/-- A receiver with a set built from flags: exactly its MCS up to 75 are usable. -/
theorem c112_built_partial (l : List Bool) (set : Arr 10) (hset : generateSupportedRxMcsSet l = .ok set.val)
    (e : HTCapabilitiesElement) (he : e.supported_mcs_set.supported_rx_mcs_set = set) (wide : Bool) (m : Nat) (hm : m < 76) :
    UsableMcs (htCapabilities e) wide m ↔ l.getD m false = true ∧ (m = 32 → wide = true) := by
  obtain ⟨b, h1, -, h2⟩ := c46_generate_partial l
  rw [h1] at hset
  cases hset
  rw [UsableMcs, (ht_bits e m).2 (by omega), he, h2]
  simp [hm]

omit [ScrollRule] [Crc32] in
/-- Violation: a receiver of MCS 76 with a set that the crate builds from flags is never sent to with it, even by a sender that
prefers it, or can do nothing else. -/
theorem c112_last_lost (l : List Bool) (set : Arr 10) (hset : generateSupportedRxMcsSet l = .ok set.val)
    (e : HTCapabilitiesElement) (he : e.supported_mcs_set.supported_rx_mcs_set = set) (w : Wish) (raws : List RawElement)
    (hs : saidIn 45 26 raws = some (htCapabilities e)) (o : Option HtSig) (ho : RightSig w raws o) :
    (∀ s, o = some s → s.mcs.toNat ≠ 76) ∧ (w.prefs = [76] → o = none) := by
  have hno : ∀ wide, ¬ UsableMcs (htCapabilities e) wide 76 := by
    intro wide hu
    have h1 := hu.1
    rw [(ht_bits e 76).2 (by omega), he, c46_generate_loses_76 l _ hset] at h1
    cases h1
  have key : ∀ s, o = some s → s.mcs.toNat ≠ 76 ∧ s.mcs.toNat ∈ w.prefs := by
    rintro s rfl
    obtain ⟨p, t, e1, e2, e3⟩ := ho
    rw [hs] at e1
    cases e1
    obtain ⟨before, after, e4, e5, -⟩ := e3.mcs
    rw [(c87_read_partial s t e2).1]
    refine ⟨fun h => hno t.wide (by rwa [h] at e5), by rw [e4]; simp⟩
  refine ⟨fun s hs => (key s hs).1, fun hp => ?_⟩
  cases o with
  | none => rfl
  | some s =>
    obtain ⟨h1, h2⟩ := key s rfl
    rw [hp] at h2
    exact absurd (by simpa using h2) h1

/-! ## Concrete cases -/

/-- An access point with one stream, and MCS 32. -/
private def exHt (info : HTCapabilitiesInfo) : HTCapabilitiesElement :=
  ⟨info, ⟨0⟩, ⟨⟨[0xff, 0, 0, 0, 1, 0, 0, 0, 0, 0], rfl⟩, ⟨0⟩⟩, ⟨0⟩, ⟨0⟩, ⟨0⟩⟩
private def exAp (info : HTCapabilitiesInfo) : OnAir :=
  .network false ⟨⟨⟨0⟩, 0, Arr.zero 6, Arr.zero 6, ⟨[2, 0, 0, 0, 0, 1], rfl⟩, ⟨0⟩, none⟩, ⟨0, 100, ⟨0⟩, ()⟩, [],
    [(.typed (htCapabilitiesElem (exHt info)), ⟨45, htCapabilities (exHt info)⟩)]⟩ ⟨[0x6d], rfl⟩

/-- A sender that prefers two streams, then MCS 32, then MCS 7, with everything. -/
private def exWish : Wish := ⟨[15, 32, 7], true, true, true, 1500, by decide, by decide⟩

/-- With 40 MHz and its short guard interval MCS 32 is used; without 40 MHz MCS 7, and the guard interval is that of 20 MHz. -/
example :
    letI : ScrollRule := ⟨true⟩
    letI : Crc32 := ⟨fun _ => 0⟩
    (do
      let fs ← transmit true (List.replicate 80 0) [exAp ⟨0x42⟩]
      let r ← sigHeard exWish true (fs.headD [])
      pure (r.bind fun (q : Mac × Option HtSig) => q.2.map fun (s : HtSig) =>
        (s.mcs.toNat, s.is_40mhz, s.short_gi, s.is_ldpc, s.ht_length.toNat))) =
      .ok (some (32, true, true, false, 1500)) ∧
    (do
      let fs ← transmit true (List.replicate 80 0) [exAp ⟨0x21⟩]
      let r ← sigHeard exWish true (fs.headD [])
      pure (r.bind fun (q : Mac × Option HtSig) => q.2.map fun (s : HtSig) =>
        (s.mcs.toNat, s.is_40mhz, s.short_gi, s.is_ldpc, s.ht_length.toNat))) =
      .ok (some (7, false, true, true, 1500)) := by
  exact ⟨by decide +kernel, by decide +kernel⟩

/-- Such access points are fine. -/
example (fcs : Bool) (info : HTCapabilitiesInfo) : (exAp info).Fine fcs := by
  have hs := slack_le
  refine ⟨⟨by unfold HtConsistent; simp; decide, ?_, ?_⟩, by simp; omega, by simp⟩
  · intro p hp
    simp only [List.nil_append, List.mem_cons, List.not_mem_nil, or_false] at hp
    subst hp
    exact ⟨(c54_ht_capabilities (exHt info)).item, show ¬ (45 : Byte) = 0 by decide⟩
  · intro p hp
    simp only [List.getLast?_singleton, Option.some.injEq] at hp
    subst hp
    rw [(c13_write _).2.1]
    omega

/-- A set built from 77 flags, all of them set. -/
example : ∃ set : Arr 10, generateSupportedRxMcsSet (List.replicate 77 true) = .ok set.val ∧
    bitAt set.val 75 = true ∧ bitAt set.val 76 = false :=
  ⟨⟨[255, 255, 255, 255, 255, 255, 255, 255, 255, 15], rfl⟩, by decide +kernel, by decide, by decide⟩

end Verif
