import Verif.Props.C106
/-!
# C118: no network is taken for less protected than it is

A network is open, or protected by the old encryption (WEP), or by a robust one (RSN).  It says so in two places (12.2.3 and 9.4.2.24
of the standard): if there is an RSN element of version 1, it is robust; otherwise the privacy bit of the capabilities tells the old
encryption from none.  A station that overlooks the element would send under the old encryption or in the clear.  The station is not
in the crate; it is written here with the functions of the crate.
-/
namespace Verif

namespace Spec

/-- How a network is protected. -/
inductive Cover
  | bare
  | old
  | robust
  deriving DecidableEq, Repr

/-- There is an RSN element of version 1: element 48, which begins with the octets 1 and 0. -/
def SaysRobust (raws : List RawElement) : Prop := ∃ r ∈ raws, r.tlv_type.toNat = 48 ∧ [1, 0] <+: r.slice

instance (raws : List RawElement) : Decidable (SaysRobust raws) := by unfold SaysRobust; infer_instance

/-- By the first octet of the capabilities, of which bit 4 is privacy, and the elements. -/
def coverOf (c0 : Byte) (raws : List RawElement) : Cover :=
  if SaysRobust raws then .robust else if c0.toNat / 16 % 2 = 1 then .old else .bare

/-- The first octet of the capabilities of a station that announces a network. -/
def Surroundings.coverOctet (a : Surroundings) : Byte := (toLE a.fields.capabilities_info.bits).getD 0 0

/-! ## The station, with the functions of the crate -/

variable [ScrollRule]

/-- How the network of a frame with these capabilities and elements is protected. -/
def coverIn (c : CapabilitiesInformation) (els : Bytes) : Res Cover := do
  match ← getFirstElement els rsnKind with
  | some _ => pure .robust
  | none => pure (if c.is_confidentiality_required then .old else .bare)

variable [Crc32]

/-- By a frame: which network, and how it is protected. -/
def coverHeard (fcs : Bool) (frame : Bytes) : Res (Option (Mac × Cover)) :=
  match matchFrames frame (if fcs then some true else none)
    [armOf MgmtKind.Beacon.frame (readMgmtFrame readBeaconLike) fun r => r,
      armOf MgmtKind.ProbeResponse.frame (readMgmtFrame readBeaconLike) fun r => r] with
  | .panic => .panic
  | .err _ => .ok none
  | .ok (_, h, b) => do
    let x ← coverIn b.capabilities_info b.elements
    pure (some (h.bssid, x))

end Spec

open Spec

/-! ## Versions -/

section
variable [ScrollRule]

/-- A reader that does not fail. -/
private def Succeeds {α : Type} (p : Rd α) : Prop := ∀ inp off, ∃ x, p inp off = .ok x

omit [ScrollRule] in
private theorem Succeeds.pure {α : Type} (a : α) : Succeeds (Pure.pure a : Rd α) := fun _ off => ⟨(a, off), rfl⟩

omit [ScrollRule] in
private theorem Succeeds.bind {α β : Type} {p : Rd α} {f : α → Rd β} (hp : Succeeds p) (hf : ∀ a, Succeeds (f a)) :
    Succeeds (p >>= f) := by
  intro inp off
  obtain ⟨⟨a, off'⟩, h⟩ := hp inp off
  obtain ⟨x, hx⟩ := hf a inp off'
  refine ⟨x, ?_⟩
  show Rd.bind p f inp off = _
  simp only [Rd.bind, h, hx]

private theorem Succeeds.greadOk {α : Type} {r : Reader α} (h : SafeReader r) : Succeeds (Rd.greadOk r) := by
  intro inp off
  unfold Rd.greadOk Rd.gread
  split
  · exact ⟨_, rfl⟩
  · exact ⟨_, rfl⟩
  · rename_i hr
    have hs := h (inp.drop off)
    split at hr
    · cases hr
    · split at hr <;> rename_i h' <;> simp_all

private theorem list_succeeds : Succeeds readRsnList := by
  unfold readRsnList
  refine .bind (.greadOk (readLE_fixed _).safe) fun o => ?_
  cases o with
  | none => exact .pure _
  | some n =>
    refine .bind (.greadOk (readBytes_fixed _).safe) fun o => ?_
    cases o <;> exact .pure _

private theorem body_succeeds : Succeeds readRsnBody := by
  unfold readRsnBody
  refine .bind (.greadOk readCipherSuite_safe) fun o => ?_
  rcases o with _ | g
  · exact .pure _
  refine .bind list_succeeds fun o => ?_
  rcases o with _ | p
  · exact .pure _
  refine .bind list_succeeds fun o => ?_
  rcases o with _ | a
  · exact .pure _
  refine .bind (.greadOk (readLE_fixed _).safe) fun o => ?_
  rcases o with _ | c
  · exact .pure _
  refine .bind list_succeeds fun o => ?_
  rcases o with _ | m
  · exact .pure _
  refine .bind (.greadOk readCipherSuite_safe) fun o => ?_
  cases o <;> exact .pure _

/-- Only the version decides whether an RSN element is read: however it goes on, it is not overlooked. -/
theorem c118_version (inp : Bytes) : (∃ q n, readRsn inp = .ok (q, n)) ↔ [1, 0] <+: inp := by
  have hsl := slack_le
  unfold readRsn Rd.run
  constructor
  · rintro ⟨q, n, h⟩
    change Rd.bind _ _ inp 0 = _ at h
    simp only [Rd.bind, Rd.gread, badOff_eq] at h
    match inp, h with
    | [], h =>
      simp [readLE] at h
      split at h
      · rename_i hx
        split at hx <;> cases hx
      · cases h
      · cases h
    | [a], h =>
      simp [readLE] at h
      split at h
      · rename_i hx
        split at hx <;> cases hx
      · cases h
      · cases h
    | a :: b :: r, h =>
      rw [if_neg (by simp; omega)] at h
      have hr : readLE 16 (List.drop 0 (a :: b :: r)) = .ok (fromLE 16 [a, b], 2) := rfl
      simp only [hr] at h
      by_cases hv : fromLE 16 [a, b] = 1
      · have : toLE (fromLE 16 [a, b]) = [a, b] := toLE_fromLE (by decide) _ rfl
        rw [hv] at this
        have e : toLE (1 : BitVec 16) = [1, 0] := by decide
        rw [e] at this
        simp only [List.cons.injEq, and_true] at this
        obtain ⟨rfl, rfl⟩ := this
        exact ⟨r, rfl⟩
      · rw [if_pos hv] at h
        cases h
  · rintro ⟨r, rfl⟩
    change ∃ q n, Rd.bind _ _ ([1, 0] ++ r) 0 = _
    simp only [Rd.bind, Rd.gread, badOff_eq]
    rw [if_neg (by simp; omega)]
    have hr : readLE 16 (List.drop 0 ([1, 0] ++ r)) = .ok (1, 2) := rfl
    simp only [hr]
    obtain ⟨⟨q, n⟩, h⟩ := body_succeeds ([1, 0] ++ r) (0 + 2)
    exact ⟨q, n, by simpa using h⟩

private theorem rsn_parsed (p : Bytes) : parsed rsnKind p = none ↔ ¬ [1, 0] <+: p := by
  have hsl := slack_le
  rw [← c118_version]
  unfold parsed
  constructor
  · rintro h ⟨q, n, hq⟩
    split at h
    · rename_i hl
      obtain ⟨r, rfl⟩ := (c118_version p).1 ⟨q, n, hq⟩
      simp at hl
      omega
    · simp only [rsnKind, hq] at h
      cases h
  · intro h
    split
    · rfl
    · cases hq : readRsn p with
      | ok x => exact absurd ⟨x.1, x.2, hq⟩ h
      | err e => simp only [rsnKind, hq]
      | panic => simp only [rsnKind, hq]

/-- The station knows exactly how the network is protected. -/
theorem c118_exact (c : CapabilitiesInformation) (c0 c1 : Byte) (hc : toLE c.bits = [c0, c1]) (els : Bytes)
    (raws : List RawElement) (h : ElementsOf els raws) : coverIn c els = .ok (coverOf c0 raws) := by
  have hp : c.is_confidentiality_required = decide (c0.toNat / 16 % 2 = 1) := by
    have h' : toLE c.bits = [BitVec.ofNat 8 c.bits.toNat, BitVec.ofNat 8 (c.bits.toNat / 256)] := rfl
    rw [h'] at hc
    simp only [List.cons.injEq, and_true] at hc
    obtain ⟨rfl, rfl⟩ := hc
    show c.bits.getLsbD 4 = _
    rw [BitVec.getLsbD, Nat.testBit_eq_decide_div_mod_eq]
    congr 1
    simp
    omega
  have hn := c07_first_none h rsnKind (by simp [rsnKind]) (fun q => readRsn_safe.ne_panic q)
  obtain ⟨o, ho⟩ := (c08_lookup_safe els rsnKind (by simp [rsnKind]) fun q => readRsn_safe.ne_panic q).2.1
  have hiff : getFirstElement els rsnKind = .ok none ↔ ¬ SaysRobust raws := by
    rw [hn]
    constructor
    · rintro h ⟨⟨t, p⟩, hr, ht, hpre⟩
      obtain rfl : t = 48 := BitVec.eq_of_toNat_eq ht
      exact (rsn_parsed p).1 (h p hr) hpre
    · intro h p hr
      refine (rsn_parsed p).2 fun hpre => h ⟨_, hr, rfl, hpre⟩
  unfold coverIn coverOf
  cases o with
  | none =>
    rw [if_neg (hiff.1 ho), ho, hp]
    simp only [Res.ok_bind, decide_eq_true_eq]
    rfl
  | some q =>
    have : SaysRobust raws := Classical.byContradiction fun hc => by
      rw [hiff.2 hc] at ho
      cases ho
    rw [if_pos this, ho]
    rfl

end

/-- Whatever is said besides, before or after, nobody makes a robust network look less protected by adding elements, nor one with the
old encryption look open. -/
theorem c118_not_lowered (c0 : Byte) (raws more : List RawElement) (h : ∀ r ∈ raws, r ∈ more) :
    (coverOf c0 raws = .robust → coverOf c0 more = .robust) ∧ (coverOf c0 raws ≠ .bare → coverOf c0 more ≠ .bare) := by
  have hm : SaysRobust raws → SaysRobust more := fun ⟨r, hr, x⟩ => ⟨r, h r hr, x⟩
  unfold coverOf
  by_cases h1 : SaysRobust raws <;> by_cases h2 : SaysRobust more <;> by_cases h3 : c0.toNat / 16 % 2 = 1 <;> simp_all

variable [ScrollRule] [Crc32]

/-- The elements and the fields of an announcement arrive. -/
private theorem announced (resp : Bool) (a : Surroundings) (ha : a.Fine) (name : Str)
    (hn : slack ≤ name.bytes.length ∧ name.bytes.length ≤ 32) (fcs : Bool) :
    ∃ size, ∀ buf : Bytes, size ≤ buf.length → ∃ frame els j, announce resp a name fcs buf = .ok frame ∧
      matchFrames frame (if fcs then some true else none)
        [armOf MgmtKind.Beacon.frame (readMgmtFrame readBeaconLike) fun r => r,
          armOf MgmtKind.ProbeResponse.frame (readMgmtFrame readBeaconLike) fun r => r] =
        .ok (j, a.header, ⟨a.fields.timestamp, a.fields.beacon_interval, a.fields.capabilities_info, els⟩) ∧
      ElementsOf els (a.elements name) := by
  have he : SSIDLikeElement.new name = some ⟨name⟩ := (c10_new name _).2 ⟨hn.2, rfl⟩
  obtain ⟨x, hx⟩ := announced_item name _ he
  obtain ⟨y, hch⟩ := chainAround_of a.before a.after (fun p hp => (ha.items p hp).1) _ _ x hx
  have hlast : ∀ q, (a.before.map Prod.snd ++ (⟨0, name.bytes⟩ : RawElement) :: a.after.map Prod.snd).getLast? = some q →
      slack ≤ q.slice.length := by
    intro q hq
    rw [List.getLast?_append, List.getLast?_cons] at hq
    cases hg : (a.after.map Prod.snd).getLast? with
    | none =>
      rw [hg] at hq
      simp at hq
      subst hq
      exact hn.1
    | some r' =>
      rw [hg] at hq
      simp at hq
      subst hq
      rw [List.getLast?_map] at hg
      obtain ⟨p, hp, rfl⟩ := Option.map_eq_some_iff.1 hg
      exact ha.last p hp
  cases resp
  · obtain ⟨size, hA⟩ := c65_bodies_partial.2.2.2.2.1 a.header ha.ht
      ⟨a.fields.timestamp, a.fields.beacon_interval, a.fields.capabilities_info, (a.chain (.typed (ssidElem ⟨name⟩))).obj⟩ _ _ y
      rfl hch hlast trivial fcs _ (fun r => r) []
      [armOf MgmtKind.ProbeResponse.frame (readMgmtFrame readBeaconLike) fun r => r] (by simp)
    refine ⟨size, fun buf hb => ?_⟩
    obtain ⟨out, n, els, h1, h2, h3⟩ := hA buf hb
    refine ⟨out.take n, els, _, ?_, h2, h3⟩
    simp only [announce, he, announceWith]
    erw [h1]
    rfl
  · obtain ⟨size, hA⟩ := c65_bodies_partial.2.2.2.1 a.header ha.ht
      ⟨a.fields.timestamp, a.fields.beacon_interval, a.fields.capabilities_info, (a.chain (.typed (ssidElem ⟨name⟩))).obj⟩ _ _ y
      rfl hch hlast trivial fcs _ (fun r => r)
      [armOf MgmtKind.Beacon.frame (readMgmtFrame readBeaconLike) fun r => r] [] (by
        intro b hb
        obtain rfl := List.mem_singleton.1 hb
        exact .inr (.inr ⟨.Beacon, .inl (by decide), rfl⟩))
    refine ⟨size, fun buf hb => ?_⟩
    obtain ⟨out, n, els, h1, h2, h3⟩ := hA buf hb
    refine ⟨out.take n, els, _, ?_, h2, h3⟩
    simp only [announce, he, announceWith]
    erw [h1]
    rfl

/-- For frames: a beacon or a probe response of the crate with any elements, and what a station takes the network for.  Partial: HT
control must agree with the order bit, and under the strict rule of `scroll` neither the name nor the last element is empty. -/
theorem c118_heard_partial (resp : Bool) (a : Surroundings) (name : Str) (fcs : Bool) (h : (OnAir.network resp a name).Fine fcs) :
    ∃ size, ∀ buf : Bytes, size ≤ buf.length → ∃ frame, announce resp a name fcs buf = .ok frame ∧
      coverHeard fcs frame = .ok (some (a.header.bssid, coverOf a.coverOctet (a.elements name))) := by
  obtain ⟨ha, hn⟩ := h
  obtain ⟨size, hA⟩ := announced resp a ha name hn fcs
  refine ⟨size, fun buf hb => ?_⟩
  obtain ⟨frame, els, j, h1, h2, h3⟩ := hA buf hb
  refine ⟨frame, h1, ?_⟩
  simp only [coverHeard, h2]
  rw [c118_exact a.fields.capabilities_info a.coverOctet _ rfl els _ h3]
  rfl

/-- Nothing panics, unless a check sequence is expected in fewer than four bytes. -/
theorem c118_panics_iff (fcs : Bool) (frame : Bytes) :
    coverHeard fcs frame = .panic ↔ fcs = true ∧ frame.length < 4 := by
  rw [← (match_mgmt readBeaconLike readBeaconLike_safe (fun r => r) [.Beacon, .ProbeResponse] (by decide) fcs frame).1]
  simp only [List.map_cons, List.map_nil]
  unfold coverHeard
  split <;> rename_i hr
  · simp [hr]
  · simp [hr]
  · rename_i j hd b
    obtain ⟨raws, hraws⟩ := elementsOf_exists b.elements
    rw [c118_exact b.capabilities_info _ _ rfl b.elements raws hraws, hr]
    simp only [Res.ok_bind, pure]
    simp

/-- Whatever is received, a network is taken for what a beacon or a probe response of it says. -/
theorem c118_heard_only (fcs : Bool) (frame : Bytes) (who : Mac) (x : Cover)
    (h : coverHeard fcs frame = .ok (some (who, x))) :
    ∃ (h : ManagementFrameHeader) (b0 c0 c1 : Byte) (times els : Bytes) (raws : List RawElement),
      frame = withFcs fcs (b0 :: h.fcf_flags.bits :: (mgmtHeaderWire h ++ (times ++ [c0, c1] ++ els))) ∧
      (b0.toNat / 4 % 4, b0.toNat / 16) ∈ [(0, 8), (0, 5)] ∧ HtConsistent h ∧ h.bssid = who ∧ times.length = 10 ∧
      ElementsOf els raws ∧ x = coverOf c0 raws := by
  have hm := (match_mgmt readBeaconLike readBeaconLike_safe (fun r => r) [.Beacon, .ProbeResponse] (by decide) fcs frame).2.2
  simp only [List.map_cons, List.map_nil] at hm
  unfold coverHeard at h
  split at h
  · cases h
  · cases h
  · rename_i j hd b hr
    obtain ⟨inner, hin, k, hk, hkind, ⟨hd', body⟩, m, hread, he⟩ := hm _ _ hr
    obtain ⟨rfl, rfl⟩ : hd = hd' ∧ b = body := by simpa using he
    have hbr : Bounded readBeaconLike := by
      intro inp b k h
      obtain ⟨_, _, _, _, h, _⟩ := c22_beacon.parse inp b k h
      omega
    obtain ⟨b0, rest, m, h1, h2, h3, h4, -⟩ := c23_parse _ hbr false inner hd b _ hread
    obtain ⟨fx, h5, -, rfl, -⟩ := c22_beacon.parse _ _ _ h4
    obtain ⟨c0, c1, hcs⟩ : ∃ c0 c1, toLE b.capabilities_info.bits = [c0, c1] := ⟨_, _, rfl⟩
    obtain ⟨raws, hraws⟩ := elementsOf_exists b.elements
    rw [c118_exact b.capabilities_info _ _ hcs b.elements raws hraws] at h
    simp only [Res.ok_bind, pure, Res.ok.injEq, Option.some.injEq, Prod.mk.injEq] at h
    obtain ⟨rfl, rfl⟩ := h
    refine ⟨hd, b0, c0, c1, toLE b.timestamp ++ toLE b.beacon_interval, b.elements, raws, ?_, ?_, h3, rfl, by simp,
      hraws, rfl⟩
    · rw [hin, h1, h5, ← hcs]
      rfl
    · obtain ⟨d0, d1, r', hc, hk1, hk2, -⟩ := hkind
      rw [h1] at hc
      simp only [withFcs, Bool.false_eq_true, if_false, List.cons.injEq] at hc
      obtain ⟨rfl, -⟩ := hc
      rw [hk1, hk2]
      simp only [List.mem_cons, List.not_mem_nil, or_false] at hk
      rcases hk with rfl | rfl <;> simp [kindNumber]

/-! ## Concrete cases -/

/-- Robust with a short element, the old encryption with an element of another version, and open. -/
example : coverOf 0x11 [⟨0, [97]⟩, ⟨48, [1, 0]⟩] = .robust ∧ coverOf 0x11 [⟨48, [2, 0]⟩] = .old ∧ coverOf 0x01 [⟨0, [97]⟩] = .bare ∧
    coverOf 0x01 [⟨48, [1, 0, 0, 0x0f, 0xac]⟩] = .robust := by decide

/-- Adding elements: the hypothesis of `c118_not_lowered`. -/
example : ∀ r ∈ [(⟨48, [1, 0]⟩ : RawElement)], r ∈ [(⟨48, [2, 0]⟩ : RawElement), ⟨48, [1, 0]⟩] := by decide

/-- Concrete case: an access point with privacy and without RSN element is heard, and taken for one with the old encryption. -/
example : ∃ size, ∀ buf : Bytes, size ≤ buf.length → ∃ frame,
    announce false ⟨⟨⟨0⟩, 0, Arr.zero 6, Arr.zero 6, Arr.zero 6, ⟨0⟩, none⟩, ⟨0, 100, ⟨0x0011⟩, ()⟩, [], []⟩
      ⟨[97], by decide⟩ true buf = .ok frame ∧
    coverHeard true frame = .ok (some (Arr.zero 6, .old)) := by
  have hsl := slack_le
  refine c118_heard_partial false _ _ true ⟨⟨?_, ?_, ?_⟩, ?_, ?_⟩
  · show (none : Option (Arr 4)).isSome = (⟨0⟩ : FCFFlags).order
    decide
  · intro p hp
    cases hp
  · intro p hp
    cases hp
  · simp; omega
  · decide

end Verif
