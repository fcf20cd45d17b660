import Verif.Props.C106
/-!
# C113: old stations are protected

An access point says in its HT operation element (9.4.2.56) which stations are around that do not understand HT transmissions, and
the stations of its network then send an RTS or a CTS to themselves before such transmissions (10.27.3).  The program is not in the
crate; it is written here with the functions of the crate.
-/
namespace Verif

namespace Spec

/-- 10.27.3, by octet 2 of the element: HT protection in the two low bits (no, nonmember, 20 MHz, non-HT mixed), then the bit for
stations without HT greenfield.  What is to be sent may be 40 MHz wide, and may be HT greenfield. -/
def mustProtect (wide greenfield : Bool) (p : Bytes) : Bool :=
  match octetAt p 2 % 4 with
  | 0 => greenfield && decide (octetAt p 2 / 4 % 2 = 1)
  | 2 => wide || (greenfield && decide (octetAt p 2 / 4 % 2 = 1))
  | _ => true

/-! ## The sender, with the functions of the crate -/

/-- By the HT operation element. -/
def protectFor (wide greenfield : Bool) (e : HTOperationElement) : Bool :=
  let i := e.ht_operation_information
  (match HTProtectionMode.fromBits (i.ht_protection_mode.zeroExtend 8) with
    | .None => false
    | .TwentyMHz => wide
    | _ => true) || (greenfield && i.nongreenfield_ht_sta_present)

variable [ScrollRule] [Crc32]

omit [Crc32] in
/-- By the elements of a frame; nothing for networks without HT. -/
def protectIn (wide greenfield : Bool) (els : Bytes) : Res (Option Bool) := do
  match ← getFirstElement els htOperationKind with
  | none => pure none
  | some e => pure (some (protectFor wide greenfield e))

/-- By a frame: in which network, and whether to protect. -/
def protectHeard (wide greenfield fcs : Bool) (frame : Bytes) : Res (Option (Mac × Option Bool)) :=
  match matchFrames frame (if fcs then some true else none)
    [armOf MgmtKind.Beacon.frame (readMgmtFrame readBeaconLike) fun r => (r.1.bssid, r.2.elements),
      armOf MgmtKind.ProbeResponse.frame (readMgmtFrame readBeaconLike) fun r => (r.1.bssid, r.2.elements)] with
  | .panic => .panic
  | .err _ => .ok none
  | .ok (_, who, els) => do
    let x ← protectIn wide greenfield els
    pure (some (who, x))

end Spec

open Spec

/-! ## The octet of the element -/

private theorem mode_bits (n : BitVec 2) (wide : Bool) :
    (match HTProtectionMode.fromBits (n.zeroExtend 8) with
      | .None => false
      | .TwentyMHz => wide
      | _ => true) = (match n.toNat with | 0 => false | 2 => wide | _ => true) := by
  revert n wide; decide

/-- The program by the bits of the word. -/
private theorem protectFor_octet (wide greenfield : Bool) (e : HTOperationElement) (p : Bytes)
    (h : (toLE e.ht_operation_information.bits).getD 1 0 = p.getD 2 0) :
    protectFor wide greenfield e = mustProtect wide greenfield p := by
  obtain ⟨-, -, -, ⟨-, hf, -⟩, ⟨-, hb, -⟩, -⟩ := c03_HTOperationInformation
  have h0 : octetAt p 2 = e.ht_operation_information.bits.toNat / 256 % 256 := by
    rw [octetAt, ← h]
    show (BitVec.ofNat 8 (e.ht_operation_information.bits.toNat / 256)).toNat = _
    simp
  have h1 : e.ht_operation_information.ht_protection_mode.toNat = octetAt p 2 % 4 := by
    have : e.ht_operation_information.ht_protection_mode = (e.ht_operation_information.bits >>> 8).truncate 2 := by
      apply BitVec.eq_of_getLsbD_eq
      intro k hk
      rw [hf _ k hk]
      simp [hk]
    rw [this, h0]
    simp [Nat.shiftRight_eq_div_pow]
  have h2 : e.ht_operation_information.nongreenfield_ht_sta_present = decide (octetAt p 2 / 4 % 2 = 1) := by
    rw [hb, h0, BitVec.getLsbD, Nat.testBit_eq_decide_div_mod_eq]
    congr 1
    simp
    omega
  simp only [protectFor, mode_bits, h1, h2, mustProtect]
  have hlt : octetAt p 2 % 4 < 4 := by omega
  generalize octetAt p 2 % 4 = m at hlt
  match m, hlt with
  | 0, _ => simp
  | 1, _ => simp
  | 2, _ => rfl
  | 3, _ => simp

private theorem written_second (e : HTOperationElement) (hb : e.ht_operation_information.bits.toNat < 2 ^ 48) :
    octetAt (writtenHt e) 2 = 0 := by
  have : toLE e.ht_operation_information.bits = leBytes 6 e.ht_operation_information.bits.toNat ++ [0, 0] := by
    show leBytes 8 e.ht_operation_information.bits.toNat = _
    generalize e.ht_operation_information.bits.toNat = x at hb
    simp only [leBytes, List.cons_append, List.nil_append, List.cons.injEq, true_and, and_true]
    rw [show x / 256 / 256 / 256 / 256 / 256 / 256 = 0 by omega]
    exact ⟨rfl, rfl⟩
  rw [octetAt, writtenHt, this, List.append_assoc, List.singleton_append, List.getD_cons_succ]
  simp

variable [ScrollRule]

private theorem ht_read (inp : Bytes) (h : 20 ≤ inp.length) : ∃ e, readHTOperation inp = .ok (e, 22) ∧
    (toLE e.ht_operation_information.bits).getD 1 0 = inp.getD 2 0 := by
  obtain ⟨b, r, rfl⟩ := exists_u8 (inp := inp) (by omega)
  simp at h
  obtain ⟨i, r, rfl⟩ := exists_arr 5 (inp := r) (by omega)
  simp at h
  obtain ⟨c, r, rfl⟩ := exists_arr 10 (inp := r) (by omega)
  simp at h
  obtain ⟨d, r, rfl⟩ := exists_arr 4 (inp := r) (by omega)
  have key : RdAt (Rd.gread readSupportedMCSSet >>= fun set => pure
      ({ primary_channel := b, ht_operation_information := ⟨fromLE 64 (i.val ++ [0, 0, 0])⟩,
         basic_ht_mcs_set := set } : HTOperationElement)) (c.val ++ (d.val ++ r))
      ⟨b, ⟨fromLE 64 (i.val ++ [0, 0, 0])⟩, ⟨c, ⟨fromLE 32 d.val⟩⟩⟩ 16 := by
    intro pre
    show Rd.bind _ _ _ _ = _
    have := RdAt.gread (readSupportedMCSSet_arr c d r) (by have := slack_le; simp; omega) pre
    simp only [Rd.bind, this]
    rfl
  refine ⟨⟨b, ⟨fromLE 64 (i.val ++ [0, 0, 0])⟩, ⟨c, ⟨fromLE 32 d.val⟩⟩⟩, ?_, ?_⟩
  · apply RdAt.run
    apply RdAt.cast
    · apply RdAt.u8
      apply RdAt.arr (hp := by decide)
      exact key
    · rfl
  · simp only [toLE_fromLE (w := 64) rfl (i.val ++ [0, 0, 0]) (by simp)]
    obtain ⟨l, hl⟩ := i
    match l, hl with
    | [x0, x1, x2, x3, x4], _ => rfl

/-- What is read. -/
private def htFrom (p : Bytes) : HTOperationElement :=
  match readHTOperation p with
  | .ok (e, _) => e
  | _ => ⟨0, ⟨0⟩, ⟨Arr.zero 10, ⟨0⟩⟩⟩

private theorem ht_parsed (p : Bytes) :
    parsed htOperationKind p = if 20 ≤ p.length then some (htFrom p) else none := by
  have hsl := slack_le
  by_cases hp : 20 ≤ p.length
  · rw [if_pos hp, parsed, if_neg (by omega)]
    obtain ⟨a, he, -⟩ := ht_read p hp
    simp only [htOperationKind, htFrom, he]
  · rw [if_neg hp, parsed]
    obtain ⟨e, he⟩ := c14_short p (by omega)
    simp only [htOperationKind, he]
    split <;> rfl

private theorem ht_safe (p : Bytes) : readHTOperation p ≠ .panic := by
  intro h
  by_cases hp : 20 ≤ p.length
  · obtain ⟨e, he, -⟩ := ht_read p hp
    rw [he] at h; cases h
  · obtain ⟨e, he⟩ := c14_short p (by omega)
    rw [he] at h; cases h

/-- For all elements: protection exactly where the first HT operation element demands it, and no answer without one. -/
theorem c113_exact (wide greenfield : Bool) (els : Bytes) (raws : List RawElement) (h : ElementsOf els raws) :
    protectIn wide greenfield els = .ok ((saidIn 61 20 raws).map (mustProtect wide greenfield)) := by
  have h1 := getFirst_said h 61 htOperationKind rfl ht_safe 20 _ ht_parsed
  simp only [BitVec.reduceToNat] at h1
  simp only [protectIn, h1, Res.ok_bind]
  cases hs : saidIn 61 20 raws with
  | none => rfl
  | some p =>
    have hp : 20 ≤ p.length := by
      obtain ⟨r, -, hr⟩ := List.exists_of_findSome?_eq_some hs
      split at hr
      · rename_i hc
        cases hr
        exact hc.2
      · cases hr
    obtain ⟨e, he, ho⟩ := ht_read p hp
    have hf : htFrom p = e := by simp only [htFrom, he]
    show Res.ok (some (protectFor wide greenfield (htFrom p))) = _
    rw [hf, protectFor_octet wide greenfield e p ho]
    rfl

variable [Crc32]

/-- For frames: a beacon or a probe response of the crate with any elements, and what a sender makes of it.  Partial: HT control
must agree with the order bit, and under the strict rule of `scroll` neither the name nor the last element is empty. -/
theorem c113_heard_partial (wide greenfield resp : Bool) (a : Surroundings) (name : Str) (fcs : Bool)
    (h : (OnAir.network resp a name).Fine fcs) :
    ∃ size, ∀ buf : Bytes, size ≤ buf.length → ∃ frame, announce resp a name fcs buf = .ok frame ∧
      protectHeard wide greenfield fcs frame =
        .ok (some (a.header.bssid, (saidIn 61 20 (a.elements name)).map (mustProtect wide greenfield))) := by
  obtain ⟨ha, hn1, hn2⟩ := h
  have hn : SSIDLikeElement.new name = some ⟨name⟩ := (c10_new _ _).2 ⟨hn2, rfl⟩
  obtain ⟨x, hx⟩ := announced_item name _ hn
  obtain ⟨size, hA⟩ := announce_arrives resp a ha _ _ x hx (fun _ => hn1) fcs
  refine ⟨size, fun buf hb => ?_⟩
  obtain ⟨frame, els, h1, ⟨j, h2⟩, h3⟩ := hA buf hb
  refine ⟨frame, by rw [announce, hn]; exact h1, ?_⟩
  simp only [protectHeard, h2, c113_exact wide greenfield els _ h3, Res.ok_bind]
  rfl

/-- Nothing panics, unless a check sequence is expected in fewer than four bytes. -/
theorem c113_panics_iff (wide greenfield fcs : Bool) (frame : Bytes) :
    protectHeard wide greenfield fcs frame = .panic ↔ fcs = true ∧ frame.length < 4 := by
  rw [← (match_mgmt readBeaconLike readBeaconLike_safe (fun r => (r.1.bssid, r.2.elements)) [.Beacon, .ProbeResponse]
    (by decide) fcs frame).1]
  simp only [List.map_cons, List.map_nil]
  unfold protectHeard
  split
  · rename_i hr
    simp [hr]
  · rename_i hr
    simp [hr]
  · rename_i els hr
    obtain ⟨raws, hraws⟩ := elementsOf_exists els
    rw [hr, c113_exact wide greenfield _ _ hraws]
    simp [pure]

/-- Whatever is received, a decision is that of an HT operation element which a beacon or a probe response of this network
carries. -/
theorem c113_heard_only (wide greenfield fcs : Bool) (frame : Bytes) (who : Mac) (o : Option Bool)
    (h : protectHeard wide greenfield fcs frame = .ok (some (who, o))) :
    ∃ (h : ManagementFrameHeader) (b0 : Byte) (fixed els : Bytes) (raws : List RawElement),
      frame = withFcs fcs (b0 :: h.fcf_flags.bits :: (mgmtHeaderWire h ++ (fixed ++ els))) ∧
      (b0.toNat / 4 % 4, b0.toNat / 16) ∈ [(0, 8), (0, 5)] ∧ HtConsistent h ∧ h.bssid = who ∧ fixed.length = 12 ∧
      ElementsOf els raws ∧ o = (saidIn 61 20 raws).map (mustProtect wide greenfield) := by
  have hm := (match_mgmt readBeaconLike readBeaconLike_safe (fun r => (r.1.bssid, r.2.elements)) [.Beacon, .ProbeResponse]
    (by decide) fcs frame).2.2
  simp only [List.map_cons, List.map_nil] at hm
  unfold protectHeard at h
  split at h
  · cases h
  · cases h
  · rename_i j bs els hr
    obtain ⟨inner, hin, k, hk, hkind, ⟨hd, body⟩, n, hread, hx⟩ := hm _ _ hr
    simp only [Prod.mk.injEq] at hx
    obtain ⟨rfl, rfl⟩ := hx
    have hbr : Bounded readBeaconLike := by
      intro inp b k h
      obtain ⟨_, _, _, _, h, _⟩ := c22_beacon.parse inp b k h
      omega
    obtain ⟨b0, rest, m, h1, h2, h3, h4, -⟩ := c23_parse _ hbr false inner hd body n hread
    obtain ⟨fx, h5, h6, -⟩ := c22_beacon.parse _ _ _ h4
    obtain ⟨raws, hraws⟩ := elementsOf_exists body.elements
    rw [c113_exact wide greenfield _ _ hraws, Res.ok_bind] at h
    simp only [pure, Res.ok.injEq, Option.some.injEq, Prod.mk.injEq] at h
    obtain ⟨rfl, rfl⟩ := h
    refine ⟨hd, b0, fx, body.elements, raws, ?_, ?_, h3, rfl, h6, hraws, rfl⟩
    · rw [hin, h1, h5]
      rfl
    · obtain ⟨c0, c1, r', hc, hk1, hk2, -⟩ := hkind
      rw [h1] at hc
      simp only [withFcs, Bool.false_eq_true, if_false, List.cons.injEq] at hc
      obtain ⟨rfl, -⟩ := hc
      rw [hk1, hk2]
      simp only [List.mem_cons, List.not_mem_nil, or_false] at hk
      rcases hk with rfl | rfl <;> simp [kindNumber]

/-! ## Access points that make the element with the crate -/

/-- Violation: whatever protection an access point demands with the setters of the crate (the bits from 33 on are reserved, and no
setter sets them), the element that it sends demands none, and so old stations are not protected. -/
theorem c113_unprotected (wide greenfield resp : Bool) (a : Surroundings) (name : Str) (fcs : Bool)
    (h : (OnAir.network resp a name).Fine fcs) (e : HTOperationElement)
    (hb : e.ht_operation_information.bits.toNat < 2 ^ 48)
    (hs : saidIn 61 20 (a.elements name) = some (writtenHt e)) :
    ∃ size, ∀ buf : Bytes, size ≤ buf.length → ∃ frame, announce resp a name fcs buf = .ok frame ∧
      protectHeard wide greenfield fcs frame = .ok (some (a.header.bssid, some false)) := by
  obtain ⟨size, hA⟩ := c113_heard_partial wide greenfield resp a name fcs h
  refine ⟨size, fun buf hb' => ?_⟩
  obtain ⟨frame, h1, h2⟩ := hA buf hb'
  refine ⟨frame, h1, ?_⟩
  rw [h2, hs, Option.map_some, mustProtect, written_second e hb]
  simp

omit [ScrollRule] [Crc32] in
/-- The loss is one of writing: exactly the elements that demand nothing keep their meaning in the octets that the crate writes. -/
theorem c113_kept_iff (e : HTOperationElement) (hb : e.ht_operation_information.bits.toNat < 2 ^ 48) :
    (∀ wide greenfield, mustProtect wide greenfield (writtenHt e) = protectFor wide greenfield e) ↔
      HTProtectionMode.fromBits (e.ht_operation_information.ht_protection_mode.zeroExtend 8) = .None ∧
      e.ht_operation_information.nongreenfield_ht_sta_present = false := by
  have hz : ∀ wide greenfield, mustProtect wide greenfield (writtenHt e) = false := by
    intro wide greenfield
    rw [mustProtect, written_second e hb]
    simp
  constructor
  · intro h
    have h1 := h true true
    rw [hz] at h1
    simp only [protectFor, Bool.true_and] at h1
    have h1 := Bool.or_eq_false_iff.1 h1.symm
    refine ⟨?_, h1.2⟩
    have h2 := h1.1
    split at h2
    · assumption
    · cases h2
    · cases h2
  · rintro ⟨h1, h2⟩ wide greenfield
    rw [hz]
    simp [protectFor, h1, h2]

/-! ## Concrete cases -/

/-- What the octets of some networks demand: 40 MHz, greenfield, both, neither. -/
example : mustProtect true false ([36, 5, 2] ++ List.replicate 19 0) = true ∧
    mustProtect false false ([36, 5, 2] ++ List.replicate 19 0) = false ∧
    mustProtect false true ([36, 5, 4] ++ List.replicate 19 0) = true ∧
    mustProtect true false ([36, 5, 4] ++ List.replicate 19 0) = false ∧
    mustProtect false false ([36, 5, 3] ++ List.replicate 19 0) = true ∧
    mustProtect false false ([36, 5, 1] ++ List.replicate 19 0) = true ∧
    mustProtect true true ([36, 5, 0] ++ List.replicate 19 0) = false := by decide

/-- An access point among stations without HT. -/
private def mixed : HTOperationElement :=
  ⟨36, ((⟨0⟩ : HTOperationInformation).with_ht_protection_mode 3).with_nongreenfield_ht_sta_present true, ⟨Arr.zero 10, ⟨0⟩⟩⟩

/-- Concrete case: this access point demands protection of everything, and with the element of the crate nothing is protected. -/
example : protectFor false false mixed = true ∧
    ∃ size, ∀ buf : Bytes, size ≤ buf.length → ∃ frame,
    announce false ⟨⟨⟨0⟩, 0, Arr.zero 6, Arr.zero 6, Arr.zero 6, ⟨0⟩, none⟩, ⟨0, 100, ⟨0⟩, ()⟩, [],
      [(.typed (htOperationElem mixed), ⟨61, writtenHt mixed⟩)]⟩ ⟨[97], by decide⟩ true buf = .ok frame ∧
    protectHeard true true true frame = .ok (some (Arr.zero 6, some false)) := by
  refine ⟨by decide, ?_⟩
  have hsl := slack_le
  refine c113_unprotected true true false _ _ true ⟨⟨?_, ?_, ?_⟩, ?_, ?_⟩ mixed (by decide) rfl
  · show (none : Option (Arr 4)).isSome = (⟨0⟩ : FCFFlags).order
    decide
  · intro p hp
    simp only [List.nil_append, List.mem_cons, List.not_mem_nil, or_false] at hp
    subst hp
    exact ⟨c101_typed_item mixed, show (61 : Byte) ≠ 0 by decide⟩
  · intro p hp
    cases hp
    simp [writtenHt]; omega
  · simp; omega
  · decide

/-- Concrete case: the same network with the octets of the standard, and everything is protected. -/
example : ∃ size, ∀ buf : Bytes, size ≤ buf.length → ∃ frame,
    announce false ⟨⟨⟨0⟩, 0, Arr.zero 6, Arr.zero 6, Arr.zero 6, ⟨0⟩, none⟩, ⟨0, 100, ⟨0⟩, ()⟩, [],
      [(.raw ⟨61, [36, 0, 7] ++ List.replicate 19 0⟩, ⟨61, [36, 0, 7] ++ List.replicate 19 0⟩)]⟩ ⟨[97], by decide⟩ true buf =
        .ok frame ∧
    protectHeard false false true frame = .ok (some (Arr.zero 6, some true)) := by
  have hsl := slack_le
  refine c113_heard_partial false false false _ _ true ⟨⟨?_, ?_, ?_⟩, ?_, ?_⟩
  · show (none : Option (Arr 4)).isSome = (⟨0⟩ : FCFFlags).order
    decide
  · intro p hp
    simp only [List.nil_append, List.mem_cons, List.not_mem_nil, or_false] at hp
    subst hp
    exact ⟨⟨_, .raw _ (by decide)⟩, show (61 : Byte) ≠ 0 by decide⟩
  · intro p hp
    cases hp
    simp; omega
  · simp; omega
  · decide

end Verif
