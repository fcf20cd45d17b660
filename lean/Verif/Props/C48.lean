import Verif.Lemmas.Frames
import Verif.Lemmas.Rsn
import Verif.Model.Frames.Generic
/-!
# C48: raw and vendor specific action bodies
-/
namespace Verif

variable [ScrollRule]

/-! ## Raw action bodies -/

/-- Category, then the payload. -/
theorem c48_raw_write (b : RawActionBody) :
    Emits (writeRawAction b) (b.category_code.intoBits :: b.payload)
      (1 + max b.payload.length slack) := by
  apply Emits.cast
  · apply WEmits.run
    wr_steps
    exact WEmits.gwrite (Emits.bytes _)
  · simp
  · simp

/-- Reading what was written gives the body back; the offset returned is that of the payload. -/
theorem c48_raw_round_trip (b : RawActionBody) (h : b.category_code.Canonical) :
    readRawAction (b.category_code.intoBits :: b.payload) = .ok (b, 1) := by
  obtain ⟨c, p⟩ := b
  apply RdAt.run
  apply RdAt.cast
  · apply RdAt.u8
    rw [CategoryCode.fromBits_intoBits _ h]
    exact RdAt.bind_pure RdAt.remaining rfl
  · rfl

/-- Whatever is read is the first byte and the rest; only empty input is an error. -/
theorem c48_raw_parse (inp : Bytes) :
    match inp with
    | [] => ∃ e, readRawAction [] = .err e
    | c :: p => ∃ b, readRawAction inp = .ok (b, 1) ∧ b.category_code.intoBits = c ∧ b.payload = p := by
  cases inp with
  | nil =>
    refine Rd.Needs.run (n := 1) ?_ _ (by simp)
    exact Rd.Needs.left (Rd.Needs.gread (readLE_fixed 8))
  | cons c p =>
    refine ⟨⟨.fromBits c, p⟩, ?_, CategoryCode.intoBits_fromBits c, rfl⟩
    apply RdAt.run
    apply RdAt.cast
    · apply RdAt.u8
      exact RdAt.bind_pure RdAt.remaining rfl
    · rfl

omit [ScrollRule] in
theorem c48_raw_measure (b : RawActionBody) :
    measureRawAction b = (b.category_code.intoBits :: b.payload).length := by
  simp [measureRawAction]; omega

/-! ## Vendor specific bodies -/

/-- Category 127, the OUI, then the payload. -/
theorem c48_vendor_write (b : VendorActionBody Obj) (p : Bytes) (m : Nat)
    (h : Emits b.payload.write p m) :
    Emits (writeVendorAction b) (127 :: (b.oui.val ++ p)) (4 + max m slack) := by
  apply Emits.cast
  · apply WEmits.run
    apply WEmits.bind (bs1 := 127 :: b.oui.val) (n1 := 4)
    · apply WEmits.cast
      · apply WEmits.u8
        exact WEmits.gwrite_pos (Emits.bytes _) (by simp)
      · rfl
      · simp
    · exact WEmits.gwrite h
  · simp
  · simp

theorem c48_vendor_round_trip (oui : Arr 3) (p : Bytes) :
    readVendorAction (127 :: (oui.val ++ p)) = .ok (⟨oui, p⟩, 4) := by
  have hsl := slack_le
  apply RdAt.run
  apply RdAt.cast
  · apply RdAt.u8
    rw [if_neg (by decide)]
    rd_steps
  · rfl

/-- Conversely, whatever is accepted has category 127, an OUI, and the rest as payload. -/
theorem c48_vendor_parse (inp : Bytes) (b : VendorActionBody Bytes) (n : Nat)
    (h : readVendorAction inp = .ok (b, n)) : inp = 127 :: (b.oui.val ++ b.payload) ∧ n = 4 := by
  have hp := (Parses.bind (Parses.gread' readU8_parses) fun _ =>
    Parses.ite (fun _ => Parses.fail (Q := fun _ _ _ => False)) fun _ =>
    Parses.bind (Parses.gread' (readArr_parses 3)) fun _ =>
    Parses.bind Parses.remaining fun _ => Parses.pure).run inp b n h
  obtain ⟨bs, rest, rfl, rfl, c, _, _, rfl, rfl, ⟨_, h⟩ | ⟨hc, o, _, _, rfl, rfl, p, _, _, rfl,
    ⟨rfl, rfl⟩, rfl, rfl⟩⟩ := hp
  · exact h.elim
  · have : c = 127 := by
      have := CategoryCode.intoBits_fromBits c
      rw [Classical.not_not.1 hc] at this
      exact this.symm
    subst this
    simp

/-- Another category is an error, as is an input of fewer than four bytes; nothing panics. -/
theorem c48_vendor_errors (inp : Bytes) :
    readVendorAction inp ≠ .panic ∧
    ((inp.head? ≠ some 127 ∨ inp.length < 4) → ∃ e, readVendorAction inp = .err e) := by
  have hs : readVendorAction inp ≠ .panic := by
    apply SafeReader.ne_panic
    apply Rd.Safe.run
    apply Rd.Safe.bind (Rd.Safe.gread (readLE_fixed 8).safe); intro _
    apply Rd.Safe.ite_fail
    rd_safe
  refine ⟨hs, ?_⟩
  intro h
  cases hr : readVendorAction inp with
  | err e => exact ⟨e, rfl⟩
  | panic => exact absurd hr hs
  | ok r =>
    obtain ⟨rfl, _⟩ := c48_vendor_parse inp r.1 r.2 hr
    simp at h
    omega

omit [ScrollRule] in
/-- Violation: the reported size of a vendor specific body leaves out the category byte. -/
theorem c48_vendor_measure_wrong (b : VendorActionBody Obj) (p : Bytes) (h : b.payload.measure = p.length) :
    measureVendorAction b + 1 = (127 :: (b.oui.val ++ p)).length := by
  simp [measureVendorAction, h]

/-- `strip_and_check_vendor_action_header` accepts exactly category 127 with the expected OUI. -/
theorem c48_strip (oui : Arr 3) (inp : Bytes) :
    (Rd.run (stripAndCheckVendorActionHeader oui) inp = .ok ((), 4) ↔ ∃ p, inp = 127 :: (oui.val ++ p)) ∧
    Rd.run (stripAndCheckVendorActionHeader oui) inp ≠ .panic := by
  have hsl := slack_le
  refine ⟨⟨?_, ?_⟩, ?_⟩
  · intro h
    have hp := (Parses.bind (Parses.gread' readU8_parses) fun _ =>
      Parses.ite (fun _ => Parses.fail (Q := fun _ _ _ => False)) fun _ =>
      Parses.bind (Parses.gread' (readArr_parses 3)) fun _ =>
      Parses.ite (fun _ => Parses.fail (Q := fun _ _ _ => False)) fun _ => Parses.pure).run inp () 4 h
    obtain ⟨bs, rest, rfl, _, c, _, _, rfl, rfl, ⟨_, h⟩ | ⟨hc, o, _, _, rfl, rfl, ⟨_, h⟩ |
      ⟨ho, _, rfl⟩⟩⟩ := hp
    · exact h.elim
    · exact h.elim
    · have : c = 127 := by
        have := CategoryCode.intoBits_fromBits c
        rw [Classical.not_not.1 hc] at this
        exact this.symm
      subst this
      rw [Classical.not_not.1 ho]
      exact ⟨rest, by simp⟩
  · rintro ⟨p, rfl⟩
    apply RdAt.run
    apply RdAt.cast
    · apply RdAt.u8
      rw [if_neg (by decide)]
      rd_steps
      rw [if_neg (by simp)]
      exact RdAt.pure
    · rfl
  · apply SafeReader.ne_panic
    apply Rd.Safe.run
    apply Rd.Safe.bind (Rd.Safe.gread (readLE_fixed 8).safe); intro _
    apply Rd.Safe.ite_fail
    rd_safe
    apply Rd.Safe.ite_fail
    exact Rd.Safe.pure

/-! ## Matching -/

omit [ScrollRule] in
/-- A raw body matches vendor specific iff its category is 127. -/
theorem c48_match_vendor (b : RawActionBody) :
    vendorActionMatches b = true ↔ b.category_code = .VendorSpecific := by
  simp [vendorActionMatches]

/-- `is_vendor_and_matches`: category 127 and this OUI at the start of the payload. -/
theorem c48_match_oui (b : RawActionBody) (oui : Arr 3) :
    b.isVendorAndMatches oui = true ↔
      b.category_code = .VendorSpecific ∧ ∃ p, b.payload = oui.val ++ p := by
  have hsl := slack_le
  simp only [RawActionBody.isVendorAndMatches, Bool.and_eq_true, beq_iff_eq]
  refine and_congr Iff.rfl ?_
  by_cases hl : 3 ≤ b.payload.length
  · obtain ⟨x, rest, hx⟩ := exists_arr 3 hl
    have : pread (readArr 3) 0 b.payload = .ok x := by
      have := RdAt.gread (readArr_append x rest) (by simp; omega) []
      simp only [List.nil_append, List.length_nil] at this
      rw [hx, pread, this]
      rfl
    rw [this]
    simp only [beq_iff_eq]
    constructor
    · rintro rfl; exact ⟨rest, hx⟩
    · rintro ⟨p, hp⟩
      rw [hx] at hp
      exact Subtype.ext (List.append_inj_left hp (by simp))
  · have : ∃ e, pread (readArr 3) 0 b.payload = .err e := by
      obtain ⟨e, he⟩ := Rd.Needs.gread (readArr_fixed 3) b.payload 0 (by omega)
      exact ⟨e, by rw [pread, he]; rfl⟩
    obtain ⟨e, he⟩ := this
    rw [he]
    simp only [Bool.false_eq_true, false_iff]
    rintro ⟨p, hp⟩
    rw [hp] at hl
    simp at hl

/-- The mesh peering bodies match iff the category is 15 and the action code follows. -/
theorem c48_match_self_protected (code : SelfProtectedActionCode) (b : RawActionBody) :
    selfProtectedMatches code b = true ↔
      b.category_code = .SelfProtected ∧ ∃ p, b.payload = code.intoBits :: p := by
  have hsl := slack_le
  simp only [selfProtectedMatches, Bool.and_eq_true, beq_iff_eq]
  refine and_congr Iff.rfl ?_
  cases hp : b.payload with
  | nil =>
    obtain ⟨e, he⟩ := Rd.Needs.gread (readLE_fixed 8) [] 0 (by decide)
    rw [pread, show Rd.gread readU8 [] 0 = .err e from he]
    simp [Res.map]
  | cons x rest =>
    have : pread readU8 0 (x :: rest) = .ok x := by
      have := RdAt.gread (readU8_cons x rest) (by simp; omega) []
      simp only [List.nil_append, List.length_nil] at this
      rw [pread, this]
      rfl
    rw [this]
    simp

/-- So a body written by the library as one of these kinds is matched by that kind and by no other
mesh peering kind, and not as vendor specific. -/
theorem c48_match_exclusive (b : RawActionBody) (c d : SelfProtectedActionCode)
    (h : selfProtectedMatches c b = true) :
    vendorActionMatches b = false ∧ (selfProtectedMatches d b = true → c.intoBits = d.intoBits) := by
  obtain ⟨hc, p, hp⟩ := (c48_match_self_protected c b).1 h
  constructor
  · simp [vendorActionMatches, hc]
  · intro hd
    obtain ⟨_, q, hq⟩ := (c48_match_self_protected d b).1 hd
    rw [hp] at hq
    exact (List.cons.inj hq).1

/-- Concrete cases. -/
example : (∃ out, writeVendorAction ⟨⟨[0, 1, 2], rfl⟩, elementsObj [9, 8]⟩ [0, 0, 0, 0, 0, 0, 7] =
      .ok (out, 6) ∧ out = [127, 0, 1, 2, 9, 8, 7]) ∧
    readVendorAction [127, 0, 1, 2, 9, 8] = .ok (⟨⟨[0, 1, 2], rfl⟩, [9, 8]⟩, 4) ∧
    readRawAction [127, 0, 1, 2, 9, 8] = .ok (⟨.VendorSpecific, [0, 1, 2, 9, 8]⟩, 1) ∧
    (⟨.VendorSpecific, [0, 1, 2, 9, 8]⟩ : RawActionBody).isVendorAndMatches ⟨[0, 1, 2], rfl⟩ = true ∧
    (⟨.VendorSpecific, [0, 1, 2, 9, 8]⟩ : RawActionBody).isVendorAndMatches ⟨[0, 1, 3], rfl⟩ = false ∧
    selfProtectedMatches .MeshPeeringOpen ⟨.SelfProtected, [1, 4]⟩ = true ∧
    selfProtectedMatches .MeshPeeringClose ⟨.SelfProtected, [1, 4]⟩ = false := by
  cases ‹ScrollRule› with | mk s => cases s <;> exact ⟨⟨_, rfl, rfl⟩, by decide +kernel⟩

end Verif
