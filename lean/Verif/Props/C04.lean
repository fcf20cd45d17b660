import Verif.Model.Common
/-!
# C04: association IDs accept exactly 1..=2007 and keep the two top bits set on the wire
-/
namespace Verif

/-- `new_checked` succeeds exactly for a number in 1..=2007 once the two top bits are ignored,
and the wire form of the result is that number with the two top bits set. -/
theorem c04_new_checked (x : BitVec 16) (a : AssociationID) :
    AssociationID.newChecked x = some a ↔
      (1 ≤ x.toNat % 2 ^ 14 ∧ x.toNat % 2 ^ 14 ≤ 2007) ∧
        a.intoBits.toNat = 0xc000 + x.toNat % 2 ^ 14 := by
  have hm : (x &&& ~~~0xc000).toNat = x.toNat % 2 ^ 14 := by
    rw [show (~~~0xc000 : BitVec 16) = BitVec.ofNat 16 (2 ^ 14 - 1) from by decide]
    rw [BitVec.toNat_and]
    exact Nat.and_two_pow_sub_one_eq_mod _ 14
  have hset : (AssociationID.new.with_internal_aid ((x &&& ~~~0xc000).truncate 14)).bits.toNat
      = 0xc000 + x.toNat % 2 ^ 14 := by
    have e : (AssociationID.new.with_internal_aid ((x &&& ~~~0xc000).truncate 14)).bits
        = 0xc000 ||| (x &&& ~~~0xc000) := by
      simp only [AssociationID.with_internal_aid, AssociationID.new]
      apply BitVec.eq_of_getLsbD_eq
      intro i hi
      rw [getLsbD_setField _ _ _ _ _ (by decide)]
      have hc : ∀ i, i < 16 → (49152#16).getLsbD i = decide (14 ≤ i) := by decide
      have hc' : (49152#16).getLsbD i = decide (14 ≤ i) := hc i hi
      rw [BitVec.getLsbD_or]
      show _ = ((49152#16).getLsbD i || _)
      rw [hc']
      by_cases h : i < 14
      · have h14 : ¬ 14 ≤ i := by omega
        simp only [h, h14, Nat.zero_le, Nat.zero_add, true_and, if_true, decide_false,
          Bool.false_or, Nat.sub_zero, BitVec.truncate_eq_setWidth, BitVec.getLsbD_setWidth,
          decide_true, Bool.true_and]
      · have h14 : 14 ≤ i := by omega
        simp only [h, h14, Nat.zero_le, Nat.zero_add, true_and, if_false, decide_true,
          Bool.true_or]
        exact hc'.trans (by simp [h14])
    rw [e, BitVec.toNat_or, hm]
    have := Nat.two_pow_add_eq_or_of_lt (i := 14) (b := x.toNat % 2 ^ 14)
      (Nat.mod_lt _ (by decide)) 3
    exact this.symm
  simp only [AssociationID.newChecked, hm]
  constructor
  · intro h
    split at h
    · rename_i hr
      cases h
      exact ⟨hr, hset⟩
    · cases h
  · rintro ⟨hr, hb⟩
    rw [if_pos hr]
    congr 1
    cases a with
    | mk b =>
      simp only [AssociationID.intoBits] at hb
      have : (AssociationID.new.with_internal_aid ((x &&& ~~~0xc000).truncate 14)).bits = b :=
        BitVec.eq_of_toNat_eq (by rw [hset, hb])
      rw [← this]

/-- `aid()` of an accepted ID is the number without the two top bits. -/
theorem c04_aid (x : BitVec 16) (a : AssociationID) (h : AssociationID.newChecked x = some a) :
    a.aid.toNat = x.toNat % 2 ^ 14 := by
  have hb := ((c04_new_checked x a).1 h).2
  simp only [AssociationID.intoBits] at hb
  simp [AssociationID.aid, AssociationID.internal_aid, getField, hb]
  omega

/-- Reparsing the wire form of an accepted ID gives the same ID. -/
theorem c04_reparse (x : BitVec 16) (a : AssociationID) (h : AssociationID.newChecked x = some a) :
    AssociationID.newChecked a.intoBits = some a := by
  obtain ⟨hr, hb⟩ := (c04_new_checked x a).1 h
  rw [c04_new_checked, hb]
  omega

/-- Anything else is refused. -/
theorem c04_refused (x : BitVec 16) :
    AssociationID.newChecked x = none ↔ x.toNat % 2 ^ 14 = 0 ∨ 2007 < x.toNat % 2 ^ 14 := by
  constructor
  · intro h
    apply Classical.byContradiction
    intro hn
    have hlt : 0xc000 + x.toNat % 2 ^ 14 < 2 ^ 16 := by omega
    have := (c04_new_checked x ⟨BitVec.ofNat 16 (0xc000 + x.toNat % 2 ^ 14)⟩).2
      ⟨by omega, by simp only [AssociationID.intoBits, BitVec.toNat_ofNat]; omega⟩
    rw [h] at this; cases this
  · intro h
    cases he : AssociationID.newChecked x with
    | none => rfl
    | some a => have := ((c04_new_checked x a).1 he).1; omega

/-- The `aid!` macro accepts exactly 1..=2007 (it fails to compile, here `panic`, otherwise) and
then agrees with `new_checked`. -/
theorem c04_macro (x : BitVec 16) :
    (1 ≤ x.toNat ∧ x.toNat ≤ 2007 →
      ∃ a, AssociationID.aidMacro x = .ok a ∧ AssociationID.newChecked x = some a) ∧
    (x.toNat = 0 ∨ 2007 < x.toNat → AssociationID.aidMacro x = .panic) := by
  constructor
  · intro ⟨h1, h2⟩
    have hm : (x &&& ~~~0xc000) = x := by
      apply BitVec.eq_of_toNat_eq
      rw [show (~~~0xc000 : BitVec 16) = BitVec.ofNat 16 (2 ^ 14 - 1) from by decide,
        BitVec.toNat_and]
      rw [show (BitVec.ofNat 16 (2 ^ 14 - 1)).toNat = 2 ^ 14 - 1 from rfl,
        Nat.and_two_pow_sub_one_eq_mod]
      omega
    refine ⟨AssociationID.new.with_internal_aid (x.setWidth 14), ?_, ?_⟩
    · simp only [AssociationID.aidMacro, AssociationID.newUnchecked, fitField]
      rw [if_neg (by omega), if_neg (by omega), if_pos (by omega)]
      rfl
    · simp only [AssociationID.newChecked, hm]
      rw [if_pos ⟨h1, h2⟩]
  · intro h
    simp only [AssociationID.aidMacro]
    rcases h with h | h
    · rw [if_pos h]
    · rw [if_neg (by omega), if_pos h]

/-- Concrete cases: 0xc001 and 1 are the same ID; 2007 is the largest; 2008 and 0 are refused. -/
example : AssociationID.newChecked 0xc001 = AssociationID.newChecked 1 ∧
    (AssociationID.newChecked 1).map AssociationID.intoBits = some 0xc001 ∧
    (AssociationID.newChecked 2007).map AssociationID.aid = some 2007 ∧
    AssociationID.newChecked 2008 = none ∧ AssociationID.newChecked 0xc000 = none := by decide

end Verif
