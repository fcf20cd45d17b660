import Verif.Basic.Bytes
import Verif.Basic.Res
/-!
# Byte strings as sets of bits
-/
namespace Verif

/-- Bit `i` of a byte string: bit `i % 8` of byte `i / 8`; false past the end. -/
def Spec.bitAt (bytes : Bytes) (i : Nat) : Bool := (bytes.getD (i / 8) 0).getLsbD (i % 8)

/-- `set_bit!(bytes[k], bit!(i), v)` of `macro_bits`: bit `i` of byte `k` becomes `v`.  Indexing past
the end panics. -/
def setBitAt (bytes : Bytes) (k i : Nat) (v : Bool) : Res Bytes :=
  match bytes[k]? with
  | none => .panic
  | some b => .ok (bytes.set k (if v then b ||| ((1 : Byte) <<< i) else b &&& ~~~((1 : Byte) <<< i)))

theorem shiftRight_three (i : Nat) : i >>> 3 = i / 8 := by simp [Nat.shiftRight_eq_div_pow]

theorem and_seven (i : Nat) : i &&& 7 = i % 8 := Nat.and_two_pow_sub_one_eq_mod i 3

open Spec

theorem bitAt_replicate (n i : Nat) : bitAt (List.replicate n 0) i = false := by
  unfold bitAt
  simp only [List.getD_eq_getElem?_getD, List.getElem?_replicate]
  split <;> simp

theorem bitAt_ge {bytes : Bytes} {i : Nat} (h : 8 * bytes.length ≤ i) : bitAt bytes i = false := by
  unfold bitAt
  rw [List.getD_eq_getElem?_getD, List.getElem?_eq_none (by omega)]
  simp

/-- Setting a bit within the string changes just this bit. -/
theorem setBitAt_spec (bytes : Bytes) (i : Nat) (v : Bool) (h : i < 8 * bytes.length) :
    ∃ bytes', setBitAt bytes (i / 8) (i % 8) v = .ok bytes' ∧ bytes'.length = bytes.length ∧
      ∀ j, bitAt bytes' j = if j = i then v else bitAt bytes j := by
  have hk : i / 8 < bytes.length := by omega
  have hg : bytes[i / 8]? = some bytes[i / 8] := List.getElem?_eq_getElem hk
  simp only [setBitAt, hg]
  refine ⟨_, rfl, by simp, ?_⟩
  intro j
  unfold bitAt
  simp only [List.getD_eq_getElem?_getD, List.getElem?_set]
  by_cases hj : i / 8 = j / 8
  · rw [if_pos hj, if_pos hk]
    rw [← hj, hg]
    simp only [Option.getD_some]
    have hm : j % 8 < 8 := Nat.mod_lt _ (by omega)
    have hi : i % 8 < 8 := Nat.mod_lt _ (by omega)
    by_cases he : j = i
    · subst he
      cases v <;> simp [hm]
    · have hne : ¬ (j % 8 - i % 8 = 0 ∧ i % 8 ≤ j % 8) := by omega
      cases v <;> simp [hm, he] <;> omega
  · rw [if_neg hj, if_neg (by rintro rfl; exact hj rfl)]

/-- Two strings of equal length with the same bits are equal. -/
theorem eq_of_bitAt {a b : Bytes} (hl : a.length = b.length) (h : ∀ i, bitAt a i = bitAt b i) :
    a = b := by
  apply List.ext_getElem hl
  intro k ha hb
  apply BitVec.eq_of_getLsbD_eq
  intro i hi
  have := h (8 * k + i)
  unfold bitAt at this
  rw [show (8 * k + i) / 8 = k by omega, show (8 * k + i) % 8 = i by omega] at this
  simpa [List.getD_eq_getElem?_getD, ha, hb] using this

end Verif
