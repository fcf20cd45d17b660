import Verif.Props.C34
/-!
# C35: both sides of the handshake derive the same PTK
-/
namespace Verif

namespace Spec

/-- A byte string as a number, the first octet being the most significant (12.7.1.3 of the standard). -/
def beValue : Bytes → Nat
  | [] => 0
  | b :: bs => b.toNat * 256 ^ bs.length + beValue bs

/-- The smaller and the larger of two byte strings, compared as numbers. -/
def minOf (a b : Bytes) : Bytes := if beValue a ≤ beValue b then a else b
def maxOf (a b : Bytes) : Bytes := if beValue a ≤ beValue b then b else a

/-- The PRF data of the standard: Min(AA,SPA) || Max(AA,SPA) || Min(ANonce,SNonce) || Max(ANonce,SNonce). -/
def ptkData (aa spa : Mac) (an sn : Arr 32) : Bytes :=
  minOf aa.val spa.val ++ (maxOf aa.val spa.val ++ (minOf an.val sn.val ++ maxOf an.val sn.val))

end Spec

open Spec

private theorem beValue_lt (l : Bytes) : beValue l < 256 ^ l.length := by
  induction l with
  | nil => simp [beValue]
  | cons b bs ih =>
    have := b.isLt
    simp only [beValue, List.length_cons, Nat.pow_succ]
    have : b.toNat * 256 ^ bs.length ≤ 255 * 256 ^ bs.length := Nat.mul_le_mul_right _ (by omega)
    omega

private theorem beValue_inj {a b : Bytes} (hl : a.length = b.length) (h : beValue a = beValue b) : a = b := by
  induction a generalizing b with
  | nil => cases b with
    | nil => rfl
    | cons => simp at hl
  | cons x xs ih =>
    cases b with
    | nil => simp at hl
    | cons y ys =>
      have hl' : xs.length = ys.length := by simpa using hl
      have h1 := beValue_lt xs
      have h2 := beValue_lt ys
      simp only [beValue, ← hl'] at h h2
      have hp : 0 < 256 ^ xs.length := Nat.pow_pos (by decide)
      have hx : x.toNat = y.toNat := by
        have e1 := Nat.add_mul_div_right (beValue xs) x.toNat hp
        have e2 := Nat.add_mul_div_right (beValue ys) y.toNat hp
        rw [Nat.div_eq_of_lt h1] at e1
        rw [Nat.div_eq_of_lt h2] at e2
        rw [Nat.add_comm] at e1 e2
        rw [h] at e1
        omega
      rw [hx] at h
      rw [BitVec.eq_of_toNat_eq hx, ih hl' (by omega)]

/-- The comparison made by the code is that of the numbers. -/
private theorem lexLt_iff {a b : Bytes} (hl : a.length = b.length) :
    lexLt a b = true ↔ beValue a < beValue b := by
  induction a generalizing b with
  | nil => cases b with
    | nil => simp [lexLt, beValue]
    | cons => simp at hl
  | cons x xs ih =>
    cases b with
    | nil => simp at hl
    | cons y ys =>
      have hl' : xs.length = ys.length := by simpa using hl
      have h1 := beValue_lt xs
      have h2 := beValue_lt ys
      rw [← hl'] at h2
      simp only [lexLt, beValue, ← hl']
      have hm : ∀ u v : Nat, u < v → u * 256 ^ xs.length + 256 ^ xs.length ≤ v * 256 ^ xs.length := by
        intro u v h
        rw [← Nat.succ_mul]
        exact Nat.mul_le_mul_right _ h
      split
      · rename_i h
        have := hm _ _ h
        simp; omega
      · split
        · rename_i h
          have := hm _ _ h
          simp; omega
        · have : x.toNat = y.toNat := by omega
          rw [this, ih hl']
          omega

/-- Sorting returns the two in the order of the numbers they stand for. -/
theorem c35_sort (a b : Bytes) (hl : a.length = b.length) :
    sortLexicographically a b = (minOf a b, maxOf a b) := by
  unfold sortLexicographically minOf maxOf
  have h := lexLt_iff hl
  by_cases hlt : beValue a < beValue b
  · rw [if_pos (h.2 hlt), if_pos (by omega), if_pos (by omega)]
  · rw [if_neg (mt h.1 hlt)]
    by_cases he : beValue a = beValue b
    · have := beValue_inj hl he
      subst this
      simp
    · rw [if_neg (by omega), if_neg (by omega)]

private theorem min_comm {a b : Bytes} (hl : a.length = b.length) : minOf a b = minOf b a := by
  unfold minOf
  split <;> split
  · exact beValue_inj hl (by omega)
  · rfl
  · rfl
  · omega

private theorem max_comm {a b : Bytes} (hl : a.length = b.length) : maxOf a b = maxOf b a := by
  unfold maxOf
  split <;> split
  · exact (beValue_inj hl (by omega)).symm
  · rfl
  · rfl
  · omega

variable [HmacSha1]

/-- The PTK is the PRF of the PMK with the label "Pairwise key expansion" and the standard's data. -/
theorem c35_input (pmk : Bytes) (aa spa : Mac) (an sn : Arr 32) (n : Nat) :
    derivePtk pmk aa spa an sn n =
      (List.range n).map (prfByte HmacSha1.hmac pmk
        ("Pairwise key expansion".toUTF8.toList.map fun c => c.toBitVec) (ptkData aa spa an sn)) := by
  have hlabel : ("Pairwise key expansion".toUTF8.toList.map fun c => c.toBitVec) = pairwiseKeyExpansion := by
    decide +kernel
  unfold derivePtk
  rw [c35_sort _ _ (by simp), c35_sort _ _ (by simp)]
  simp only [c34_prf, hlabel]
  congr 2
  simp [ptkData]

/-- Swapping the roles, addresses together with nonces, gives the same PTK; so does swapping only the
addresses or only the nonces. -/
theorem c35_symmetric (pmk : Bytes) (aa spa : Mac) (an sn : Arr 32) (n : Nat) :
    derivePtk pmk aa spa an sn n = derivePtk pmk spa aa sn an n ∧
    derivePtk pmk aa spa an sn n = derivePtk pmk spa aa an sn n ∧
    derivePtk pmk aa spa an sn n = derivePtk pmk aa spa sn an n := by
  have h : ∀ aa spa : Mac, ∀ an sn : Arr 32, ptkData aa spa an sn = ptkData spa aa an sn ∧
      ptkData aa spa an sn = ptkData aa spa sn an := by
    intro aa spa an sn
    unfold ptkData
    constructor
    · rw [min_comm (a := aa.val) (b := spa.val) (by simp), max_comm (a := aa.val) (b := spa.val) (by simp)]
    · rw [min_comm (a := an.val) (b := sn.val) (by simp), max_comm (a := an.val) (b := sn.val) (by simp)]
  simp only [c35_input]
  refine ⟨?_, ?_, ?_⟩
  · rw [(h aa spa an sn).1, (h spa aa an sn).2]
  · rw [(h aa spa an sn).1]
  · rw [(h aa spa an sn).2]

end Verif

namespace Verif
open Spec

/-- Addresses that differ only in the last octet, nonces that are equal. -/
example :
    letI : HmacSha1 := ⟨fun _ m => ⟨(m.drop 23).take 20 ++ List.replicate (20 - ((m.drop 23).take 20).length) 0,
      by simp; omega⟩⟩
    let a : Mac := ⟨[1, 2, 3, 4, 5, 7], rfl⟩
    let b : Mac := ⟨[1, 2, 3, 4, 5, 6], rfl⟩
    derivePtk [] a b (Arr.zero 32) (Arr.zero 32) 14 = [1, 2, 3, 4, 5, 6, 1, 2, 3, 4, 5, 7, 0, 0] ∧
    derivePtk [] b a (Arr.zero 32) (Arr.zero 32) 14 = [1, 2, 3, 4, 5, 6, 1, 2, 3, 4, 5, 7, 0, 0] := by
  decide

end Verif
