import Verif.Basic.Utf8
/-!
# UTF-8, by its definition as an encoding of Unicode scalar values
-/
namespace Verif.Spec

/-- A Unicode scalar value: a code point that is not a surrogate. -/
def IsScalar (n : Nat) : Prop := n < 0xd800 ∨ (0xe000 ≤ n ∧ n < 0x110000)

/-- The UTF-8 encoding of a code point. -/
def utf8Encode (n : Nat) : Bytes :=
  if n < 0x80 then [BitVec.ofNat 8 n]
  else if n < 0x800 then [BitVec.ofNat 8 (0xc0 + n / 64), BitVec.ofNat 8 (0x80 + n % 64)]
  else if n < 0x10000 then
    [BitVec.ofNat 8 (0xe0 + n / 4096), BitVec.ofNat 8 (0x80 + n / 64 % 64),
      BitVec.ofNat 8 (0x80 + n % 64)]
  else
    [BitVec.ofNat 8 (0xf0 + n / 262144), BitVec.ofNat 8 (0x80 + n / 4096 % 64),
      BitVec.ofNat 8 (0x80 + n / 64 % 64), BitVec.ofNat 8 (0x80 + n % 64)]

/-- The bytes encode a sequence of Unicode scalar values. -/
def IsUtf8 (bs : Bytes) : Prop :=
  ∃ cs : List Nat, (∀ c ∈ cs, IsScalar c) ∧ bs = cs.flatMap utf8Encode

end Verif.Spec

namespace Verif

open Spec

theorem utf8Valid_encode (n : Nat) (h : IsScalar n) (rest : Bytes) :
    utf8Valid (utf8Encode n ++ rest) = utf8Valid rest := by
  unfold utf8Encode
  have hn : n < 0x110000 := by rcases h with h | h <;> omega
  split
  · simp only [List.cons_append, List.nil_append]
    conv => lhs; unfold utf8Valid
    simp only [BitVec.toNat_ofNat]
    rw [if_pos (by omega)]
  · split
    · simp only [List.cons_append, List.nil_append]
      conv => lhs; unfold utf8Valid
      simp only [BitVec.toNat_ofNat, isCont]
      rw [if_neg (by omega), if_pos (by omega), decide_eq_true (by omega), Bool.true_and]
    · split
      · simp only [List.cons_append, List.nil_append]
        conv => lhs; unfold utf8Valid
        simp only [BitVec.toNat_ofNat, isCont]
        rw [if_neg (by omega), if_neg (by omega), if_pos (by omega), decide_eq_true (by omega),
          decide_eq_true (by omega), decide_eq_true (by rcases h with h | h <;> omega),
          decide_eq_true (by omega)]
        rfl
      · simp only [List.cons_append, List.nil_append]
        conv => lhs; unfold utf8Valid
        simp only [BitVec.toNat_ofNat, isCont]
        rw [if_neg (by omega), if_neg (by omega), if_neg (by omega), if_pos (by omega),
          decide_eq_true (by omega), decide_eq_true (by omega), decide_eq_true (by omega),
          decide_eq_true (by omega), decide_eq_true (by omega)]
        rfl

/-- The validity test accepts exactly the encodings of sequences of scalar values. -/
theorem utf8Valid_iff (bs : Bytes) : utf8Valid bs = true ↔ IsUtf8 bs := by
  constructor
  · suffices H : ∀ k (bs : Bytes), bs.length ≤ k → utf8Valid bs = true → IsUtf8 bs from
      H _ bs (Nat.le_refl _)
    intro k
    induction k with
    | zero =>
      intro bs hb _
      exact ⟨[], by simp, by simpa using List.eq_nil_of_length_eq_zero (by omega)⟩
    | succ k ih =>
      intro bs hb hv
      have key : ∀ (n : Nat) (l : Bytes), IsScalar n → bs = utf8Encode n ++ l →
          l.length ≤ k → utf8Valid l = true → IsUtf8 bs := by
        intro n l hn he hl hv
        obtain ⟨cs, hcs, rfl⟩ := ih l hl hv
        refine ⟨n :: cs, ?_, by simp [he]⟩
        intro c hc
        rcases List.mem_cons.1 hc with rfl | hc
        · exact hn
        · exact hcs c hc
      unfold utf8Valid at hv
      split at hv
      · exact ⟨[], by simp, by simp⟩
      · rename_i a l1
        have ha : a.toNat < 256 := a.isLt
        simp only [List.length_cons] at hb
        split at hv
        · rename_i h1
          refine key a.toNat l1 (.inl (by omega)) ?_ (by omega) hv
          simp [utf8Encode, h1]
        · rename_i h1
          split at hv
          · simp at hv
          · rename_i b l2
            have hbb : b.toNat < 256 := b.isLt
            simp only [List.length_cons] at hb
            split at hv
            · rename_i h2
              simp only [isCont, Bool.and_eq_true, decide_eq_true_eq] at hv
              refine key (a.toNat % 32 * 64 + b.toNat % 64) l2 (.inl (by omega)) ?_ (by omega) hv.2
              unfold utf8Encode
              rw [if_neg (by omega), if_pos (by omega)]
              congr 1
              · apply BitVec.eq_of_toNat_eq; simp only [BitVec.toNat_ofNat]; omega
              · congr 1
                apply BitVec.eq_of_toNat_eq; simp only [BitVec.toNat_ofNat]; omega
            · rename_i h2
              split at hv
              · simp at hv
              · rename_i c l3
                have hcc : c.toNat < 256 := c.isLt
                simp only [List.length_cons] at hb
                split at hv
                · rename_i h3
                  simp only [isCont, Bool.and_eq_true, decide_eq_true_eq] at hv
                  obtain ⟨⟨⟨⟨v1, v2⟩, v3⟩, v4⟩, v5⟩ := hv
                  refine key (a.toNat % 16 * 4096 + b.toNat % 64 * 64 + c.toNat % 64) l3 ?_ ?_
                    (by omega) v5
                  · unfold IsScalar; omega
                  · unfold utf8Encode
                    rw [if_neg (by omega), if_neg (by omega), if_pos (by omega)]
                    simp only [List.cons_append, List.nil_append]
                    congr 1
                    · apply BitVec.eq_of_toNat_eq; simp only [BitVec.toNat_ofNat]; omega
                    · congr 1
                      · apply BitVec.eq_of_toNat_eq; simp only [BitVec.toNat_ofNat]; omega
                      · congr 1
                        apply BitVec.eq_of_toNat_eq; simp only [BitVec.toNat_ofNat]; omega
                · rename_i h3
                  split at hv
                  · simp at hv
                  · rename_i d l4
                    have hdd : d.toNat < 256 := d.isLt
                    simp only [List.length_cons] at hb
                    split at hv
                    · rename_i h4
                      simp only [isCont, Bool.and_eq_true, decide_eq_true_eq] at hv
                      obtain ⟨⟨⟨⟨⟨v1, v2⟩, v3⟩, v4⟩, v5⟩, v6⟩ := hv
                      refine key (a.toNat % 8 * 262144 + b.toNat % 64 * 4096 + c.toNat % 64 * 64 +
                        d.toNat % 64) l4 ?_ ?_ (by omega) v6
                      · unfold IsScalar; omega
                      · unfold utf8Encode
                        rw [if_neg (by omega), if_neg (by omega), if_neg (by omega)]
                        simp only [List.cons_append, List.nil_append]
                        congr 1
                        · apply BitVec.eq_of_toNat_eq; simp only [BitVec.toNat_ofNat]; omega
                        · congr 1
                          · apply BitVec.eq_of_toNat_eq; simp only [BitVec.toNat_ofNat]; omega
                          · congr 1
                            · apply BitVec.eq_of_toNat_eq; simp only [BitVec.toNat_ofNat]; omega
                            · congr 1
                              apply BitVec.eq_of_toNat_eq; simp only [BitVec.toNat_ofNat]; omega
                    · simp at hv
  · rintro ⟨cs, hcs, rfl⟩
    induction cs with
    | nil => rfl
    | cons c cs ih =>
      rw [List.flatMap_cons, utf8Valid_encode c (hcs c (by simp))]
      exact ih (fun d hd => hcs d (List.mem_cons_of_mem _ hd))

end Verif
