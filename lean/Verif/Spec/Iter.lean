import Verif.Model.Common
/-!
# What iterating a `ReadIterator` to its end means
-/
namespace Verif.Spec

variable {α : Type}

/-- Calling `next` repeatedly returns the items of the list in order, then `None`, with no panic. -/
inductive Yields (r : Reader α) : ReadIterator → List α → Prop where
  | done {it it' : ReadIterator} (h : it.next r = .ok (none, it')) : Yields r it []
  | more {it it' : ReadIterator} {a : α} {l : List α} (h : it.next r = .ok (some a, it'))
      (t : Yields r it' l) : Yields r it (a :: l)

/-- The items are determined. -/
theorem Yields.unique {r : Reader α} {it : ReadIterator} {l l' : List α} (h : Yields r it l)
    (h' : Yields r it l') : l = l' := by
  induction h generalizing l' with
  | done h =>
    cases h' with
    | done _ => rfl
    | more h2 _ => rw [h] at h2; cases h2
  | more h t ih =>
    cases h' with
    | done h2 => rw [h] at h2; cases h2
    | more h2 t2 =>
      rw [h] at h2; cases h2
      rw [ih t2]

end Verif.Spec

namespace Verif

variable {α : Type}

/-- A reader that consumes at least one byte whenever it succeeds. -/
def Progress (r : Reader α) : Prop := ∀ inp a n, r inp = .ok (a, n) → 0 < n

open Spec in
/-- Iteration with a reader that is safe and makes progress ends, with at most as many items as
there are bytes. -/
theorem yields_exists {r : Reader α} (hs : SafeReader r) (hp : Progress r) (bs : Bytes) :
    ∃ l, Yields r (.new bs) l ∧ l.length ≤ bs.length := by
  suffices H : ∀ k (bs : Bytes), bs.length ≤ k →
      ∃ l, Yields r (.new bs) l ∧ l.length ≤ bs.length from H _ bs (Nat.le_refl _)
  intro k
  induction k with
  | zero =>
    intro bs hb
    have hs' := hs bs
    cases hr : r bs with
    | ok p =>
      obtain ⟨a, n⟩ := p
      rw [hr] at hs'
      have := hp bs a n hr
      simp only at hs'
      omega
    | err e => exact ⟨[], .done (it' := ⟨none⟩) (by simp [ReadIterator.next, ReadIterator.new, hr]),
        by simp⟩
    | panic => rw [hr] at hs'; exact hs'.elim
  | succ k ih =>
    intro bs hb
    have hs' := hs bs
    cases hr : r bs with
    | ok p =>
      obtain ⟨a, n⟩ := p
      rw [hr] at hs'
      have hpos := hp bs a n hr
      obtain ⟨l, hl, hll⟩ := ih (bs.drop n) (by simp; omega)
      refine ⟨a :: l, .more (it' := .new (bs.drop n)) ?_ hl, ?_⟩
      · simp only [ReadIterator.next, ReadIterator.new, hr]
        rw [if_pos hs']
      · simp only [List.length_drop] at hll
        simp only at hs'
        simp only [List.length_cons]; omega
    | err e => exact ⟨[], .done (it' := ⟨none⟩) (by simp [ReadIterator.next, ReadIterator.new, hr]),
        by simp⟩
    | panic => rw [hr] at hs'; exact hs'.elim

open Spec in
/-- Iterating over concatenated encodings yields the encoded items. -/
theorem yields_flatMap {r : Reader α} (enc : α → Bytes)
    (h : ∀ x rest, r (enc x ++ rest) = .ok (x, (enc x).length)) (hend : ∃ e, r [] = .err e)
    (xs : List α) : Yields r (.new (xs.flatMap enc)) xs := by
  induction xs with
  | nil =>
    obtain ⟨e, he⟩ := hend
    exact .done (it' := ⟨none⟩) (by simp [ReadIterator.next, ReadIterator.new, he])
  | cons x xs ih =>
    refine .more (it' := .new (xs.flatMap enc)) ?_ ih
    simp only [ReadIterator.next, ReadIterator.new, List.flatMap_cons, h]
    rw [if_pos (by simp)]
    simp

end Verif
