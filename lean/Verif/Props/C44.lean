import Verif.Spec.Iter
/-!
# C44: `ReadIterator` yields exactly the items of the bytes; its `len()`
-/
namespace Verif

open Spec

variable {α : Type}

/-- Iterating over concatenated encodings of any items yields exactly these items in order, for any
item reader that inverts the encoding and fails on empty input. -/
theorem c44_yields (r : Reader α) (enc : α → Bytes)
    (h : ∀ x rest, r (enc x ++ rest) = .ok (x, (enc x).length)) (hend : ∃ e, r [] = .err e)
    (xs : List α) (l : List α) : Yields r (.new (xs.flatMap enc)) l ↔ l = xs :=
  ⟨fun hl => hl.unique (yields_flatMap enc h hend xs),
    fun e => e ▸ yields_flatMap enc h hend xs⟩

/-- Fixed-size items over arbitrary bytes: exactly one item per whole chunk of `n` bytes, each
being the parse of its chunk; a trailing partial chunk is ignored. -/
theorem c44_fixed_items (r : Reader α) (n : Nat) (hn : 0 < n) (f : Bytes → α)
    (hr : ∀ bs, n ≤ bs.length → r bs = .ok (f (bs.take n), n))
    (hshort : ∀ bs : Bytes, bs.length < n → ∃ e, r bs = .err e) (bs : Bytes) :
    ∃ l, Yields r (.new bs) l ∧ l.length = bs.length / n ∧
      ∀ i, i < bs.length / n → l[i]? = some (f ((bs.drop (i * n)).take n)) := by
  suffices H : ∀ k (bs : Bytes), bs.length ≤ k → ∃ l, Yields r (.new bs) l ∧
      l.length = bs.length / n ∧
      ∀ i, i < bs.length / n → l[i]? = some (f ((bs.drop (i * n)).take n)) from
    H _ bs (Nat.le_refl _)
  intro k
  induction k with
  | zero =>
    intro bs hb
    obtain ⟨e, he⟩ := hshort bs (by omega)
    have h0 : bs.length / n = 0 := Nat.div_eq_of_lt (by omega)
    exact ⟨[], .done (it' := ⟨none⟩) (by simp [ReadIterator.next, ReadIterator.new, he]),
      by simp [h0], by intro i hi; omega⟩
  | succ k ih =>
    intro bs hb
    by_cases hl : n ≤ bs.length
    · obtain ⟨l, hy, hlen, hget⟩ := ih (bs.drop n) (by simp; omega)
      have hdiv : bs.length / n = (bs.length - n) / n + 1 := by
        rw [Nat.div_eq bs.length n, if_pos ⟨hn, hl⟩]
      refine ⟨f (bs.take n) :: l, .more (it' := .new (bs.drop n)) ?_ hy, ?_, ?_⟩
      · simp only [ReadIterator.next, ReadIterator.new, hr bs hl]
        rw [if_pos hl]
      · simp [hlen, hdiv]
      · intro i hi
        cases i with
        | zero => simp
        | succ i =>
          have := hget i (by simp only [List.length_drop]; omega)
          simp only [List.getElem?_cons_succ, this, List.drop_drop]
          rw [Nat.succ_mul, Nat.add_comm n]
    · obtain ⟨e, he⟩ := hshort bs (by omega)
      have h0 : bs.length / n = 0 := Nat.div_eq_of_lt (by omega)
      exact ⟨[], .done (it' := ⟨none⟩) (by simp [ReadIterator.next, ReadIterator.new, he]),
        by simp [h0], by intro i hi; omega⟩

/-- Iteration is fused: once `next` has returned `None` it returns `None` again, for ever. -/
theorem c44_fused (r : Reader α) (it it' : ReadIterator) (h : it.next r = .ok (none, it')) :
    it'.next r = .ok (none, it') := by
  simp only [ReadIterator.next] at h
  split at h
  · cases h
    rename_i hb
    simp [ReadIterator.next, hb]
  · split at h
    · split at h <;> cases h
    · cases h; rfl
    · cases h

/-- Termination: if every successful item consumes at least one byte and the item reader is safe,
iteration ends without panic. -/
theorem c44_terminates (r : Reader α) (hs : SafeReader r) (hp : Progress r) (bs : Bytes) :
    ∃ l, Yields r (.new bs) l ∧ l.length ≤ bs.length := yields_exists hs hp bs

/-- An item type that reads nothing (`Empty`) never ends the iteration. -/
theorem c44_empty_items_never_end (bs : Bytes) (l : List Unit) :
    ¬ Yields readEmpty (.new bs) l := by
  intro h
  generalize hit : ReadIterator.new bs = it at h
  induction h with
  | done h => subst hit; simp [ReadIterator.next, ReadIterator.new, readEmpty] at h
  | more h t ih =>
    subst hit
    simp only [ReadIterator.next, ReadIterator.new, readEmpty, Nat.zero_le, if_true,
      List.drop_zero] at h
    cases h
    exact ih rfl

/-- The reported exact size is the number of bytes left, not of items. -/
theorem c44_len_partial (bs : Bytes) : (ReadIterator.new bs).len = bs.length := rfl

/-- A finished iterator reports zero. -/
theorem c44_len_finished (r : Reader α) (it it' : ReadIterator) (h : it.next r = .ok (none, it')) :
    it'.len = 0 := by
  simp only [ReadIterator.next] at h
  split at h
  · cases h
    rename_i hb
    simp [ReadIterator.len, hb]
  · split at h
    · split at h <;> cases h
    · cases h; rfl
    · cases h

/-- The reported size is an upper bound of the number of items, at every point of the iteration. -/
theorem c44_len_bound (r : Reader α) (hp : Progress r) (it : ReadIterator) (l : List α)
    (h : Yields r it l) : l.length ≤ it.len := by
  induction h with
  | done h => simp
  | more h t ih =>
    rename_i it it' a l
    obtain ⟨_ | bs⟩ := it
    · simp [ReadIterator.next] at h
    · simp only [ReadIterator.next] at h
      split at h
      · rename_i x n hr
        split at h
        · cases h
          have := hp _ _ _ hr
          simp only [ReadIterator.len, Option.map_some, Option.getD_some, List.length_drop,
            List.length_cons] at ih ⊢
          omega
        · cases h
      · cases h
      · cases h

/-- C44's claim about `len()` is violated: two bytes holding one 16-bit item report length 2. -/
theorem c44_len_wrong : ¬ ∀ (bs : Bytes) (l : List (BitVec 16)),
    Yields (readLE 16) (.new bs) l → (ReadIterator.new bs).len = l.length := by
  intro h
  have hy : Yields (readLE 16) (.new [1, 2]) [0x0201] :=
    .more (it' := ⟨some []⟩) (by decide) (.done (it' := ⟨none⟩) (by decide))
  exact absurd (h _ _ hy) (by decide)

/-- Concrete case for `c44_yields` and `c44_fixed_items`. -/
example : Yields (readLE 16) (.new [1, 2, 3, 4, 5]) [0x0201, 0x0403] :=
  .more (it' := ⟨some [3, 4, 5]⟩) (by decide)
    (.more (it' := ⟨some [5]⟩) (by decide) (.done (it' := ⟨none⟩) (by decide)))

end Verif
