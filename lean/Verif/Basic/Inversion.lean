import Verif.Basic.Reader
import Verif.Basic.Utf8
/-!
# What a successful parse says about the input

`Parses p Q`: whenever `p` succeeds with result `a`, the input from the current offset on is
`bs ++ rest`, the offset has advanced by `bs.length`, and `Q a bs rest` holds.
-/
namespace Verif

def Parses {α : Type} (p : Rd α) (Q : α → Bytes → Bytes → Prop) : Prop :=
  ∀ (pre inp : Bytes) (a : α) (o : Nat), p (pre ++ inp) pre.length = .ok (a, o) →
    ∃ bs rest, inp = bs ++ rest ∧ o = pre.length + bs.length ∧ Q a bs rest

/-- The same for a reader. -/
def ParsesR {α : Type} (r : Reader α) (Q : α → Bytes → Bytes → Prop) : Prop :=
  ∀ (inp : Bytes) (a : α) (n : Nat), r inp = .ok (a, n) →
    ∃ bs rest, inp = bs ++ rest ∧ n = bs.length ∧ Q a bs rest

/-- A reader never claims to have consumed more than there is. -/
def Bounded {α : Type} (r : Reader α) : Prop := ∀ inp a n, r inp = .ok (a, n) → n ≤ inp.length

theorem ParsesR.bounded {α : Type} {r : Reader α} {Q : α → Bytes → Bytes → Prop} (h : ParsesR r Q) :
    Bounded r := by
  intro inp a n hr
  obtain ⟨bs, rest, rfl, rfl, _⟩ := h inp a n hr
  simp

/-- All that is known about an arbitrary reader. -/
theorem Bounded.parses {α : Type} {r : Reader α} (h : Bounded r) :
    ParsesR r (fun a bs rest => r (bs ++ rest) = .ok (a, bs.length)) := by
  intro inp a n hr
  have hl := h inp a n hr
  exact ⟨inp.take n, inp.drop n, by simp, by simp; omega, by simp [hr]; omega⟩

namespace Parses

variable {α β : Type}

theorem run {p : Rd α} {Q : α → Bytes → Bytes → Prop} (h : Parses p Q) : ParsesR (Rd.run p) Q := by
  intro inp a n hr
  obtain ⟨bs, rest, h1, h2, h3⟩ := h [] inp a n (by simpa [Rd.run] using hr)
  exact ⟨bs, rest, h1, by simpa using h2, h3⟩

theorem imp {p : Rd α} {Q Q' : α → Bytes → Bytes → Prop} (h : Parses p Q)
    (hi : ∀ a bs rest, Q a bs rest → Q' a bs rest) : Parses p Q' := by
  intro pre inp a o ho
  obtain ⟨bs, rest, h1, h2, h3⟩ := h pre inp a o ho
  exact ⟨bs, rest, h1, h2, hi _ _ _ h3⟩

theorem pure {x : α} : Parses (pure x : Rd α) (fun a bs _ => a = x ∧ bs = []) := by
  intro pre inp a o ho
  have : (Rd.pure x : Rd α) (pre ++ inp) pre.length = .ok (a, o) := ho
  simp only [Rd.pure, Res.ok.injEq, Prod.mk.injEq] at this
  exact ⟨[], inp, rfl, by simp [← this.2], this.1.symm, rfl⟩

theorem fail {e : Err} {Q : α → Bytes → Bytes → Prop} : Parses (Rd.fail e : Rd α) Q := by
  intro pre inp a o ho
  simp [Rd.fail] at ho

theorem lift {x : Res α} : Parses (Rd.lift x) (fun a bs _ => x = .ok a ∧ bs = []) := by
  intro pre inp a o ho
  cases x with
  | ok y =>
    simp [Rd.lift, Res.bind] at ho
    exact ⟨[], inp, rfl, by simp [← ho.2], by rw [ho.1], rfl⟩
  | err e => simp [Rd.lift, Res.bind] at ho
  | panic => simp [Rd.lift, Res.bind] at ho

theorem bind {p : Rd α} {f : α → Rd β} {Q : α → Bytes → Bytes → Prop}
    {R : α → β → Bytes → Bytes → Prop} (h1 : Parses p Q) (h2 : ∀ a, Parses (f a) (R a)) :
    Parses (p >>= f) (fun b bs rest => ∃ a bs1 bs2, bs = bs1 ++ bs2 ∧ Q a bs1 (bs2 ++ rest) ∧
      R a b bs2 rest) := by
  intro pre inp b o ho
  have ho : Rd.bind p f (pre ++ inp) pre.length = .ok (b, o) := ho
  simp only [Rd.bind] at ho
  cases hp : p (pre ++ inp) pre.length with
  | ok r =>
    obtain ⟨a, o1⟩ := r
    obtain ⟨bs1, rest1, rfl, rfl, hq⟩ := h1 pre inp a o1 hp
    simp only [hp] at ho
    rw [← List.append_assoc, ← List.length_append] at ho
    obtain ⟨bs2, rest2, rfl, rfl, hr⟩ := h2 a (pre ++ bs1) rest1 b o ho
    exact ⟨bs1 ++ bs2, rest2, by simp, by simp; omega, a, bs1, bs2, rfl, hq, hr⟩
  | err e => simp [hp] at ho
  | panic => simp [hp] at ho

theorem gread [ScrollRule] {r : Reader α} {Q : α → Bytes → Bytes → Prop} (h : ParsesR r Q) :
    Parses (Rd.gread r) (fun a bs rest => Q a bs rest ∧ slack ≤ bs.length + rest.length) := by
  intro pre inp a o ho
  simp only [Rd.gread, badOff_eq, List.length_append, List.drop_left] at ho
  split at ho
  · simp at ho
  · rename_i hb
    simp at hb
    cases hr : r inp with
    | ok x =>
      obtain ⟨a', n⟩ := x
      simp only [hr, Res.ok.injEq, Prod.mk.injEq] at ho
      obtain ⟨bs, rest, rfl, rfl, hq⟩ := h inp a' n hr
      obtain ⟨rfl, rfl⟩ := ho
      exact ⟨bs, rest, rfl, rfl, hq, by simp at hb; omega⟩
    | err e => simp [hr] at ho
    | panic => simp [hr] at ho

/-- `gread` when nothing is said about the minimum length. -/
theorem gread' [ScrollRule] {r : Reader α} {Q : α → Bytes → Bytes → Prop} (h : ParsesR r Q) :
    Parses (Rd.gread r) Q := (gread h).imp fun _ _ _ h => h.1

/-- `gread(..).ok()`: either the inner parse, or nothing. -/
theorem greadOk [ScrollRule] {r : Reader α} {Q : α → Bytes → Bytes → Prop} (h : ParsesR r Q) :
    Parses (Rd.greadOk r) (fun o bs rest => match o with
      | some a => Q a bs rest
      | none => bs = [] ∧ (slack ≤ rest.length → ∃ e, r rest = .err e)) := by
  intro pre inp a o ho
  simp only [Rd.greadOk] at ho
  cases hg : Rd.gread r (pre ++ inp) pre.length with
  | ok x =>
    obtain ⟨a', o'⟩ := x
    simp only [hg, Res.ok.injEq, Prod.mk.injEq] at ho
    obtain ⟨rfl, rfl⟩ := ho
    exact gread' h pre inp a' o' hg
  | err e =>
    simp only [hg, Res.ok.injEq, Prod.mk.injEq] at ho
    obtain ⟨rfl, rfl⟩ := ho
    refine ⟨[], inp, rfl, rfl, rfl, ?_⟩
    intro hs
    simp only [Rd.gread, badOff_eq, List.length_append, List.drop_left] at hg
    rw [if_neg (by simp; omega)] at hg
    cases hr : r inp with
    | ok x => simp [hr] at hg
    | err e => exact ⟨e, rfl⟩
    | panic => simp [hr] at hg
  | panic => simp [hg] at ho

theorem remaining : Parses Rd.remaining (fun a bs rest => a = rest ∧ bs = []) := by
  intro pre inp a o ho
  simp [Rd.remaining] at ho
  obtain ⟨rfl, rfl⟩ := ho
  exact ⟨[], inp, rfl, rfl, rfl, rfl⟩

theorem toEnd : Parses Rd.toEnd (fun _ _ rest => rest = []) := by
  intro pre inp a o ho
  simp [Rd.toEnd] at ho
  exact ⟨inp, [], by simp, by simp [← ho], rfl⟩

/-- Bytes skipped without looking, before something that errs beyond the end. -/
theorem skip {n : Nat} {f : Unit → Rd α} {Q : α → Bytes → Bytes → Prop} (hn : Rd.Needs (f ()) 0)
    (h : Parses (f ()) Q) :
    Parses (Rd.advance n >>= f) (fun a bs rest => ∃ (x : Arr n) (b2 : Bytes), bs = x.val ++ b2 ∧ Q a b2 rest) := by
  intro pre inp a o ho
  have ho : f () (pre ++ inp) (pre.length + n) = .ok (a, o) := ho
  by_cases hl : n ≤ inp.length
  · have e : pre ++ inp = (pre ++ inp.take n) ++ inp.drop n := by simp
    have e2 : pre.length + n = (pre ++ inp.take n).length := by simp; omega
    rw [e, e2] at ho
    obtain ⟨bs, rest, h1, h2, h3⟩ := h _ _ a o ho
    refine ⟨inp.take n ++ bs, rest, ?_, ?_, ⟨inp.take n, by simp; omega⟩, bs, rfl, h3⟩
    · rw [List.append_assoc, ← h1, List.take_append_drop]
    · rw [h2]; simp; omega
  · obtain ⟨e, he⟩ := hn (pre ++ inp) (pre.length + n) (by simp; omega)
    rw [he] at ho; cases ho

theorem ite {c : Prop} [Decidable c] {p q : Rd α} {Q R : α → Bytes → Bytes → Prop}
    (h1 : c → Parses p Q) (h2 : ¬ c → Parses q R) :
    Parses (if c then p else q) (fun a bs rest => (c ∧ Q a bs rest) ∨ (¬ c ∧ R a bs rest)) := by
  by_cases hc : c
  · simp only [hc, if_true]
    exact (h1 hc).imp fun _ _ _ h => .inl ⟨trivial, h⟩
  · simp only [hc, if_false]
    exact (h2 hc).imp fun _ _ _ h => .inr ⟨not_false, h⟩

end Parses

theorem readLE_parses (w : Nat) (h8 : w % 8 = 0) : ParsesR (readLE w) (fun x bs _ => bs = toLE x) := by
  intro inp a n h
  simp only [readLE] at h
  split at h
  · rename_i hl
    simp only [Res.ok.injEq, Prod.mk.injEq] at h
    obtain ⟨rfl, rfl⟩ := h
    refine ⟨inp.take (w / 8), inp.drop (w / 8), by simp, by simp; omega, ?_⟩
    show _ = toLE _
    rw [toLE_fromLE h8 _ (by simp; omega)]
  · simp at h

theorem readBE_parses (w : Nat) (h8 : w % 8 = 0) : ParsesR (readBE w) (fun x bs _ => bs = toBE x) := by
  intro inp a n h
  simp only [readBE] at h
  split at h
  · rename_i hl
    simp only [Res.ok.injEq, Prod.mk.injEq] at h
    obtain ⟨rfl, rfl⟩ := h
    refine ⟨inp.take (w / 8), inp.drop (w / 8), by simp, by simp; omega, ?_⟩
    show _ = toBE _
    rw [toBE_fromBE h8 _ (by simp; omega)]
  · simp at h

theorem readBytes_parses (k : Nat) : ParsesR (readBytes k) (fun x bs _ => bs = x ∧ x.length = k) := by
  intro inp a n h
  unfold readBytes at h
  split at h
  · simp only [Res.ok.injEq, Prod.mk.injEq] at h
    obtain ⟨rfl, rfl⟩ := h
    exact ⟨inp.take k, inp.drop k, by simp, by simp; omega, rfl, by simp; omega⟩
  · cases h

theorem readU8_parses : ParsesR readU8 (fun x bs _ => bs = [x]) := by
  intro inp a n h
  cases inp with
  | nil => simp [readLE] at h
  | cons x r =>
    rw [readU8_cons] at h
    simp only [Res.ok.injEq, Prod.mk.injEq] at h
    obtain ⟨rfl, rfl⟩ := h
    exact ⟨[x], r, rfl, rfl, rfl⟩

theorem readArr_parses (k : Nat) : ParsesR (readArr k) (fun x bs _ => bs = x.val) := by
  intro inp a n h
  by_cases hl : k ≤ inp.length
  · obtain ⟨x, rest, rfl⟩ := exists_arr k hl
    rw [readArr_append x rest] at h
    simp only [Res.ok.injEq, Prod.mk.injEq] at h
    obtain ⟨rfl, rfl⟩ := h
    exact ⟨x.val, rest, rfl, by simp, rfl⟩
  · obtain ⟨e, he⟩ := (readArr_fixed k inp).2 (by omega)
    simp [he] at h

theorem readStr_parses (k : Nat) : ParsesR (readStr k) (fun s bs _ => bs = s.bytes ∧ s.bytes.length = k) := by
  intro inp a n h
  simp only [readStr] at h
  split at h
  · simp at h
  · split at h
    · simp only [Res.ok.injEq, Prod.mk.injEq] at h
      obtain ⟨rfl, rfl⟩ := h
      exact ⟨inp.take k, inp.drop k, by simp, by simp; omega, rfl, by simp; omega⟩
    · simp at h

end Verif
