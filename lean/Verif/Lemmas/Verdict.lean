import Verif.Spec.Verdict
import Verif.Model.Frames.Mgmt
/-!
# Errors under appended input: helpers for C78
-/
namespace Verif
open Spec

/-- A step that gives the same result when more input follows, moves the offset by `lo` to `hi` bytes,
and does not run out of input when `hi` bytes are left. -/
structure Rd.In {α : Type} (p : Rd α) (lo hi : Nat) : Prop where
  stable : ∀ inp off v, p inp off = .ok v → ∀ more, p (inp ++ more) off = .ok v
  final : ∀ inp off, p inp off = .err .badInput → ∀ more, p (inp ++ more) off = .err .badInput
  kinds : ∀ inp off e, p inp off = .err e → Short e ∨ e = .badInput
  moves : ∀ inp off v, off ≤ inp.length → p inp off = .ok v →
    off + lo ≤ v.2 ∧ v.2 ≤ off + hi ∧ v.2 ≤ inp.length
  sated : ∀ inp off e, off + hi ≤ inp.length → p inp off = .err e → e = .badInput

/-- The rest of a body. -/
structure Rd.End {α : Type} (p : Rd α) (lo hi : Nat) : Prop where
  final : ∀ inp off, off ≤ inp.length → p inp off = .err .badInput →
    ∀ more, p (inp ++ more) off = .err .badInput
  kinds : ∀ inp off e, p inp off = .err e → Short e ∨ e = .badInput
  needs : ∀ inp off v, off ≤ inp.length → p inp off = .ok v → off + lo ≤ inp.length
  sated : ∀ inp off e, off + hi ≤ inp.length → p inp off = .err e → e = .badInput

/-- `Rd.In` for a parser. -/
structure InReader {α : Type} (r : Reader α) (lo hi : Nat) : Prop where
  stable : ∀ inp v, r inp = .ok v → ∀ more, r (inp ++ more) = .ok v
  final : ∀ inp, r inp = .err .badInput → ∀ more, r (inp ++ more) = .err .badInput
  kinds : ∀ inp e, r inp = .err e → Short e ∨ e = .badInput
  moves : ∀ inp v, r inp = .ok v → lo ≤ v.2 ∧ v.2 ≤ hi ∧ v.2 ≤ inp.length
  sated : ∀ inp e, hi ≤ inp.length → r inp = .err e → e = .badInput

theorem InReader.verdict {α : Type} {r : Reader α} {lo hi : Nat} (h : InReader r lo hi) :
    Verdict r lo hi where
  kinds := h.kinds
  final := h.final
  needs inp v hv := by have := h.moves inp v hv; omega
  sated := h.sated

namespace Rd.In

theorem toEnd {α : Type} {p : Rd α} {lo hi : Nat} (h : Rd.In p lo hi) : Rd.End p lo hi where
  final inp off _ := h.final inp off
  kinds := h.kinds
  needs inp off v ho hv := by have := h.moves inp off v ho hv; omega
  sated := h.sated

theorem run {α : Type} {p : Rd α} {lo hi : Nat} (h : Rd.In p lo hi) : InReader (Rd.run p) lo hi where
  stable inp v := h.stable inp 0 v
  final inp := h.final inp 0
  kinds inp e := h.kinds inp 0 e
  moves inp v hv := by have := h.moves inp 0 v (Nat.zero_le _) hv; omega
  sated inp e hl := h.sated inp 0 e (by omega)

theorem pure {α : Type} {a : α} : Rd.In (pure a : Rd α) 0 0 where
  stable inp off v h more := h
  final inp off h := nomatch h
  kinds inp off e h := nomatch h
  moves inp off v ho h := by
    have h' : Res.ok (a, off) = Res.ok v := h
    cases h'
    exact ⟨Nat.le_refl _, Nat.le_refl _, ho⟩
  sated inp off e _ h := nomatch h

theorem fail {α : Type} : Rd.In (Rd.fail .badInput : Rd α) 0 0 where
  stable inp off v h := nomatch h
  final inp off h more := h
  kinds inp off e h := by cases h; exact .inr rfl
  moves inp off v ho h := nomatch h
  sated inp off e _ h := by cases h; rfl

theorem lift {α : Type} {x : Res α} (hx : ∀ e, x = .err e → e = .badInput) : Rd.In (Rd.lift x) 0 0 where
  stable inp off v h more := h
  final inp off h more := h
  kinds inp off e h := by
    cases x with
    | ok a => cases h
    | err e' => cases h; exact .inr (hx e rfl)
    | panic => cases h
  moves inp off v ho h := by
    cases x with
    | ok a =>
      have h' : Res.ok (a, off) = Res.ok v := h
      cases h'
      exact ⟨Nat.le_refl _, Nat.le_refl _, ho⟩
    | err e' => cases h
    | panic => cases h
  sated inp off e _ h := by
    cases x with
    | ok a => cases h
    | err e' => cases h; exact hx e rfl
    | panic => cases h

theorem weaken {α : Type} {p : Rd α} {lo hi lo' hi' : Nat} (h : Rd.In p lo hi) (h1 : lo' ≤ lo)
    (h2 : hi ≤ hi') : Rd.In p lo' hi' where
  stable := h.stable
  final := h.final
  kinds := h.kinds
  moves inp off v ho hv := by have := h.moves inp off v ho hv; omega
  sated inp off e hl := h.sated inp off e (by omega)

/-- Nothing is accepted and no input is missing: `lo` is free. -/
theorem fail' {α : Type} {lo hi : Nat} : Rd.In (Rd.fail .badInput : Rd α) lo hi where
  stable inp off v h := nomatch h
  final inp off h more := h
  kinds inp off e h := by cases h; exact .inr rfl
  moves inp off v ho h := nomatch h
  sated inp off e _ h := by cases h; rfl

end Rd.In

/-- Results of a bind. -/
theorem Rd.bind_ok {α β : Type} {p : Rd α} {f : α → Rd β} {inp : Bytes} {off : Nat} {v : β × Nat}
    (h : (p >>= f) inp off = .ok v) : ∃ u, p inp off = .ok u ∧ f u.1 inp u.2 = .ok v := by
  have h' : Rd.bind p f inp off = .ok v := h
  unfold Rd.bind at h'
  cases hp : p inp off with
  | ok u => rw [hp] at h'; exact ⟨u, rfl, h'⟩
  | err e => rw [hp] at h'; cases h'
  | panic => rw [hp] at h'; cases h'

theorem Rd.bind_err {α β : Type} {p : Rd α} {f : α → Rd β} {inp : Bytes} {off : Nat} {e : Err}
    (h : (p >>= f) inp off = .err e) :
    p inp off = .err e ∨ ∃ u, p inp off = .ok u ∧ f u.1 inp u.2 = .err e := by
  have h' : Rd.bind p f inp off = .err e := h
  unfold Rd.bind at h'
  cases hp : p inp off with
  | ok u => rw [hp] at h'; exact .inr ⟨u, rfl, h'⟩
  | err e' => rw [hp] at h'; cases h'; exact .inl rfl
  | panic => rw [hp] at h'; cases h'

theorem Rd.bind_of_ok {α β : Type} {p : Rd α} {f : α → Rd β} {inp : Bytes} {off : Nat} {u : α × Nat}
    (h : p inp off = .ok u) : (p >>= f) inp off = f u.1 inp u.2 := by
  show Rd.bind p f inp off = _
  simp only [Rd.bind, h]

theorem Rd.bind_of_err {α β : Type} {p : Rd α} {f : α → Rd β} {inp : Bytes} {off : Nat} {e : Err}
    (h : p inp off = .err e) : (p >>= f) inp off = .err e := by
  show Rd.bind p f inp off = _
  simp only [Rd.bind, h]

theorem Rd.End.bind {α β : Type} {p : Rd α} {f : α → Rd β} {lo hi lo' hi' : Nat} (h1 : Rd.In p lo hi)
    (h2 : ∀ a, Rd.End (f a) lo' hi') : Rd.End (p >>= f) (lo + lo') (hi + hi') where
  final inp off ho h more := by
    rcases Rd.bind_err h with h | ⟨u, hu, h⟩
    · exact Rd.bind_of_err (h1.final _ _ h more)
    · rw [Rd.bind_of_ok (h1.stable _ _ _ hu more)]
      exact (h2 u.1).final _ _ (h1.moves _ _ _ ho hu).2.2 h more
  kinds inp off e h := by
    rcases Rd.bind_err h with h | ⟨u, hu, h⟩
    · exact h1.kinds _ _ _ h
    · exact (h2 u.1).kinds _ _ _ h
  needs inp off v ho h := by
    obtain ⟨u, hu, h⟩ := Rd.bind_ok h
    have := h1.moves _ _ _ ho hu
    have := (h2 u.1).needs _ _ _ (by omega) h
    omega
  sated inp off e hl h := by
    rcases Rd.bind_err h with h | ⟨u, hu, h⟩
    · exact h1.sated _ _ _ (by omega) h
    · have := h1.moves _ _ _ (by omega) hu
      exact (h2 u.1).sated _ _ _ (by omega) h

theorem Rd.In.bind {α β : Type} {p : Rd α} {f : α → Rd β} {lo hi lo' hi' : Nat} (h1 : Rd.In p lo hi)
    (h2 : ∀ a, Rd.In (f a) lo' hi') : Rd.In (p >>= f) (lo + lo') (hi + hi') where
  stable inp off v h more := by
    obtain ⟨u, hu, h⟩ := Rd.bind_ok h
    rw [Rd.bind_of_ok (h1.stable _ _ _ hu more)]
    exact (h2 u.1).stable _ _ _ h more
  final inp off h more := by
    rcases Rd.bind_err h with h | ⟨u, hu, h⟩
    · exact Rd.bind_of_err (h1.final _ _ h more)
    · rw [Rd.bind_of_ok (h1.stable _ _ _ hu more)]
      exact (h2 u.1).final _ _ h more
  kinds inp off e h := by
    rcases Rd.bind_err h with h | ⟨u, hu, h⟩
    · exact h1.kinds _ _ _ h
    · exact (h2 u.1).kinds _ _ _ h
  moves inp off v ho h := by
    obtain ⟨u, hu, h⟩ := Rd.bind_ok h
    have := h1.moves _ _ _ ho hu
    have := (h2 u.1).moves _ _ _ (by omega) h
    omega
  sated inp off e hl h := by
    rcases Rd.bind_err h with h | ⟨u, hu, h⟩
    · exact h1.sated _ _ _ (by omega) h
    · have := h1.moves _ _ _ (by omega) hu
      exact (h2 u.1).sated _ _ _ (by omega) h

/-! ## Reading an item -/

variable [ScrollRule]

/-- Results of `gread`. -/
theorem Rd.gread_cases {α : Type} {r : Reader α} {inp : Bytes} {off : Nat} :
    (inp.length < off + slack ∧ Rd.gread r inp off = .err .badOffset) ∨
    (off + slack ≤ inp.length ∧ Rd.gread r inp off = match r (inp.drop off) with
      | .ok (a, n) => .ok (a, off + n)
      | .err e => .err e
      | .panic => .panic) := by
  by_cases h : inp.length < off + slack
  · exact .inl ⟨h, by simp only [Rd.gread, badOff_eq]; rw [if_pos (by simpa using h)]⟩
  · exact .inr ⟨by omega, by simp only [Rd.gread, badOff_eq]; rw [if_neg (by simpa using h)]; cases r (inp.drop off) <;> rfl⟩

theorem Rd.gread_ok_inv {α : Type} {r : Reader α} {inp : Bytes} {off : Nat} {v : α × Nat}
    (h : Rd.gread r inp off = .ok v) :
    off + slack ≤ inp.length ∧ ∃ n, r (inp.drop off) = .ok (v.1, n) ∧ v.2 = off + n := by
  rcases Rd.gread_cases (r := r) (inp := inp) (off := off) with ⟨_, h'⟩ | ⟨hl, h'⟩
  · rw [h'] at h; cases h
  · rw [h'] at h
    cases hr : r (inp.drop off) with
    | ok x =>
      obtain ⟨a, n⟩ := x
      rw [hr] at h
      cases h
      exact ⟨hl, n, rfl, rfl⟩
    | err e => rw [hr] at h; cases h
    | panic => rw [hr] at h; cases h

theorem Rd.gread_err_inv {α : Type} {r : Reader α} {inp : Bytes} {off : Nat} {e : Err}
    (h : Rd.gread r inp off = .err e) :
    (inp.length < off + slack ∧ e = .badOffset) ∨
      (off + slack ≤ inp.length ∧ r (inp.drop off) = .err e) := by
  rcases Rd.gread_cases (r := r) (inp := inp) (off := off) with ⟨hl, h'⟩ | ⟨hl, h'⟩
  · rw [h'] at h; cases h; exact .inl ⟨hl, rfl⟩
  · rw [h'] at h
    cases hr : r (inp.drop off) with
    | ok x => obtain ⟨a, n⟩ := x; rw [hr] at h; cases h
    | err e => rw [hr] at h; cases h; exact .inr ⟨hl, rfl⟩
    | panic => rw [hr] at h; cases h

theorem Rd.gread_of_ok {α : Type} {r : Reader α} {inp : Bytes} {off n : Nat} {a : α}
    (hl : off + slack ≤ inp.length) (h : r (inp.drop off) = .ok (a, n)) :
    Rd.gread r inp off = .ok (a, off + n) := by
  rcases Rd.gread_cases (r := r) (inp := inp) (off := off) with ⟨_, _⟩ | ⟨_, h'⟩
  · omega
  · rw [h', h]

theorem Rd.gread_of_err {α : Type} {r : Reader α} {inp : Bytes} {off : Nat} {e : Err}
    (hl : off + slack ≤ inp.length) (h : r (inp.drop off) = .err e) :
    Rd.gread r inp off = .err e := by
  rcases Rd.gread_cases (r := r) (inp := inp) (off := off) with ⟨_, _⟩ | ⟨_, h'⟩
  · omega
  · rw [h', h]

theorem InReader.gread {α : Type} {r : Reader α} {lo hi : Nat} (h : InReader r lo hi) (hs : slack ≤ hi) :
    Rd.In (Rd.gread r) lo hi where
  stable inp off v hv more := by
    obtain ⟨hl, n, hr, e⟩ := Rd.gread_ok_inv hv
    have hd : (inp ++ more).drop off = inp.drop off ++ more :=
      List.drop_append_of_le_length (by omega)
    have := Rd.gread_of_ok (r := r) (inp := inp ++ more) (off := off) (n := n) (a := v.1)
      (by simp only [List.length_append]; omega) (by rw [hd]; exact h.stable _ _ hr more)
    rw [this, ← e]
  final inp off hv more := by
    rcases Rd.gread_err_inv hv with ⟨_, e⟩ | ⟨hl, hr⟩
    · cases e
    · have hd : (inp ++ more).drop off = inp.drop off ++ more :=
        List.drop_append_of_le_length (by omega)
      exact Rd.gread_of_err (by simp only [List.length_append]; omega) (by rw [hd]; exact h.final _ hr more)
  kinds inp off e hv := by
    rcases Rd.gread_err_inv hv with ⟨_, e⟩ | ⟨hl, hr⟩
    · exact .inl (.inr e)
    · exact h.kinds _ _ hr
  moves inp off v ho hv := by
    obtain ⟨hl, n, hr, e⟩ := Rd.gread_ok_inv hv
    have := h.moves _ _ hr
    simp only [List.length_drop] at this
    omega
  sated inp off e hl hv := by
    rcases Rd.gread_err_inv hv with ⟨_, e⟩ | ⟨_, hr⟩
    · omega
    · exact h.sated _ _ (by simp only [List.length_drop]; omega) hr

theorem Spec.Verdict.gread {α : Type} {r : Reader α} {lo hi : Nat} (h : Verdict r lo hi) :
    Rd.End (Rd.gread r) (max lo slack) (max hi slack) where
  final inp off ho hv more := by
    rcases Rd.gread_err_inv hv with ⟨_, e⟩ | ⟨hl, hr⟩
    · cases e
    · have hd : (inp ++ more).drop off = inp.drop off ++ more :=
        List.drop_append_of_le_length (by omega)
      exact Rd.gread_of_err (by simp only [List.length_append]; omega) (by rw [hd]; exact h.final _ hr more)
  kinds inp off e hv := by
    rcases Rd.gread_err_inv hv with ⟨_, e⟩ | ⟨hl, hr⟩
    · exact .inl (.inr e)
    · exact h.kinds _ _ hr
  needs inp off v ho hv := by
    obtain ⟨hl, n, hr, e⟩ := Rd.gread_ok_inv hv
    have := h.needs _ _ hr
    simp only [List.length_drop] at this
    omega
  sated inp off e hl hv := by
    rcases Rd.gread_err_inv hv with ⟨_, e⟩ | ⟨_, hr⟩
    · omega
    · exact h.sated _ _ (by simp only [List.length_drop]; omega) hr

omit [ScrollRule]

namespace Rd.End

theorem run {α : Type} {p : Rd α} {lo hi : Nat} (h : Rd.End p lo hi) : Verdict (Rd.run p) lo hi where
  kinds inp e := h.kinds inp 0 e
  final inp := h.final inp 0 (Nat.zero_le _)
  needs inp v hv := by have := h.needs inp 0 v (Nat.zero_le _) hv; omega
  sated inp e hl := h.sated inp 0 e (by omega)

theorem weaken {α : Type} {p : Rd α} {lo hi lo' hi' : Nat} (h : Rd.End p lo hi) (h1 : lo' ≤ lo)
    (h2 : hi ≤ hi') : Rd.End p lo' hi' where
  final := h.final
  kinds := h.kinds
  needs inp off v ho hv := by have := h.needs inp off v ho hv; omega
  sated inp off e hl := h.sated inp off e (by omega)

/-- A last step followed by wrapping up its value. -/
theorem map {α β : Type} {p : Rd α} {f : α → β} {lo hi : Nat} (h : Rd.End p lo hi) :
    Rd.End (p >>= fun a => Pure.pure (f a)) lo hi where
  final inp off ho hv more := by
    rcases Rd.bind_err hv with hv | ⟨u, _, hv⟩
    · exact Rd.bind_of_err (h.final _ _ ho hv more)
    · cases hv
  kinds inp off e hv := by
    rcases Rd.bind_err hv with hv | ⟨u, _, hv⟩
    · exact h.kinds _ _ _ hv
    · cases hv
  needs inp off v ho hv := by
    obtain ⟨u, hu, _⟩ := Rd.bind_ok hv
    exact h.needs _ _ _ ho hu
  sated inp off e hl hv := by
    rcases Rd.bind_err hv with hv | ⟨u, _, hv⟩
    · exact h.sated _ _ _ hl hv
    · cases hv

theorem remaining : Rd.End Rd.remaining 0 0 where
  final inp off ho hv := by simp [Rd.remaining, ho] at hv
  kinds inp off e hv := by simp only [Rd.remaining] at hv; split at hv <;> cases hv
  needs inp off v ho _ := ho
  sated inp off e _ hv := by simp only [Rd.remaining] at hv; split at hv <;> cases hv

/-- The whole rest of the input. -/
theorem elements [ScrollRule] : Rd.End (Rd.gread readElements) slack slack := by
  have h : Verdict readElements 0 0 :=
    ⟨fun _ _ h => (nomatch h), fun _ h => (nomatch h), fun _ _ _ => Nat.zero_le _, fun _ _ _ h => nomatch h⟩
  exact h.gread.weaken (by omega) (by omega)

end Rd.End

/-! ## The primitive readers -/

theorem readLE_in (w : Nat) : InReader (readLE w) (w / 8) (w / 8) where
  stable inp v h more := by
    simp only [readLE] at h ⊢
    split at h
    · rw [if_pos (by simp only [List.length_append]; omega), List.take_append_of_le_length (by omega)]
      exact h
    · cases h
  final inp h := by simp only [readLE] at h; split at h <;> cases h
  kinds inp e h := by
    simp only [readLE] at h
    split at h
    · cases h
    · cases h; exact .inl (.inl rfl)
  moves inp v h := by
    simp only [readLE] at h
    split at h
    · cases h; exact ⟨Nat.le_refl _, Nat.le_refl _, by assumption⟩
    · cases h
  sated inp e hl h := by simp only [readLE, if_pos hl] at h; cases h

theorem readBE_in (w : Nat) : InReader (readBE w) (w / 8) (w / 8) where
  stable inp v h more := by
    simp only [readBE] at h ⊢
    split at h
    · rw [if_pos (by simp only [List.length_append]; omega), List.take_append_of_le_length (by omega)]
      exact h
    · cases h
  final inp h := by simp only [readBE] at h; split at h <;> cases h
  kinds inp e h := by
    simp only [readBE] at h
    split at h
    · cases h
    · cases h; exact .inl (.inl rfl)
  moves inp v h := by
    simp only [readBE] at h
    split at h
    · cases h; exact ⟨Nat.le_refl _, Nat.le_refl _, by assumption⟩
    · cases h
  sated inp e hl h := by simp only [readBE, if_pos hl] at h; cases h

theorem readBytes_in (n : Nat) : InReader (readBytes n) n n where
  stable inp v h more := by
    simp only [readBytes] at h ⊢
    split at h
    · rw [if_pos (by simp only [List.length_append]; omega), List.take_append_of_le_length (by omega)]
      exact h
    · cases h
  final inp h := by simp only [readBytes] at h; split at h <;> cases h
  kinds inp e h := by
    simp only [readBytes] at h
    split at h
    · cases h
    · cases h; exact .inl (.inl rfl)
  moves inp v h := by
    simp only [readBytes] at h
    split at h
    · cases h; exact ⟨Nat.le_refl _, Nat.le_refl _, by assumption⟩
    · cases h
  sated inp e hl h := by simp only [readBytes, if_pos hl] at h; cases h

theorem readArr_in (n : Nat) : InReader (readArr n) n n where
  stable inp v h more := by
    simp only [readArr] at h ⊢
    split at h
    · rw [dif_pos (by simp only [List.length_append]; omega)]
      cases h
      simp only [List.take_append_of_le_length (by assumption : n ≤ inp.length)]
    · cases h
  final inp h := by simp only [readArr] at h; split at h <;> cases h
  kinds inp e h := by
    simp only [readArr] at h
    split at h
    · cases h
    · cases h; exact .inl (.inl rfl)
  moves inp v h := by
    simp only [readArr] at h
    split at h
    · cases h; exact ⟨Nat.le_refl _, Nat.le_refl _, by assumption⟩
    · cases h
  sated inp e hl h := by simp only [readArr, dif_pos hl] at h; cases h

theorem InReader.weaken {α : Type} {r : Reader α} {lo hi lo' hi' : Nat} (h : InReader r lo hi)
    (h1 : lo' ≤ lo) (h2 : hi ≤ hi') : InReader r lo' hi' where
  stable := h.stable
  final := h.final
  kinds := h.kinds
  moves inp v hv := by have := h.moves inp v hv; omega
  sated inp e hl := h.sated inp e (by omega)

/-- Reading an item of at least one byte. -/
theorem InReader.gread_pos [ScrollRule] {α : Type} {r : Reader α} {lo hi : Nat} (h : InReader r lo hi)
    (hp : 0 < hi) : Rd.In (Rd.gread r) lo hi := h.gread (by have := slack_le; omega)

/-- An optional item. -/
theorem Rd.In.opt [ScrollRule] {α : Type} {r : Reader α} {n : Nat} (c : Bool) (h : InReader r n n)
    (hp : 0 < n) : Rd.In (Rd.opt c r) (if c then n else 0) (if c then n else 0) := by
  cases c with
  | false => exact Rd.In.pure
  | true => exact Rd.In.bind (h.gread_pos hp) fun _ => Rd.In.pure

/-- Goals `Rd.In body ?lo ?hi` and `Rd.End body ?lo ?hi`. -/
macro "rd_in" : tactic => `(tactic| repeat (first
  | with_reducible exact Rd.In.pure
  | with_reducible exact Rd.In.fail'
  | (with_reducible apply Rd.In.bind ((readLE_in _).gread_pos (by decide)); intro _)
  | (with_reducible apply Rd.In.bind ((readBE_in _).gread_pos (by decide)); intro _)
  | (with_reducible apply Rd.In.bind ((readArr_in _).gread_pos (by decide)); intro _)
  | (with_reducible apply Rd.In.bind (Rd.In.opt _ (readArr_in _) (by decide)); intro _)
  | (with_reducible apply Rd.End.bind ((readLE_in _).gread_pos (by decide)); intro _)
  | (with_reducible apply Rd.End.bind ((readBE_in _).gread_pos (by decide)); intro _)
  | (with_reducible apply Rd.End.bind ((readArr_in _).gread_pos (by decide)); intro _)
  | with_reducible exact Rd.End.map Rd.End.elements
  | with_reducible exact Rd.End.map Rd.End.remaining))

end Verif
