import Verif.Basic.Res
import Verif.Basic.Bytes
/-!
# Reading: the `scroll` primitives and a reader monad

`Reader α` is the type of `try_from_ctx`: from the slice given to it, a value and
the number of bytes consumed.  `Rd α` is the body of such a function, with the
local variable `offset` threaded through.
-/
namespace Verif

/-- Open question about `scroll`: is an offset equal to the length of the buffer
rejected (`strict = true`, check `offset >= len`) or accepted
(`strict = false`, check `offset > len`)?  It matters only for zero-length items at the
very end of a buffer.  The model is parametrised over the answer. -/
class ScrollRule where
  strict : Bool

/-- The offset check at the start of `gread_with`/`gwrite_with`. -/
def badOff [ScrollRule] (off len : Nat) : Bool :=
  if ScrollRule.strict then decide (len ≤ off) else decide (len < off)

/-- The number of bytes that must be left for a zero-length item: 1 if strict, 0 if lax. -/
def slack [ScrollRule] : Nat := if ScrollRule.strict then 1 else 0

theorem slack_le [ScrollRule] : slack ≤ 1 := by
  unfold slack; split <;> omega

theorem badOff_eq [ScrollRule] (off len : Nat) : badOff off len = decide (len < off + slack) := by
  unfold badOff slack
  split <;> simp <;> omega

/-- The type of `try_from_ctx`. -/
abbrev Reader (α : Type) := Bytes → Res (α × Nat)

/-- The body of a `try_from_ctx`, given the slice and the current offset. -/
def Rd (α : Type) := Bytes → Nat → Res (α × Nat)

namespace Rd

protected def pure {α : Type} (a : α) : Rd α := fun _ off => .ok (a, off)
protected def bind {α β : Type} (p : Rd α) (f : α → Rd β) : Rd β := fun inp off =>
  match p inp off with
  | .ok (a, off') => f a inp off'
  | .err e => .err e
  | .panic => .panic

instance : Monad Rd where
  pure := Rd.pure
  bind := Rd.bind

/-- `from.gread_with(&mut offset, ctx)?` -/
def gread [ScrollRule] {α : Type} (r : Reader α) : Rd α := fun inp off =>
  if badOff off inp.length then .err .badOffset
  else match r (inp.drop off) with
    | .ok (a, n) => .ok (a, off + n)
    | .err e => .err e
    | .panic => .panic

/-- `from.gread_with(&mut offset, ctx).ok()`: on error the offset is unchanged. -/
def greadOk [ScrollRule] {α : Type} (r : Reader α) : Rd (Option α) := fun inp off =>
  match gread r inp off with
  | .ok (a, off') => .ok (some a, off')
  | .err _ => .ok (none, off)
  | .panic => .panic

/-- `&from[offset..]`; does not advance the offset. -/
def remaining : Rd Bytes := fun inp off =>
  if off ≤ inp.length then .ok (inp.drop off, off) else .panic

/-- `offset += n`. -/
def advance (n : Nat) : Rd Unit := fun _ off => .ok ((), off + n)

/-- `offset = from.len()`. -/
def toEnd : Rd Unit := fun inp _ => .ok ((), inp.length)

/-- `return Err(e)`. -/
def fail {α : Type} (e : Err) : Rd α := fun _ _ => .err e

/-- A panic. -/
def abort {α : Type} : Rd α := fun _ _ => .panic

/-- A computation that does not touch the offset. -/
def lift {α : Type} (x : Res α) : Rd α := fun _ off => x.bind fun a => .ok (a, off)

/-- A `try_from_ctx` whose body is `p`, starting at `let mut offset = 0`. -/
def run {α : Type} (p : Rd α) : Reader α := fun inp => p inp 0

end Rd

/-! ## `scroll` readers -/

/-- `<&[u8]>::try_from_ctx(src, size)`, also used for `[u8; size]`. -/
def readBytes (n : Nat) : Reader Bytes := fun inp =>
  if n ≤ inp.length then .ok (inp.take n, n) else .err .tooBig

/-- `<[u8; n]>::try_from_ctx`. -/
def readArr (n : Nat) : Reader (Arr n) := fun inp =>
  if h : n ≤ inp.length then .ok (⟨inp.take n, by simp [h]⟩, n) else .err .tooBig

/-- `uN::try_from_ctx(src, Endian::Little)`; also native endian and endian-less `u8`. -/
def readLE (w : Nat) : Reader (BitVec w) := fun inp =>
  if w / 8 ≤ inp.length then .ok (fromLE w (inp.take (w / 8)), w / 8) else .err .tooBig

/-- `uN::try_from_ctx(src, Endian::Big)`. -/
def readBE (w : Nat) : Reader (BitVec w) := fun inp =>
  if w / 8 ≤ inp.length then .ok (fromBE w (inp.take (w / 8)), w / 8) else .err .tooBig

/-- `u8`. -/
abbrev readU8 : Reader Byte := readLE 8
/-- `MACAddress::try_from_ctx`. -/
abbrev readMac : Reader Mac := readArr 6

/-- `buf.pread_with(off, ctx)`. -/
def pread [ScrollRule] {α : Type} (r : Reader α) (off : Nat) (inp : Bytes) : Res α :=
  (Rd.gread r inp off).map Prod.fst

/-! ## Exact-result lemmas

`RdAt p inp a n`: with `inp` the input from the current offset on, `p` returns
`a` and advances the offset by `n`. -/

def RdAt {α : Type} (p : Rd α) (inp : Bytes) (a : α) (n : Nat) : Prop :=
  ∀ pre : Bytes, p (pre ++ inp) pre.length = .ok (a, pre.length + n)

namespace RdAt

theorem run {α : Type} {p : Rd α} {inp : Bytes} {a : α} {n : Nat} (h : RdAt p inp a n) :
    Rd.run p inp = .ok (a, n) := by
  simpa [Rd.run] using h []

theorem pure {α : Type} {inp : Bytes} {a : α} : RdAt (pure a : Rd α) inp a 0 := by
  intro pre; rfl

theorem bind {α β : Type} {p : Rd α} {f : α → Rd β} {bs rest : Bytes} {a : α} {b : β} {m : Nat}
    (h1 : RdAt p (bs ++ rest) a bs.length) (h2 : RdAt (f a) rest b m) :
    RdAt (p >>= f) (bs ++ rest) b (bs.length + m) := by
  intro pre
  show Rd.bind p f _ _ = _
  have := h2 (pre ++ bs)
  simp only [List.append_assoc, List.length_append] at this
  simp only [Rd.bind, h1 pre, this, Nat.add_assoc]

/-- Binding a step that does not advance the offset. -/
theorem bind0 {α β : Type} {p : Rd α} {f : α → Rd β} {inp : Bytes} {a : α} {b : β} {m : Nat}
    (h1 : RdAt p inp a 0) (h2 : RdAt (f a) inp b m) : RdAt (p >>= f) inp b m := by
  intro pre
  show Rd.bind p f _ _ = _
  simp only [Rd.bind, h1 pre, Nat.add_zero, h2 pre]

theorem cast {α : Type} {p : Rd α} {inp : Bytes} {a : α} {n m : Nat} (h : RdAt p inp a n)
    (e : n = m) : RdAt p inp a m := e ▸ h

theorem gread [ScrollRule] {α : Type} {r : Reader α} {inp : Bytes} {a : α} {n : Nat}
    (h : r inp = .ok (a, n)) (hne : slack ≤ inp.length) : RdAt (Rd.gread r) inp a n := by
  intro pre
  simp only [Rd.gread, badOff_eq, List.length_append, List.drop_left]
  rw [if_neg (by simp; omega), h]

theorem greadOk_some [ScrollRule] {α : Type} {r : Reader α} {inp : Bytes} {a : α} {n : Nat}
    (h : r inp = .ok (a, n)) (hne : slack ≤ inp.length) :
    RdAt (Rd.greadOk r) inp (some a) n := by
  intro pre
  simp only [Rd.greadOk, RdAt.gread h hne pre]

theorem greadOk_none [ScrollRule] {α : Type} {r : Reader α} {inp : Bytes} {e : Err}
    (h : r inp = .err e) : RdAt (Rd.greadOk r) inp none 0 := by
  intro pre
  simp only [Rd.greadOk, Rd.gread, badOff_eq, List.length_append, List.drop_left]
  split
  · rename_i heq
    split at heq
    · simp at heq
    · simp [h] at heq
  · rfl
  · rename_i heq
    split at heq
    · simp at heq
    · simp [h] at heq

theorem remaining {inp : Bytes} : RdAt Rd.remaining inp inp 0 := by
  intro pre
  simp [Rd.remaining]

theorem toEnd {inp : Bytes} : RdAt Rd.toEnd inp () inp.length := by
  intro pre
  simp [Rd.toEnd]

theorem advance {inp : Bytes} {n : Nat} : RdAt (Rd.advance n) inp () n := by
  intro pre; rfl

/-- Skipping bytes as the last step. -/
theorem advance_pure {α : Type} {inp : Bytes} {n : Nat} {a : α} :
    RdAt (Rd.advance n >>= fun _ => Pure.pure a) inp a n := by
  intro pre; rfl

theorem lift {α : Type} {x : Res α} {inp : Bytes} {a : α} (h : x = .ok a) :
    RdAt (Rd.lift x) inp a 0 := by
  intro pre; subst h; rfl

end RdAt

/-! ## Error lemmas -/

/-- With `inp` the input from the current offset on, `p` returns an error. -/
def RdErr {α : Type} (p : Rd α) (inp : Bytes) : Prop :=
  ∀ pre : Bytes, ∃ e, p (pre ++ inp) pre.length = .err e

namespace RdErr

theorem run {α : Type} {p : Rd α} {inp : Bytes} (h : RdErr p inp) :
    ∃ e, Rd.run p inp = .err e := by
  simpa [Rd.run] using h []

theorem fail {α : Type} {e : Err} {inp : Bytes} : RdErr (Rd.fail e : Rd α) inp :=
  fun _ => ⟨e, rfl⟩

theorem lift {α : Type} {x : Res α} {inp : Bytes} {e : Err} (h : x = .err e) :
    RdErr (Rd.lift x) inp := by
  intro pre; subst h; exact ⟨e, rfl⟩

theorem bind_left {α β : Type} {p : Rd α} {f : α → Rd β} {inp : Bytes} (h : RdErr p inp) :
    RdErr (p >>= f) inp := by
  intro pre
  obtain ⟨e, he⟩ := h pre
  exact ⟨e, by show Rd.bind p f _ _ = _; simp only [Rd.bind, he]⟩

theorem bind_right {α β : Type} {p : Rd α} {f : α → Rd β} {bs rest : Bytes} {a : α}
    (h1 : RdAt p (bs ++ rest) a bs.length) (h2 : RdErr (f a) rest) :
    RdErr (p >>= f) (bs ++ rest) := by
  intro pre
  obtain ⟨e, he⟩ := h2 (pre ++ bs)
  refine ⟨e, ?_⟩
  show Rd.bind p f _ _ = _
  simp only [List.append_assoc, List.length_append] at he
  simp only [Rd.bind, h1 pre, he]

theorem bind_right0 {α β : Type} {p : Rd α} {f : α → Rd β} {inp : Bytes} {a : α}
    (h1 : RdAt p inp a 0) (h2 : RdErr (f a) inp) : RdErr (p >>= f) inp := by
  intro pre
  obtain ⟨e, he⟩ := h2 pre
  refine ⟨e, ?_⟩
  show Rd.bind p f _ _ = _
  simp only [Rd.bind, h1 pre, Nat.add_zero, he]

theorem gread [ScrollRule] {α : Type} {r : Reader α} {inp : Bytes} {e : Err}
    (h : r inp = .err e) : RdErr (Rd.gread r) inp := by
  intro pre
  simp only [Rd.gread, badOff_eq, List.length_append, List.drop_left]
  split
  · exact ⟨_, rfl⟩
  · exact ⟨e, by rw [h]⟩

theorem gread_short [ScrollRule] {α : Type} {r : Reader α} {inp : Bytes}
    (h : inp.length < slack) : RdErr (Rd.gread r) inp := by
  intro pre
  simp only [Rd.gread, badOff_eq, List.length_append]
  rw [if_pos (by simp; omega)]
  exact ⟨_, rfl⟩

end RdErr

/-! ## Safety: no panic, and the offset stays within the input -/

/-- From any offset within the input, `p` does not panic, and if it returns a value then the
offset has not decreased and is still within the input. -/
def Rd.Safe {α : Type} (p : Rd α) : Prop :=
  ∀ (inp : Bytes) (off : Nat), off ≤ inp.length →
    match p inp off with
    | .ok (_, off') => off ≤ off' ∧ off' ≤ inp.length
    | .err _ => True
    | .panic => False

/-- A reader that never panics and never reports more bytes consumed than it was given. -/
def SafeReader {α : Type} (r : Reader α) : Prop :=
  ∀ inp : Bytes, match r inp with
    | .ok (_, n) => n ≤ inp.length
    | .err _ => True
    | .panic => False

namespace Rd.Safe

theorem run {α : Type} {p : Rd α} (h : Rd.Safe p) : SafeReader (Rd.run p) := by
  intro inp
  have := h inp 0 (Nat.zero_le _)
  simp only [Rd.run]
  split <;> simp_all

theorem pure {α : Type} {a : α} : Rd.Safe (pure a : Rd α) := by
  intro inp off h; exact ⟨Nat.le_refl _, h⟩

theorem bind {α β : Type} {p : Rd α} {f : α → Rd β} (h1 : Rd.Safe p) (h2 : ∀ a, Rd.Safe (f a)) :
    Rd.Safe (p >>= f) := by
  intro inp off h
  have e : (p >>= f) inp off = Rd.bind p f inp off := rfl
  rw [e]
  unfold Rd.bind
  have h1' := h1 inp off h
  cases hp : p inp off with
  | ok r =>
    obtain ⟨a, off'⟩ := r
    rw [hp] at h1'
    have h3 := h2 a inp off' h1'.2
    dsimp only
    cases hf : f a inp off' with
    | ok r' =>
      obtain ⟨b, off''⟩ := r'
      rw [hf] at h3
      exact ⟨Nat.le_trans h1'.1 h3.1, h3.2⟩
    | err e => trivial
    | panic => rw [hf] at h3; exact h3
  | err e => trivial
  | panic => rw [hp] at h1'; exact h1'

theorem gread [ScrollRule] {α : Type} {r : Reader α} (h : SafeReader r) :
    Rd.Safe (Rd.gread r) := by
  intro inp off hoff
  unfold Rd.gread
  have := h (inp.drop off)
  split at this
  · rename_i a n heq
    by_cases hb : badOff off inp.length = true
    · simp [hb]
    · simp only [hb]
      simp at this ⊢
      omega
  · rename_i e heq
    by_cases hb : badOff off inp.length = true
    · simp [hb]
    · simp [hb]
  · exact this.elim

theorem greadOk [ScrollRule] {α : Type} {r : Reader α} (h : SafeReader r) :
    Rd.Safe (Rd.greadOk r) := by
  intro inp off hoff
  unfold Rd.greadOk
  have := gread h inp off hoff
  split at this <;> rename_i heq <;> simp_all

/-- Skipping bytes before something that errs beyond the end. -/
theorem skip {α : Type} {n : Nat} {f : Unit → Rd α}
    (hn : ∀ inp off, inp.length < off → ∃ e, f () inp off = .err e) (h : Rd.Safe (f ())) :
    Rd.Safe (Rd.advance n >>= f) := by
  intro inp off hoff
  show match f () inp (off + n) with | .ok (_, off') => _ | .err _ => True | .panic => False
  by_cases hl : off + n ≤ inp.length
  · have := h inp (off + n) hl
    split <;> simp_all
    omega
  · obtain ⟨e, he⟩ := hn inp (off + n) (by omega)
    rw [he]
    trivial

theorem remaining : Rd.Safe Rd.remaining := by
  intro inp off h
  simp [Rd.remaining, h]

theorem toEnd : Rd.Safe Rd.toEnd := by
  intro inp off h
  exact ⟨h, Nat.le_refl _⟩

theorem fail {α : Type} {e : Err} : Rd.Safe (Rd.fail e : Rd α) := by
  intro inp off h; trivial

theorem lift {α : Type} {x : Res α} (h : x ≠ .panic) : Rd.Safe (Rd.lift x) := by
  intro inp off hoff
  unfold Rd.lift
  cases x with
  | ok a => exact ⟨Nat.le_refl _, hoff⟩
  | err e => trivial
  | panic => exact (h rfl).elim

theorem ite {α : Type} {c : Prop} [Decidable c] {p q : Rd α} (h1 : c → Rd.Safe p)
    (h2 : ¬ c → Rd.Safe q) : Rd.Safe (if c then p else q) := by
  split
  · exact h1 ‹_›
  · exact h2 ‹_›

end Rd.Safe

/-! ## Fixed-size readers -/

/-- Succeeds consuming exactly `n` bytes whenever at least `n` are left, otherwise errs. -/
def Rd.Fixed {α : Type} (p : Rd α) (n : Nat) : Prop :=
  ∀ pre inp : Bytes,
    (n ≤ inp.length → ∃ a, p (pre ++ inp) pre.length = .ok (a, pre.length + n)) ∧
    (inp.length < n → ∃ e, p (pre ++ inp) pre.length = .err e)

/-- The same for a reader. -/
def FixedReader {α : Type} (r : Reader α) (n : Nat) : Prop :=
  ∀ inp : Bytes, (n ≤ inp.length → ∃ a, r inp = .ok (a, n)) ∧
    (inp.length < n → ∃ e, r inp = .err e)

namespace Rd.Fixed

theorem run {α : Type} {p : Rd α} {n : Nat} (h : Rd.Fixed p n) : FixedReader (Rd.run p) n := by
  intro inp
  simpa [Rd.run] using h [] inp

theorem pure {α : Type} {a : α} : Rd.Fixed (pure a : Rd α) 0 := by
  intro pre inp
  exact ⟨fun _ => ⟨a, rfl⟩, fun h => absurd h (Nat.not_lt_zero _)⟩

theorem bind {α β : Type} {p : Rd α} {f : α → Rd β} {n m : Nat} (h1 : Rd.Fixed p n)
    (h2 : ∀ a, Rd.Fixed (f a) m) : Rd.Fixed (p >>= f) (n + m) := by
  intro pre inp
  by_cases hn : n ≤ inp.length
  · obtain ⟨a, ha⟩ := (h1 pre inp).1 hn
    have h3 := h2 a (pre ++ inp.take n) (inp.drop n)
    have e1 : pre ++ List.take n inp ++ List.drop n inp = pre ++ inp := by simp
    have e2 : (pre ++ List.take n inp).length = pre.length + n := by simp; omega
    rw [e1, e2] at h3
    constructor
    · intro h
      obtain ⟨b, hb⟩ := h3.1 (by simp; omega)
      refine ⟨b, ?_⟩
      show Rd.bind p f _ _ = _
      simp only [Rd.bind, ha, hb, Nat.add_assoc]
    · intro h
      obtain ⟨e, he⟩ := h3.2 (by simp; omega)
      refine ⟨e, ?_⟩
      show Rd.bind p f _ _ = _
      simp only [Rd.bind, ha, he]
  · obtain ⟨e, he⟩ := (h1 pre inp).2 (by omega)
    constructor
    · intro h; omega
    · intro _
      exact ⟨e, by show Rd.bind p f _ _ = _; simp only [Rd.bind, he]⟩

theorem cast {α : Type} {p : Rd α} {n m : Nat} (h : Rd.Fixed p n) (e : n = m) : Rd.Fixed p m :=
  e ▸ h

theorem gread [ScrollRule] {α : Type} {r : Reader α} {n : Nat} (h : FixedReader r n)
    (hn : 0 < n) : Rd.Fixed (Rd.gread r) n := by
  intro pre inp
  constructor
  · intro hl
    obtain ⟨a, ha⟩ := (h inp).1 hl
    exact ⟨a, RdAt.gread ha (by have := slack_le; omega) pre⟩
  · intro hl
    obtain ⟨e, he⟩ := (h inp).2 hl
    exact RdErr.gread he pre

end Rd.Fixed

/-! ## Advancing by a fixed amount, whatever is left

For bodies that move the offset without looking (`offset += n`). -/

/-- Errs or advances the offset by exactly `k`; never panics. -/
def Rd.Adv {α : Type} (p : Rd α) (k : Nat) : Prop :=
  ∀ inp off, (∃ e, p inp off = .err e) ∨ ∃ a, p inp off = .ok (a, off + k)

/-- Errs when fewer than `n` bytes are left. -/
def Rd.Needs {α : Type} (p : Rd α) (n : Nat) : Prop :=
  ∀ inp off, inp.length < off + n → ∃ e, p inp off = .err e

namespace Rd.Adv

theorem gread [ScrollRule] {α : Type} {r : Reader α} {k : Nat}
    (h : ∀ inp, (∃ e, r inp = .err e) ∨ ∃ a, r inp = .ok (a, k)) : Rd.Adv (Rd.gread r) k := by
  intro inp off
  unfold Rd.gread
  split
  · exact .inl ⟨_, rfl⟩
  · rcases h (inp.drop off) with ⟨e, he⟩ | ⟨a, ha⟩
    · exact .inl ⟨e, by rw [he]⟩
    · exact .inr ⟨a, by rw [ha]⟩

theorem bind {α β : Type} {p : Rd α} {f : α → Rd β} {k m : Nat} (h1 : Rd.Adv p k)
    (h2 : ∀ a, Rd.Adv (f a) m) : Rd.Adv (p >>= f) (k + m) := by
  intro inp off
  show (∃ e, Rd.bind p f inp off = .err e) ∨ ∃ a, Rd.bind p f inp off = .ok (a, _)
  unfold Rd.bind
  rcases h1 inp off with ⟨e, he⟩ | ⟨a, ha⟩
  · exact .inl ⟨e, by rw [he]⟩
  · rw [ha, ← Nat.add_assoc]
    exact h2 a inp (off + k)

theorem pure {α : Type} {a : α} : Rd.Adv (pure a : Rd α) 0 := fun _ _ => .inr ⟨a, rfl⟩

theorem advance {n : Nat} : Rd.Adv (Rd.advance n) n := fun _ _ => .inr ⟨(), rfl⟩

theorem run {α : Type} {p : Rd α} {k : Nat} (h : Rd.Adv p k) (inp : Bytes) :
    (∃ e, Rd.run p inp = .err e) ∨ ∃ a, Rd.run p inp = .ok (a, k) := by
  simpa [Rd.run] using h inp 0

end Rd.Adv

namespace Rd.Needs

theorem gread [ScrollRule] {α : Type} {r : Reader α} {n : Nat} (h : FixedReader r n) :
    Rd.Needs (Rd.gread r) n := by
  intro inp off hl
  unfold Rd.gread
  rw [badOff_eq]
  split
  · exact ⟨_, rfl⟩
  · by_cases hn : (inp.drop off).length < n
    · obtain ⟨e, he⟩ := (h (inp.drop off)).2 hn
      exact ⟨e, by rw [he]⟩
    · rename_i hb
      simp at hn hb
      exfalso
      have := slack_le
      by_cases h0 : off ≤ inp.length
      · omega
      · have := slack_le; omega

theorem left {α β : Type} {p : Rd α} {f : α → Rd β} {n : Nat} (h : Rd.Needs p n) :
    Rd.Needs (p >>= f) n := by
  intro inp off hl
  obtain ⟨e, he⟩ := h inp off hl
  exact ⟨e, by show Rd.bind p f _ _ = _; simp only [Rd.bind, he]⟩

theorem bind {α β : Type} {p : Rd α} {f : α → Rd β} {k n : Nat} (h1 : Rd.Adv p k)
    (h2 : ∀ a, Rd.Needs (f a) n) : Rd.Needs (p >>= f) (k + n) := by
  intro inp off hl
  show ∃ e, Rd.bind p f _ _ = _
  unfold Rd.bind
  rcases h1 inp off with ⟨e, he⟩ | ⟨a, ha⟩
  · exact ⟨e, by rw [he]⟩
  · rw [ha]
    exact h2 a inp (off + k) (by omega)

theorem lift {α β : Type} {x : Res α} {f : α → Rd β} {n : Nat} (hx : x ≠ .panic)
    (h : ∀ a, Rd.Needs (f a) n) : Rd.Needs (Rd.lift x >>= f) n := by
  intro inp off hl
  show ∃ e, Rd.bind _ _ _ _ = _
  cases x with
  | ok a => exact h a inp off hl
  | err e => exact ⟨e, rfl⟩
  | panic => exact absurd rfl hx

theorem run {α : Type} {p : Rd α} {n : Nat} (h : Rd.Needs p n) (inp : Bytes)
    (hl : inp.length < n) : ∃ e, Rd.run p inp = .err e := h inp 0 (by omega)

end Rd.Needs

theorem FixedReader.adv {α : Type} {r : Reader α} {n : Nat} (h : FixedReader r n) (inp : Bytes) :
    (∃ e, r inp = .err e) ∨ ∃ a, r inp = .ok (a, n) := by
  by_cases hl : n ≤ inp.length
  · exact .inr ((h inp).1 hl)
  · exact .inl ((h inp).2 (by omega))

theorem SafeReader.ne_panic {α : Type} {r : Reader α} (h : SafeReader r) (inp : Bytes) :
    r inp ≠ .panic := by
  intro hp
  have := h inp
  rw [hp] at this
  exact this

theorem FixedReader.safe {α : Type} {r : Reader α} {n : Nat} (h : FixedReader r n) :
    SafeReader r := by
  intro inp
  by_cases hl : n ≤ inp.length
  · obtain ⟨a, ha⟩ := (h inp).1 hl
    rw [ha]; exact hl
  · obtain ⟨e, he⟩ := (h inp).2 (by omega)
    rw [he]; trivial

/-! ## Facts about the `scroll` readers -/

theorem readLE_append {w : Nat} (h : w % 8 = 0) (x : BitVec w) (rest : Bytes) :
    readLE w (toLE x ++ rest) = .ok (x, w / 8) := by
  have : (toLE x ++ rest).take (w / 8) = toLE x := by
    rw [List.take_append_of_le_length (by simp), List.take_of_length_le (by simp)]
  simp [readLE, this, fromLE_toLE h]

theorem readBE_append {w : Nat} (h : w % 8 = 0) (x : BitVec w) (rest : Bytes) :
    readBE w (toBE x ++ rest) = .ok (x, w / 8) := by
  have : (toBE x ++ rest).take (w / 8) = toBE x := by
    rw [List.take_append_of_le_length (by simp), List.take_of_length_le (by simp)]
  simp [readBE, this, fromBE_toBE h]

theorem readU8_cons (x : Byte) (rest : Bytes) : readU8 (x :: rest) = .ok (x, 1) := by
  have := readLE_append (w := 8) rfl x rest
  simpa [toLE_u8] using this

theorem readArr_append {n : Nat} (a : Arr n) (rest : Bytes) :
    readArr n (a.val ++ rest) = .ok (a, n) := by
  have : (a.val ++ rest).take n = a.val := by
    rw [List.take_append_of_le_length (by simp), List.take_of_length_le (by simp)]
  simp [readArr, this]

theorem readBytes_append (bs rest : Bytes) :
    readBytes bs.length (bs ++ rest) = .ok (bs, bs.length) := by
  simp [readBytes]

theorem readLE_fixed (w : Nat) : FixedReader (readLE w) (w / 8) := by
  intro inp
  constructor <;> intro h
  · exact ⟨fromLE w (inp.take (w / 8)), by simp [readLE, h]⟩
  · exact ⟨.tooBig, by simp only [readLE]; rw [if_neg (by omega)]⟩

theorem readBE_fixed (w : Nat) : FixedReader (readBE w) (w / 8) := by
  intro inp
  constructor <;> intro h
  · exact ⟨fromBE w (inp.take (w / 8)), by simp [readBE, h]⟩
  · exact ⟨.tooBig, by simp only [readBE]; rw [if_neg (by omega)]⟩

theorem readArr_fixed (n : Nat) : FixedReader (readArr n) n := by
  intro inp
  constructor <;> intro h
  · exact ⟨⟨inp.take n, by simp [h]⟩, by simp [readArr, h]⟩
  · exact ⟨.tooBig, by simp only [readArr]; rw [dif_neg (by omega)]⟩

theorem readBytes_fixed (n : Nat) : FixedReader (readBytes n) n := by
  intro inp
  constructor <;> intro h
  · exact ⟨inp.take n, by simp [readBytes, h]⟩
  · exact ⟨.tooBig, by simp only [readBytes]; rw [if_neg (by omega)]⟩

namespace RdAt

/-- Next step: a little-endian integer. -/
theorem le [ScrollRule] {β : Type} {w : Nat} {f : BitVec w → Rd β} {x : BitVec w} {rest : Bytes}
    {b : β} {m : Nat} (h2 : RdAt (f x) rest b m) (h : w % 8 = 0 := by decide)
    (hp : 0 < w / 8 := by decide) :
    RdAt (Rd.gread (readLE w) >>= f) (toLE x ++ rest) b (w / 8 + m) := by
  have := RdAt.bind (bs := toLE x) (rest := rest) (f := f) (p := Rd.gread (readLE w)) (a := x)
    (by rw [toLE_length]
        exact RdAt.gread (readLE_append h x rest) (by have := slack_le; simp; omega)) h2
  simpa using this

/-- Next step: a big-endian integer. -/
theorem be [ScrollRule] {β : Type} {w : Nat} {f : BitVec w → Rd β} {x : BitVec w} {rest : Bytes}
    {b : β} {m : Nat} (h2 : RdAt (f x) rest b m) (h : w % 8 = 0 := by decide)
    (hp : 0 < w / 8 := by decide) :
    RdAt (Rd.gread (readBE w) >>= f) (toBE x ++ rest) b (w / 8 + m) := by
  have := RdAt.bind (bs := toBE x) (rest := rest) (f := f) (p := Rd.gread (readBE w)) (a := x)
    (by rw [toBE_length]
        exact RdAt.gread (readBE_append h x rest) (by have := slack_le; simp; omega)) h2
  simpa using this

/-- Next step: a byte. -/
theorem u8 [ScrollRule] {β : Type} {f : Byte → Rd β} {x : Byte} {rest : Bytes}
    {b : β} {m : Nat} (h2 : RdAt (f x) rest b m) :
    RdAt (Rd.gread readU8 >>= f) (x :: rest) b (1 + m) := by
  have := RdAt.le (w := 8) (x := x) h2
  simpa [toLE_u8] using this

/-- Next step: a fixed array. -/
theorem arr [ScrollRule] {β : Type} {n : Nat} {f : Arr n → Rd β} {x : Arr n} {rest : Bytes}
    {b : β} {m : Nat} (h2 : RdAt (f x) rest b m) (hp : 0 < n := by decide) :
    RdAt (Rd.gread (readArr n) >>= f) (x.val ++ rest) b (n + m) := by
  have := RdAt.bind (bs := x.val) (rest := rest) (f := f) (p := Rd.gread (readArr n)) (a := x)
    (by rw [x.property]
        exact RdAt.gread (readArr_append x rest) (by have := slack_le; simp; omega)) h2
  simpa using this

/-- Next step: a sub-reader. -/
theorem sub [ScrollRule] {α β : Type} {r : Reader α} {f : α → Rd β} {x : α} {bs rest : Bytes}
    {b : β} {m : Nat} (h1 : r (bs ++ rest) = .ok (x, bs.length)) (hp : 0 < bs.length)
    (h2 : RdAt (f x) rest b m) :
    RdAt (Rd.gread r >>= f) (bs ++ rest) b (bs.length + m) :=
  RdAt.bind (RdAt.gread h1 (by have := slack_le; simp; omega)) h2

end RdAt

end Verif
