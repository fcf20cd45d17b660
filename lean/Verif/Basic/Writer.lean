import Verif.Basic.Reader
/-!
# Writing: the `scroll` primitives and a writer monad

`Writer` is the type of `try_into_ctx` applied to a value: from the destination
slice, the new contents of that slice and the number of bytes written.  `Wr` is
the body of such a function, with `buf` and `offset` threaded through.
-/
namespace Verif

/-- The type of `x.try_into_ctx`: destination buffer to new buffer and bytes written. -/
abbrev Writer := Bytes → Res (Bytes × Nat)

/-- The body of a `try_into_ctx`, given the buffer and the current offset. -/
def Wr (α : Type) := Bytes → Nat → Res (α × Bytes × Nat)

namespace Wr

protected def pure {α : Type} (a : α) : Wr α := fun buf off => .ok (a, buf, off)
protected def bind {α β : Type} (p : Wr α) (f : α → Wr β) : Wr β := fun buf off =>
  match p buf off with
  | .ok (a, buf', off') => f a buf' off'
  | .err e => .err e
  | .panic => .panic

instance : Monad Wr where
  pure := Wr.pure
  bind := Wr.bind

/-- `buf.gwrite_with(x, &mut offset, ctx)?` -/
def gwrite [ScrollRule] (w : Writer) : Wr Unit := fun buf off =>
  if badOff off buf.length then .err .badOffset
  else match w (buf.drop off) with
    | .ok (b, n) => .ok ((), buf.take off ++ b, off + n)
    | .err e => .err e
    | .panic => .panic

/-- `return Err(e)`. -/
def fail {α : Type} (e : Err) : Wr α := fun _ _ => .err e

/-- A computation that touches neither the buffer nor the offset. -/
def lift {α : Type} (x : Res α) : Wr α := fun buf off => x.bind fun a => .ok (a, buf, off)

/-- A `try_into_ctx` whose body is `p`, starting at `let mut offset = 0` and returning `Ok(offset)`. -/
def run (p : Wr Unit) : Writer := fun buf =>
  match p buf 0 with
  | .ok (_, buf', off) => .ok (buf', off)
  | .err e => .err e
  | .panic => .panic

end Wr

/-! ## `scroll` writers -/

/-- `<&[u8]>::try_into_ctx`, also for `[u8; n]` and `&str`. -/
def writeBytes (bs : Bytes) : Writer := fun buf =>
  if bs.length ≤ buf.length then .ok (bs ++ buf.drop bs.length, bs.length) else .err .tooBig

/-- `uN::try_into_ctx(Endian::Little)`; also native endian and `u8`. -/
def writeLE {w : Nat} (x : BitVec w) : Writer := writeBytes (toLE x)
/-- `uN::try_into_ctx(Endian::Big)`. -/
def writeBE {w : Nat} (x : BitVec w) : Writer := writeBytes (toBE x)
/-- `u8`. -/
def writeU8 (x : Byte) : Writer := writeBytes [x]

/-- `buf.pwrite_with(x, off, ctx)`: new buffer and bytes written. -/
def pwrite [ScrollRule] (w : Writer) (off : Nat) : Writer := fun buf =>
  match Wr.gwrite w buf off with
  | .ok (_, buf', off') => .ok (buf', off' - off)
  | .err e => .err e
  | .panic => .panic

/-! ## Characterising writers

`Emits w bs need`: given a buffer of at least `need` bytes, `w` replaces its beginning by `bs`,
leaves the rest alone and reports `bs.length`; given less, it reports an error (and does not panic). -/

structure Emits (w : Writer) (bs : Bytes) (need : Nat) : Prop where
  le : bs.length ≤ need
  ok : ∀ buf : Bytes, need ≤ buf.length → w buf = .ok (bs ++ buf.drop bs.length, bs.length)
  err : ∀ buf : Bytes, buf.length < need → ∃ e, w buf = .err e

/-- The same for a `Wr`, from the current offset on. -/
structure WEmits {α : Type} (p : Wr α) (a : α) (bs : Bytes) (need : Nat) : Prop where
  le : bs.length ≤ need
  ok : ∀ pre buf : Bytes, need ≤ buf.length →
    p (pre ++ buf) pre.length = .ok (a, pre ++ (bs ++ buf.drop bs.length), pre.length + bs.length)
  err : ∀ pre buf : Bytes, buf.length < need → ∃ e, p (pre ++ buf) pre.length = .err e

/-- A writer that always errs. -/
def Refuses (w : Writer) : Prop := ∀ buf, ∃ e, w buf = .err e

namespace Emits

theorem cast {w : Writer} {bs bs' : Bytes} {n n' : Nat} (h : Emits w bs n) (e : bs = bs')
    (e' : n = n') : Emits w bs' n' := e ▸ e' ▸ h

theorem bytes (bs : Bytes) : Emits (writeBytes bs) bs bs.length where
  le := Nat.le_refl _
  ok buf h := by simp [writeBytes, h]
  err buf h := ⟨.tooBig, by simp only [writeBytes]; rw [if_neg (by omega)]⟩

theorem writeLE {w : Nat} (x : BitVec w) : Emits (writeLE x) (toLE x) (w / 8) :=
  (Emits.bytes (toLE x)).cast rfl (by simp)
theorem writeBE {w : Nat} (x : BitVec w) : Emits (writeBE x) (toBE x) (w / 8) :=
  (Emits.bytes (toBE x)).cast rfl (by simp)
theorem writeU8 (x : Byte) : Emits (writeU8 x) [x] 1 := Emits.bytes [x]

end Emits

namespace WEmits

theorem run {p : Wr Unit} {bs : Bytes} {n : Nat} (h : WEmits p () bs n) :
    Emits (Wr.run p) bs n where
  le := h.le
  ok buf hl := by
    have := h.ok [] buf hl
    simp only [List.nil_append, List.length_nil, Nat.zero_add] at this
    simp only [Wr.run, this]
  err buf hl := by
    obtain ⟨e, he⟩ := h.err [] buf hl
    simp only [List.nil_append, List.length_nil] at he
    exact ⟨e, by simp only [Wr.run, he]⟩

theorem cast {α : Type} {p : Wr α} {a : α} {bs bs' : Bytes} {n n' : Nat} (h : WEmits p a bs n)
    (e : bs = bs') (e' : n = n') : WEmits p a bs' n' := e ▸ e' ▸ h

theorem pure {α : Type} {a : α} : WEmits (pure a : Wr α) a [] 0 where
  le := Nat.le_refl _
  ok pre buf _ := by
    show Wr.pure a _ _ = _
    simp [Wr.pure]
  err pre buf h := absurd h (Nat.not_lt_zero _)

theorem lift {α : Type} {x : Res α} {a : α} (h : x = .ok a) : WEmits (Wr.lift x) a [] 0 where
  le := Nat.le_refl _
  ok pre buf _ := by
    subst h
    simp [Wr.lift, Res.bind]
  err pre buf h := absurd h (Nat.not_lt_zero _)

theorem bind {α β : Type} {p : Wr α} {f : α → Wr β} {a : α} {b : β} {bs1 bs2 : Bytes} {n1 n2 : Nat}
    (h1 : WEmits p a bs1 n1) (h2 : WEmits (f a) b bs2 n2) :
    WEmits (p >>= f) b (bs1 ++ bs2) (max n1 (bs1.length + n2)) where
  le := by
    have := h1.le; have := h2.le
    simp only [List.length_append]; omega
  ok pre buf h := by
    show Wr.bind p f _ _ = _
    have hl1 := h1.le
    have := h2.ok (pre ++ bs1) (buf.drop bs1.length) (by simp; omega)
    simp only [List.append_assoc, List.length_append] at this
    simp only [Wr.bind, h1.ok pre buf (by omega), this, List.append_assoc, List.length_append,
      List.drop_drop, Nat.add_assoc]
  err pre buf h := by
    show ∃ e, Wr.bind p f _ _ = _
    by_cases hn : n1 ≤ buf.length
    · have hl1 := h1.le
      obtain ⟨e, he⟩ := h2.err (pre ++ bs1) (buf.drop bs1.length) (by simp; omega)
      simp only [List.append_assoc, List.length_append] at he
      exact ⟨e, by simp only [Wr.bind, h1.ok pre buf hn, he]⟩
    · obtain ⟨e, he⟩ := h1.err pre buf (by omega)
      exact ⟨e, by simp only [Wr.bind, he]⟩

theorem gwrite [ScrollRule] {w : Writer} {bs : Bytes} {n : Nat} (h : Emits w bs n) :
    WEmits (Wr.gwrite w) () bs (max n slack) where
  le := by have := h.le; omega
  ok pre buf hl := by
    simp only [Wr.gwrite, badOff_eq, List.length_append, List.drop_left, List.take_left]
    rw [if_neg (by simp; omega), h.ok buf (by omega)]
  err pre buf hl := by
    simp only [Wr.gwrite, badOff_eq, List.length_append, List.drop_left, List.take_left]
    by_cases hb : buf.length < slack
    · rw [if_pos (by simp; omega)]; exact ⟨_, rfl⟩
    · rw [if_neg (by simp; omega)]
      obtain ⟨e, he⟩ := h.err buf (by omega)
      exact ⟨e, by rw [he]⟩

/-- `gwrite` of something of positive size. -/
theorem gwrite_pos [ScrollRule] {w : Writer} {bs : Bytes} {n : Nat} (h : Emits w bs n)
    (hn : 0 < n) : WEmits (Wr.gwrite w) () bs n :=
  (gwrite h).cast rfl (by have := slack_le; omega)

/-- Sequencing for bodies without results, size equal to what is written. -/
theorem seq {β : Type} {p : Wr Unit} {f : Unit → Wr β} {b : β} {bs1 bs2 : Bytes} {n2 : Nat}
    (h1 : WEmits p () bs1 bs1.length) (h2 : WEmits (f ()) b bs2 n2) :
    WEmits (p >>= f) b (bs1 ++ bs2) (bs1.length + n2) :=
  (bind h1 h2).cast rfl (by omega)

theorem leI [ScrollRule] {β : Type} {w : Nat} {x : BitVec w} {f : Unit → Wr β} {b : β} {bs : Bytes}
    {n : Nat} (h2 : WEmits (f ()) b bs n) (hp : 0 < w / 8 := by decide) :
    WEmits (Wr.gwrite (Verif.writeLE x) >>= f) b (toLE x ++ bs) (w / 8 + n) := by
  have := seq (f := f) (p := Wr.gwrite (Verif.writeLE x)) (bs1 := toLE x)
    ((gwrite_pos (Emits.writeLE x) hp).cast rfl (by simp)) h2
  simpa using this

theorem beI [ScrollRule] {β : Type} {w : Nat} {x : BitVec w} {f : Unit → Wr β} {b : β} {bs : Bytes}
    {n : Nat} (h2 : WEmits (f ()) b bs n) (hp : 0 < w / 8 := by decide) :
    WEmits (Wr.gwrite (Verif.writeBE x) >>= f) b (toBE x ++ bs) (w / 8 + n) := by
  have := seq (f := f) (p := Wr.gwrite (Verif.writeBE x)) (bs1 := toBE x)
    ((gwrite_pos (Emits.writeBE x) hp).cast rfl (by simp)) h2
  simpa using this

theorem u8 [ScrollRule] {β : Type} {x : Byte} {f : Unit → Wr β} {b : β} {bs : Bytes}
    {n : Nat} (h2 : WEmits (f ()) b bs n) :
    WEmits (Wr.gwrite (Verif.writeU8 x) >>= f) b (x :: bs) (1 + n) := by
  have := seq (f := f) (p := Wr.gwrite (Verif.writeU8 x)) (bs1 := [x])
    (gwrite_pos (Emits.writeU8 x) Nat.one_pos) h2
  simpa using this

theorem arr [ScrollRule] {β : Type} {k : Nat} {x : Arr k} {f : Unit → Wr β} {b : β} {bs : Bytes}
    {n : Nat} (h2 : WEmits (f ()) b bs n) (hp : 0 < k := by decide) :
    WEmits (Wr.gwrite (writeBytes x.val) >>= f) b (x.val ++ bs) (k + n) := by
  have := seq (f := f) (p := Wr.gwrite (writeBytes x.val)) (bs1 := x.val)
    (gwrite_pos (Emits.bytes x.val) (by simp; omega)) h2
  simpa using this

end WEmits

/-- `pwrite` at offset 0. -/
theorem Emits.pwrite0 [ScrollRule] {w : Writer} {bs : Bytes} {n : Nat} (h : Emits w bs n) :
    Emits (pwrite w 0) bs (max n slack) where
  le := by have := h.le; omega
  ok buf hl := by
    have := (WEmits.gwrite h).ok [] buf hl
    simp only [List.nil_append, List.length_nil, Nat.zero_add] at this
    simp only [pwrite, this, Nat.sub_zero]
  err buf hl := by
    obtain ⟨e, he⟩ := (WEmits.gwrite h).err [] buf hl
    simp only [List.nil_append, List.length_nil] at he
    exact ⟨e, by simp only [pwrite, he]⟩

/-- A body starting with a failing check. -/
theorem Refuses.lift {α : Type} {x : Res α} {f : α → Wr Unit} {e : Err} (h : x = .err e) :
    Refuses (Wr.run (Wr.lift x >>= f)) := by
  intro buf
  refine ⟨e, ?_⟩
  have hb : (Wr.lift x >>= f) buf 0 = .err e := by
    show Wr.bind _ _ _ _ = _
    subst h
    simp only [Wr.bind, Wr.lift, Res.bind]
  simp only [Wr.run, hb]

end Verif
