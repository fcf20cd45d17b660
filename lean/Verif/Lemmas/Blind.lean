import Verif.Model.Frames.Control
import Verif.Model.Frames.Data
import Verif.Model.Crypto.Eapol
import Verif.Model.Crypto.CryptoHeader
import Verif.Model.Elements.Table
/-!
# Writers that do not look at the buffer

`Blind w`: for each length of the buffer `w` has one outcome, whatever the buffer holds: an error, a panic, or a
string of bytes that replaces the beginning of the buffer.  `WBlind p` is the same for a `Wr`, from the current
offset on.
-/
namespace Verif

/-- One outcome for each length of the buffer. -/
def Blind (w : Writer) : Prop := ∀ n : Nat,
  (∃ e, ∀ t : Bytes, t.length = n → w t = .err e) ∨
  (∀ t : Bytes, t.length = n → w t = .panic) ∨
  (∃ bs : Bytes, bs.length ≤ n ∧ ∀ t : Bytes, t.length = n → w t = .ok (bs ++ t.drop bs.length, bs.length))

/-- One outcome for each offset and length of the rest of the buffer. -/
def WBlind {α : Type} (p : Wr α) : Prop := ∀ m n : Nat,
  (∃ e, ∀ pre t : Bytes, pre.length = m → t.length = n → p (pre ++ t) m = .err e) ∨
  (∀ pre t : Bytes, pre.length = m → t.length = n → p (pre ++ t) m = .panic) ∨
  (∃ (a : α) (bs : Bytes), bs.length ≤ n ∧ ∀ pre t : Bytes, pre.length = m → t.length = n →
    p (pre ++ t) m = .ok (a, pre ++ (bs ++ t.drop bs.length), m + bs.length))

/-- Past the end of the buffer there is only an error. -/
def PastErr {α : Type} (p : Wr α) : Prop := ∀ (buf : Bytes) (off : Nat), buf.length < off → p buf off = .err .badOffset

theorem Blind.bytes (bs : Bytes) : Blind (writeBytes bs) := by
  intro n
  by_cases h : bs.length ≤ n
  · exact .inr (.inr ⟨bs, h, fun t ht => by rw [writeBytes, if_pos (by omega)]⟩)
  · exact .inl ⟨.tooBig, fun t ht => by rw [writeBytes, if_neg (by omega)]⟩

theorem Blind.le {w : Nat} (x : BitVec w) : Blind (writeLE x) := Blind.bytes _
theorem Blind.be {w : Nat} (x : BitVec w) : Blind (writeBE x) := Blind.bytes _
theorem Blind.u8 (x : Byte) : Blind (writeU8 x) := Blind.bytes _

theorem Blind.empty : Blind writeEmpty := fun n => .inr (.inr ⟨[], Nat.zero_le _, fun t _ => by simp [writeEmpty]⟩)

theorem Blind.run {p : Wr Unit} (h : WBlind p) : Blind (Wr.run p) := by
  intro n
  rcases h 0 n with ⟨e, h⟩ | h | ⟨a, bs, hl, h⟩
  · exact .inl ⟨e, fun t ht => by have := h [] t rfl ht; rw [List.nil_append] at this; rw [Wr.run, this]⟩
  · exact .inr (.inl fun t ht => by have := h [] t rfl ht; rw [List.nil_append] at this; rw [Wr.run, this])
  · exact .inr (.inr ⟨bs, hl, fun t ht => by
      have := h [] t rfl ht
      rw [List.nil_append, List.nil_append, Nat.zero_add] at this
      rw [Wr.run, this]⟩)

namespace WBlind

theorem pure {α : Type} (a : α) : WBlind (Pure.pure a : Wr α) := fun _ _ =>
  .inr (.inr ⟨a, [], Nat.zero_le _, fun pre t _ _ => by simp [Pure.pure, Wr.pure]⟩)

theorem fail {α : Type} (e : Err) : WBlind (Wr.fail e : Wr α) := fun _ _ => .inl ⟨e, fun _ _ _ _ => rfl⟩

theorem lift {α : Type} (x : Res α) : WBlind (Wr.lift x) := fun m n => by
  cases x with
  | ok a => exact .inr (.inr ⟨a, [], Nat.zero_le _, fun pre t _ _ => by simp [Wr.lift, Res.bind]⟩)
  | err e => exact .inl ⟨e, fun _ _ _ _ => rfl⟩
  | panic => exact .inr (.inl fun _ _ _ _ => rfl)

theorem bind {α β : Type} {p : Wr α} {f : α → Wr β} (hp : WBlind p) (hf : ∀ a, WBlind (f a)) :
    WBlind (p >>= f) := by
  intro m n
  rcases hp m n with ⟨e, h⟩ | h | ⟨a, bs, hl, h⟩
  · exact .inl ⟨e, fun pre t h1 h2 => by show Wr.bind p f _ _ = _; rw [Wr.bind, h pre t h1 h2]⟩
  · exact .inr (.inl fun pre t h1 h2 => by show Wr.bind p f _ _ = _; rw [Wr.bind, h pre t h1 h2])
  · have key : ∀ pre t : Bytes, pre.length = m → t.length = n →
        (p >>= f) (pre ++ t) m = f a ((pre ++ bs) ++ t.drop bs.length) (m + bs.length) := by
      intro pre t h1 h2
      show Wr.bind p f _ _ = _
      rw [Wr.bind, h pre t h1 h2, List.append_assoc]
    have l1 : ∀ pre : Bytes, pre.length = m → (pre ++ bs).length = m + bs.length := fun pre h => by simp [h]
    have l2 : ∀ t : Bytes, t.length = n → (t.drop bs.length).length = n - bs.length := fun t h => by simp [h]
    rcases hf a (m + bs.length) (n - bs.length) with ⟨e, g⟩ | g | ⟨b, cs, hl2, g⟩
    · exact .inl ⟨e, fun pre t h1 h2 => by rw [key pre t h1 h2, g _ _ (l1 pre h1) (l2 t h2)]⟩
    · exact .inr (.inl fun pre t h1 h2 => by rw [key pre t h1 h2, g _ _ (l1 pre h1) (l2 t h2)])
    · refine .inr (.inr ⟨b, bs ++ cs, by rw [List.length_append]; omega, fun pre t h1 h2 => ?_⟩)
      rw [key pre t h1 h2, g _ _ (l1 pre h1) (l2 t h2)]
      simp only [List.append_assoc, List.length_append, List.drop_drop, Nat.add_assoc]

theorem seq {β : Type} {p : Wr Unit} {q : Wr β} (hp : WBlind p) (hq : WBlind q) :
    WBlind (p >>= fun _ => q) := bind hp fun _ => hq

variable [ScrollRule]

theorem gwrite {w : Writer} (h : Blind w) : WBlind (Wr.gwrite w) := by
  intro m n
  by_cases hb : badOff m (m + n) = true
  · refine .inl ⟨.badOffset, fun pre t h1 h2 => ?_⟩
    rw [Wr.gwrite, List.length_append, h1, h2, if_pos hb]
  · have key : ∀ pre t : Bytes, pre.length = m → t.length = n → Wr.gwrite w (pre ++ t) m =
        match w t with
        | .ok (b, k) => .ok ((), pre ++ b, m + k)
        | .err e => .err e
        | .panic => .panic := by
      intro pre t h1 h2
      rw [Wr.gwrite, List.length_append, h1, h2, if_neg hb, ← h1, List.drop_left, List.take_left]
      cases w t <;> rfl
    rcases h n with ⟨e, h⟩ | h | ⟨bs, hl, h⟩
    · exact .inl ⟨e, fun pre t h1 h2 => by rw [key pre t h1 h2, h t h2]⟩
    · exact .inr (.inl fun pre t h1 h2 => by rw [key pre t h1 h2, h t h2])
    · exact .inr (.inr ⟨(), bs, hl, fun pre t h1 h2 => by rw [key pre t h1 h2, h t h2]⟩)

theorem opt {α : Type} {o : Option α} {w : α → Writer} (h : ∀ a, o = some a → Blind (w a)) : WBlind (Wr.opt o w) := by
  cases o with
  | none => exact pure ()
  | some a => exact gwrite (h a rfl)

omit [ScrollRule] in
theorem ite {α : Type} {c : Prop} [Decidable c] {p q : Wr α} (hp : WBlind p) (hq : WBlind q) :
    WBlind (if c then p else q) := by
  split
  · exact hp
  · exact hq

omit [ScrollRule] in
theorem zeros (k : Nat) : WBlind (fillZeros k) := by
  intro m n
  by_cases h : k ≤ n
  · refine .inr (.inr ⟨(), List.replicate k 0, by simpa using h, fun pre t h1 h2 => ?_⟩)
    rw [fillZeros, if_pos (by rw [List.length_append]; omega), ← List.drop_drop, ← h1, List.take_left, List.drop_left]
    simp
  · refine .inr (.inl fun pre t h1 h2 => ?_)
    rw [fillZeros, if_neg (by rw [List.length_append]; omega)]

end WBlind

variable [ScrollRule]

theorem Blind.pwrite0 {w : Writer} (h : Blind w) : Blind (pwrite w 0) := by
  intro n
  rcases (WBlind.gwrite h) 0 n with ⟨e, h⟩ | h | ⟨a, bs, hl, h⟩
  · exact .inl ⟨e, fun t ht => by have := h [] t rfl ht; rw [List.nil_append] at this; rw [pwrite, this]⟩
  · exact .inr (.inl fun t ht => by have := h [] t rfl ht; rw [List.nil_append] at this; rw [pwrite, this])
  · exact .inr (.inr ⟨bs, hl, fun t ht => by
      have := h [] t rfl ht
      rw [List.nil_append, List.nil_append, Nat.zero_add] at this
      rw [pwrite, this]
      rfl⟩)

theorem PastErr.gwrite (w : Writer) : PastErr (Wr.gwrite w) := by
  intro buf off h
  rw [Wr.gwrite, badOff_eq, if_pos (by simp; omega)]

omit [ScrollRule] in
theorem PastErr.bind {α β : Type} {p : Wr α} {f : α → Wr β} (hp : PastErr p) : PastErr (p >>= f) := by
  intro buf off h
  show Wr.bind p f _ _ = _
  rw [Wr.bind, hp buf off h]

/-- Leave two bytes free, run `p`, then fill them with what `g` makes of the two offsets. -/
def holed (p : Wr Unit) (g : Nat → Nat → Res Bytes) : Wr Unit := fun buf off =>
  match p buf (off + 2) with
  | .err e => .err e
  | .panic => .panic
  | .ok (_, buf', off') =>
    match g off off' with
    | .err e => .err e
    | .panic => .panic
    | .ok bs =>
      match pwrite (writeBytes bs) off buf' with
      | .err e => .err e
      | .panic => .panic
      | .ok (buf'', _) => .ok ((), buf'', off')

theorem WBlind.holed {p : Wr Unit} {g : Nat → Nat → Res Bytes} (hp : WBlind p) (hpast : PastErr p)
    (hg : ∀ i j bs, g i j = .ok bs → bs.length = 2) : WBlind (holed p g) := by
  intro m n
  by_cases hn : n < 2
  · refine .inl ⟨.badOffset, fun pre t h1 h2 => ?_⟩
    rw [Verif.holed, hpast _ _ (by rw [List.length_append]; omega)]
  · have split : ∀ t : Bytes, t.length = n → (t.take 2).length = 2 ∧ (t.drop 2).length = n - 2 := fun t h => by
      simp [h]; omega
    have key : ∀ pre t : Bytes, p (pre ++ t) (m + 2) = p ((pre ++ t.take 2) ++ t.drop 2) (m + 2) := by
      intro pre t
      rw [List.append_assoc, List.take_append_drop]
    have l1 : ∀ pre t : Bytes, pre.length = m → t.length = n → (pre ++ t.take 2).length = m + 2 :=
      fun pre t h1 h2 => by rw [List.length_append, (split t h2).1, h1]
    rcases hp (m + 2) (n - 2) with ⟨e, h⟩ | h | ⟨a, bs, hl, h⟩
    · exact .inl ⟨e, fun pre t h1 h2 => by rw [Verif.holed, key, h _ _ (l1 pre t h1 h2) (split t h2).2]⟩
    · exact .inr (.inl fun pre t h1 h2 => by rw [Verif.holed, key, h _ _ (l1 pre t h1 h2) (split t h2).2])
    · have run : ∀ pre t : Bytes, pre.length = m → t.length = n → Verif.holed p g (pre ++ t) m =
          match g m (m + 2 + bs.length) with
          | .err e => .err e
          | .panic => .panic
          | .ok cs =>
            match pwrite (writeBytes cs) m ((pre ++ t.take 2) ++ (bs ++ (t.drop 2).drop bs.length)) with
            | .err e => .err e
            | .panic => .panic
            | .ok (buf'', _) => .ok ((), buf'', m + 2 + bs.length) := by
        intro pre t h1 h2
        rw [Verif.holed, key, h _ _ (l1 pre t h1 h2) (split t h2).2]
      cases hgm : g m (m + 2 + bs.length) with
      | err e => exact .inl ⟨e, fun pre t h1 h2 => by rw [run pre t h1 h2, hgm]⟩
      | panic => exact .inr (.inl fun pre t h1 h2 => by rw [run pre t h1 h2, hgm])
      | ok cs =>
        have hcs := hg _ _ _ hgm
        refine .inr (.inr ⟨(), cs ++ bs, by rw [List.length_append]; omega, fun pre t h1 h2 => ?_⟩)
        rw [run pre t h1 h2, hgm]
        have hs := slack_le
        have hpw : pwrite (writeBytes cs) m ((pre ++ t.take 2) ++ (bs ++ (t.drop 2).drop bs.length)) =
            .ok (pre ++ ((cs ++ bs) ++ t.drop (cs ++ bs).length), 2) := by
          rw [pwrite, Wr.gwrite, badOff_eq, if_neg (by simp [h1, h2]; omega), List.append_assoc, ← h1,
            List.drop_left, List.take_left, writeBytes, if_pos (by simp [h2, hcs]; omega)]
          simp only [hcs]
          rw [List.drop_left' (split t h2).1, List.length_append, hcs, List.drop_drop, Nat.add_sub_cancel_left]
          simp only [List.append_assoc]
        simp only [hpw, List.length_append, hcs]
        rw [Nat.add_assoc]

/-- One outcome for each beginning of the buffer up to the offset and each length of the rest. -/
def WKnown {α : Type} (p : Wr α) : Prop := ∀ (pre : Bytes) (n : Nat),
  (∃ e, ∀ t : Bytes, t.length = n → p (pre ++ t) pre.length = .err e) ∨
  (∀ t : Bytes, t.length = n → p (pre ++ t) pre.length = .panic) ∨
  (∃ (a : α) (bs : Bytes), bs.length ≤ n ∧ ∀ t : Bytes, t.length = n →
    p (pre ++ t) pre.length = .ok (a, pre ++ (bs ++ t.drop bs.length), pre.length + bs.length))

omit [ScrollRule] in
theorem WBlind.known {α : Type} {p : Wr α} (h : WBlind p) : WKnown p := by
  intro pre n
  rcases h pre.length n with ⟨e, h⟩ | h | ⟨a, bs, hl, h⟩
  · exact .inl ⟨e, fun t ht => h pre t rfl ht⟩
  · exact .inr (.inl fun t ht => h pre t rfl ht)
  · exact .inr (.inr ⟨a, bs, hl, fun t ht => h pre t rfl ht⟩)

omit [ScrollRule] in
theorem WKnown.bind {α β : Type} {p : Wr α} {f : α → Wr β} (hp : WKnown p) (hf : ∀ a, WKnown (f a)) :
    WKnown (p >>= f) := by
  intro pre n
  rcases hp pre n with ⟨e, h⟩ | h | ⟨a, bs, hl, h⟩
  · exact .inl ⟨e, fun t ht => by show Wr.bind p f _ _ = _; rw [Wr.bind, h t ht]⟩
  · exact .inr (.inl fun t ht => by show Wr.bind p f _ _ = _; rw [Wr.bind, h t ht])
  · have key : ∀ t : Bytes, t.length = n →
        (p >>= f) (pre ++ t) pre.length = f a ((pre ++ bs) ++ t.drop bs.length) (pre ++ bs).length := by
      intro t ht
      show Wr.bind p f _ _ = _
      rw [Wr.bind, h t ht, List.append_assoc, List.length_append]
    have l2 : ∀ t : Bytes, t.length = n → (t.drop bs.length).length = n - bs.length := fun t h => by simp [h]
    rcases hf a (pre ++ bs) (n - bs.length) with ⟨e, g⟩ | g | ⟨b, cs, hl2, g⟩
    · exact .inl ⟨e, fun t ht => by rw [key t ht, g _ (l2 t ht)]⟩
    · exact .inr (.inl fun t ht => by rw [key t ht, g _ (l2 t ht)])
    · refine .inr (.inr ⟨b, bs ++ cs, by rw [List.length_append]; omega, fun t ht => ?_⟩)
      rw [key t ht, g _ (l2 t ht)]
      simp only [List.append_assoc, List.length_append, List.drop_drop, Nat.add_assoc]

omit [ScrollRule] in
theorem Blind.runKnown {p : Wr Unit} (h : WKnown p) : Blind (Wr.run p) := by
  intro n
  rcases h [] n with ⟨e, h⟩ | h | ⟨a, bs, hl, h⟩
  · exact .inl ⟨e, fun t ht => by have := h t ht; rw [List.nil_append] at this; exact by rw [Wr.run, ← List.length_nil, this]⟩
  · exact .inr (.inl fun t ht => by
      have := h t ht; rw [List.nil_append] at this; exact by rw [Wr.run, ← List.length_nil, this])
  · exact .inr (.inr ⟨bs, hl, fun t ht => by
      have := h t ht
      simp only [List.nil_append, List.length_nil, Nat.zero_add] at this
      rw [Wr.run, this]⟩)

theorem WKnown.fcs [Crc32] : WKnown attachFcs := by
  intro pre n
  have key : ∀ t : Bytes, t.length = n →
      attachFcs (pre ++ t) pre.length = Wr.gwrite (writeLE (Crc32.hash pre)) (pre ++ t) pre.length := by
    intro t _
    rw [attachFcs, if_pos (by simp), List.take_left]
  rcases (WBlind.gwrite (Blind.le (Crc32.hash pre))).known pre n with ⟨e, h⟩ | h | ⟨a, bs, hl, h⟩
  · exact .inl ⟨e, fun t ht => by rw [key t ht, h t ht]⟩
  · exact .inr (.inl fun t ht => by rw [key t ht, h t ht])
  · exact .inr (.inr ⟨a, bs, hl, fun t ht => by rw [key t ht, h t ht]⟩)

theorem WKnown.fcsIf [Crc32] (b : Bool) : WKnown (if b = true then attachFcs else pure ()) := by
  cases b
  · exact (WBlind.pure ()).known
  · exact WKnown.fcs

end Verif
