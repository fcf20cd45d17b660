import Verif.Lemmas.Blind
/-!
# Writers that only need room

`Fine safe w`: once `w` succeeds in some buffer it succeeds in every buffer that is at least as long, with the same
bytes; and if `safe` is set it never panics.  `WFine safe p` is the same for a `Wr`, from the current offset on;
`KFine` lets the outcome depend on the bytes in front of the offset.
-/
namespace Verif

/-- Success carries over to longer buffers; no panic if `safe`. -/
def Fine (safe : Bool) (w : Writer) : Prop :=
  (∀ (t out : Bytes) (k : Nat), w t = .ok (out, k) → ∃ bs : Bytes, bs.length ≤ t.length ∧
    ∀ t' : Bytes, t.length ≤ t'.length → w t' = .ok (bs ++ t'.drop bs.length, bs.length)) ∧
  (safe = true → ∀ t, w t ≠ .panic)

/-- The same from an offset on, whatever is in front of it. -/
def WFine {α : Type} (safe : Bool) (p : Wr α) : Prop :=
  (∀ (pre t : Bytes) (x : α × Bytes × Nat), p (pre ++ t) pre.length = .ok x → ∃ bs : Bytes, bs.length ≤ t.length ∧
    ∀ pre' t' : Bytes, pre'.length = pre.length → t.length ≤ t'.length →
      p (pre' ++ t') pre.length = .ok (x.1, pre' ++ (bs ++ t'.drop bs.length), pre.length + bs.length)) ∧
  (safe = true → ∀ pre t, p (pre ++ t) pre.length ≠ .panic)

/-- The same from an offset on, for the same bytes in front of it. -/
def KFine {α : Type} (safe : Bool) (p : Wr α) : Prop :=
  (∀ (pre t : Bytes) (x : α × Bytes × Nat), p (pre ++ t) pre.length = .ok x → ∃ bs : Bytes, bs.length ≤ t.length ∧
    ∀ t' : Bytes, t.length ≤ t'.length →
      p (pre ++ t') pre.length = .ok (x.1, pre ++ (bs ++ t'.drop bs.length), pre.length + bs.length)) ∧
  (safe = true → ∀ pre t, p (pre ++ t) pre.length ≠ .panic)

theorem WFine.known {α : Type} {safe : Bool} {p : Wr α} (h : WFine safe p) : KFine safe p :=
  ⟨fun pre t x hx => by
    obtain ⟨bs, hl, h⟩ := h.1 pre t x hx
    exact ⟨bs, hl, fun t' ht => h pre t' rfl ht⟩, h.2⟩

theorem Fine.bytes (safe : Bool) (bs : Bytes) : Fine safe (writeBytes bs) := by
  refine ⟨fun t out k h => ?_, fun _ t => ?_⟩
  · unfold writeBytes at h
    split at h
    · rename_i hl
      exact ⟨bs, hl, fun t' ht => by rw [writeBytes, if_pos (by omega)]⟩
    · cases h
  · unfold writeBytes
    split <;> intro h <;> cases h

theorem Fine.le {w : Nat} (safe : Bool) (x : BitVec w) : Fine safe (writeLE x) := Fine.bytes safe _
theorem Fine.be {w : Nat} (safe : Bool) (x : BitVec w) : Fine safe (writeBE x) := Fine.bytes safe _
theorem Fine.u8 (safe : Bool) (x : Byte) : Fine safe (writeU8 x) := Fine.bytes safe _

theorem Fine.empty (safe : Bool) : Fine safe writeEmpty :=
  ⟨fun _ _ _ _ => ⟨[], Nat.zero_le _, fun t' _ => by simp [writeEmpty]⟩, fun _ _ h => by cases h⟩

theorem Fine.runKnown {safe : Bool} {p : Wr Unit} (h : KFine safe p) : Fine safe (Wr.run p) := by
  refine ⟨fun t out k hk => ?_, fun hs t hp => ?_⟩
  · cases hx : p t 0 with
    | err e => rw [Wr.run, hx] at hk; cases hk
    | panic => rw [Wr.run, hx] at hk; cases hk
    | ok x =>
      obtain ⟨bs, hl, g⟩ := h.1 [] t x hx
      refine ⟨bs, hl, fun t' ht => ?_⟩
      have := g t' ht
      simp only [List.nil_append, List.length_nil, Nat.zero_add] at this
      rw [Wr.run, this]
  · have := h.2 hs [] t
    simp only [List.nil_append, List.length_nil] at this
    rw [Wr.run] at hp
    cases hx : p t 0 with
    | err e => rw [hx] at hp; cases hp
    | panic => exact this hx
    | ok x => rw [hx] at hp; cases hp

theorem Fine.run {safe : Bool} {p : Wr Unit} (h : WFine safe p) : Fine safe (Wr.run p) := Fine.runKnown h.known

namespace WFine

theorem pure {α : Type} (safe : Bool) (a : α) : WFine safe (Pure.pure a : Wr α) :=
  ⟨fun pre t x hx => ⟨[], Nat.zero_le _, fun pre' t' h1 _ => by
    cases hx
    simp [Pure.pure, Wr.pure]⟩, fun _ _ _ h => by cases h⟩

theorem lift {α : Type} {safe : Bool} {x : Res α} (h : safe = true → x ≠ .panic) : WFine safe (Wr.lift x) := by
  cases x with
  | ok a =>
    exact ⟨fun pre t x hx => ⟨[], Nat.zero_le _, fun pre' t' h1 _ => by
      cases hx
      simp [Wr.lift, Res.bind]⟩, fun _ _ _ h => by cases h⟩
  | err e => exact ⟨fun pre t x hx => (by cases hx), fun _ _ _ h => by cases h⟩
  | panic => exact ⟨fun pre t x hx => (by cases hx), fun hs => absurd rfl (h hs)⟩

theorem bind {α β : Type} {safe : Bool} {p : Wr α} {f : α → Wr β} (hp : WFine safe p) (hf : ∀ a, WFine safe (f a)) :
    WFine safe (p >>= f) := by
  refine ⟨fun pre t x hx => ?_, fun hs pre t hx => ?_⟩
  · have hx' : Wr.bind p f (pre ++ t) pre.length = _ := hx
    rw [Wr.bind] at hx'
    cases hy : p (pre ++ t) pre.length with
    | err e => rw [hy] at hx'; cases hx'
    | panic => rw [hy] at hx'; cases hx'
    | ok y =>
    obtain ⟨bs, hl, g⟩ := hp.1 pre t y hy
    have h0 := g pre t rfl (Nat.le_refl _)
    rw [h0] at hx'
    simp only [← List.append_assoc, ← List.length_append] at hx'
    obtain ⟨cs, hl2, g2⟩ := (hf y.1).1 (pre ++ bs) (t.drop bs.length) x hx'
    refine ⟨bs ++ cs, by rw [List.length_drop] at hl2; rw [List.length_append]; omega, fun pre' t' h1 h2 => ?_⟩
    show Wr.bind p f _ _ = _
    rw [Wr.bind, g pre' t' h1 h2]
    have := g2 (pre' ++ bs) (t'.drop bs.length) (by simp [h1]) (by simp; omega)
    simp only [List.append_assoc, List.length_append, List.drop_drop, Nat.add_assoc] at this ⊢
    exact this
  · have hx' : Wr.bind p f (pre ++ t) pre.length = _ := hx
    rw [Wr.bind] at hx'
    cases hy : p (pre ++ t) pre.length with
    | err e => rw [hy] at hx'; cases hx'
    | panic => exact hp.2 hs pre t hy
    | ok y =>
    obtain ⟨bs, hl, g⟩ := hp.1 pre t y hy
    have h0 := g pre t rfl (Nat.le_refl _)
    rw [h0] at hx'
    simp only [← List.append_assoc, ← List.length_append] at hx'
    exact (hf y.1).2 hs _ _ hx'

theorem seq {β : Type} {safe : Bool} {p : Wr Unit} {q : Wr β} (hp : WFine safe p) (hq : WFine safe q) :
    WFine safe (p >>= fun _ => q) := bind hp fun _ => hq

theorem ite {α : Type} {safe : Bool} {c : Prop} [Decidable c] {p q : Wr α} (hp : WFine safe p) (hq : WFine safe q) :
    WFine safe (if c then p else q) := by
  split
  · exact hp
  · exact hq

theorem zeros (k : Nat) : WFine false (fillZeros k) := by
  refine ⟨fun pre t x hx => ?_, fun h => by cases h⟩
  unfold fillZeros at hx
  split at hx
  · rename_i hl
    rw [List.length_append] at hl
    cases hx
    refine ⟨List.replicate k 0, by simp; omega, fun pre' t' h1 h2 => ?_⟩
    rw [fillZeros, if_pos (by rw [List.length_append]; omega), ← h1, List.take_left, ← List.drop_drop, List.drop_left]
    simp
  · cases hx

theorem nothing (safe : Bool) : WFine safe (fillZeros 0) := by
  refine ⟨(zeros 0).1, fun _ pre t => ?_⟩
  rw [fillZeros, if_pos (by simp)]
  intro h
  cases h

variable [ScrollRule]

theorem gwrite {safe : Bool} {w : Writer} (h : Fine safe w) : WFine safe (Wr.gwrite w) := by
  have key : ∀ pre t : Bytes, Wr.gwrite w (pre ++ t) pre.length =
      if badOff pre.length (pre.length + t.length) = true then .err .badOffset else
      match w t with
      | .ok (b, k) => .ok ((), pre ++ b, pre.length + k)
      | .err e => .err e
      | .panic => .panic := by
    intro pre t
    rw [Wr.gwrite, List.length_append, List.drop_left, List.take_left]
    split <;> rfl
  refine ⟨fun pre t x hx => ?_, fun hs pre t hx => ?_⟩
  · rw [key, badOff_eq] at hx
    split at hx
    · cases hx
    · rename_i hb
      cases hw : w t with
      | err e => rw [hw] at hx; cases hx
      | panic => rw [hw] at hx; cases hx
      | ok y =>
        rw [hw] at hx
        cases hx
        obtain ⟨bs, hl, g⟩ := h.1 t y.1 y.2 hw
        refine ⟨bs, hl, fun pre' t' h1 h2 => ?_⟩
        rw [← h1, key, badOff_eq, if_neg (by simp at hb ⊢; omega), g t' h2]
  · rw [key] at hx
    split at hx
    · cases hx
    · have := h.2 hs t
      cases hw : w t with
      | err e => rw [hw] at hx; cases hx
      | panic => exact this hw
      | ok y => rw [hw] at hx; cases hx

theorem opt {α : Type} {safe : Bool} {o : Option α} {w : α → Writer} (h : ∀ a, o = some a → Fine safe (w a)) :
    WFine safe (Wr.opt o w) := by
  cases o with
  | none => exact pure safe ()
  | some a => exact gwrite (h a rfl)

theorem holed {safe : Bool} {p : Wr Unit} {g : Nat → Nat → Res Bytes} (hp : WFine safe p) (hpast : PastErr p)
    (hg : ∀ i j bs, g i j = .ok bs → bs.length = 2) (hgp : safe = true → ∀ i j, i + 2 ≤ j → g i j ≠ .panic) :
    WFine safe (holed p g) := by
  have hsl := slack_le
  have past : ∀ pre t : Bytes, t.length < 2 → Verif.holed p g (pre ++ t) pre.length = .err .badOffset := by
    intro pre t ht
    rw [Verif.holed, hpast _ _ (by rw [List.length_append]; omega)]
  have key : ∀ pre t : Bytes, p (pre ++ t) (pre.length + 2) = p ((pre ++ t.take 2) ++ t.drop 2) (pre.length + 2) := by
    intro pre t
    rw [List.append_assoc, List.take_append_drop]
  have len : ∀ pre t : Bytes, 2 ≤ t.length → (pre ++ t.take 2).length = pre.length + 2 := by
    intro pre t ht
    rw [List.length_append, List.length_take]; omega
  have put : ∀ (pre t bs cs : Bytes), cs.length = 2 → 2 + bs.length ≤ t.length →
      pwrite (writeBytes cs) pre.length ((pre ++ t.take 2) ++ (bs ++ (t.drop 2).drop bs.length)) =
        .ok (pre ++ ((cs ++ bs) ++ t.drop (cs ++ bs).length), 2) := by
    intro pre t bs cs hcs ht
    have h2 : (t.take 2).length = 2 := by rw [List.length_take]; omega
    rw [pwrite, Wr.gwrite, badOff_eq, if_neg (by simp; omega), List.append_assoc,
      List.drop_left, List.take_left, writeBytes, if_pos (by simp [hcs]; omega)]
    simp only [hcs]
    rw [List.drop_left' h2, List.length_append, hcs, List.drop_drop, Nat.add_sub_cancel_left]
    simp only [List.append_assoc]
  refine ⟨fun pre t x hx => ?_, fun hs pre t hx => ?_⟩
  · by_cases ht : t.length < 2
    · rw [past pre t ht] at hx; cases hx
    rw [Verif.holed, key] at hx
    have l1 := len pre t (by omega)
    cases hy : p ((pre ++ t.take 2) ++ t.drop 2) (pre.length + 2) with
    | err e => rw [hy] at hx; cases hx
    | panic => rw [hy] at hx; cases hx
    | ok y =>
    obtain ⟨bs, hl, gg⟩ := hp.1 (pre ++ t.take 2) (t.drop 2) y (by rw [l1]; exact hy)
    rw [List.length_drop] at hl
    rw [← l1, gg (pre ++ t.take 2) (t.drop 2) rfl (Nat.le_refl _)] at hx
    simp only [l1] at hx
    cases hc : g pre.length (pre.length + 2 + bs.length) with
    | err e => rw [hc] at hx; cases hx
    | panic => rw [hc] at hx; cases hx
    | ok cs =>
    have hcs := hg _ _ _ hc
    refine ⟨cs ++ bs, by rw [List.length_append]; omega, fun pre' t' h1 h2 => ?_⟩
    have hput := put pre' t' bs cs hcs (by omega)
    have hgg := gg (pre' ++ t'.take 2) (t'.drop 2) (by rw [l1, len pre' t' (by omega)]; omega) (by simp; omega)
    rw [l1] at hgg
    rw [Verif.holed, ← h1, key, h1, hgg]
    simp only [hc]
    rw [← h1, hput]
    simp only [List.length_append, hcs, Nat.add_assoc]
  · by_cases ht : t.length < 2
    · rw [past pre t ht] at hx; cases hx
    rw [Verif.holed, key] at hx
    have l1 := len pre t (by omega)
    cases hy : p ((pre ++ t.take 2) ++ t.drop 2) (pre.length + 2) with
    | err e => rw [hy] at hx; cases hx
    | panic => exact hp.2 hs (pre ++ t.take 2) (t.drop 2) (by rw [l1]; exact hy)
    | ok y =>
    obtain ⟨bs, hl, gg⟩ := hp.1 (pre ++ t.take 2) (t.drop 2) y (by rw [l1]; exact hy)
    rw [List.length_drop] at hl
    rw [← l1, gg (pre ++ t.take 2) (t.drop 2) rfl (Nat.le_refl _)] at hx
    simp only [l1] at hx
    cases hc : g pre.length (pre.length + 2 + bs.length) with
    | err e => rw [hc] at hx; cases hx
    | panic => exact hgp hs _ _ (by omega) hc
    | ok cs =>
    rw [hc] at hx
    simp only [put pre t bs cs (hg _ _ _ hc) (by omega)] at hx
    cases hx

end WFine

theorem KFine.bind {α β : Type} {safe : Bool} {p : Wr α} {f : α → Wr β} (hp : KFine safe p)
    (hf : ∀ a, KFine safe (f a)) : KFine safe (p >>= f) := by
  refine ⟨fun pre t x hx => ?_, fun hs pre t hx => ?_⟩
  · have hx' : Wr.bind p f (pre ++ t) pre.length = _ := hx
    rw [Wr.bind] at hx'
    cases hy : p (pre ++ t) pre.length with
    | err e => rw [hy] at hx'; cases hx'
    | panic => rw [hy] at hx'; cases hx'
    | ok y =>
    obtain ⟨bs, hl, g⟩ := hp.1 pre t y hy
    have h0 := g t (Nat.le_refl _)
    rw [h0] at hx'
    simp only [← List.append_assoc, ← List.length_append] at hx'
    obtain ⟨cs, hl2, g2⟩ := (hf y.1).1 (pre ++ bs) (t.drop bs.length) x hx'
    refine ⟨bs ++ cs, by rw [List.length_drop] at hl2; rw [List.length_append]; omega, fun t' h2 => ?_⟩
    show Wr.bind p f _ _ = _
    rw [Wr.bind, g t' h2]
    have := g2 (t'.drop bs.length) (by simp; omega)
    simp only [List.append_assoc, List.length_append, List.drop_drop, Nat.add_assoc] at this ⊢
    exact this
  · have hx' : Wr.bind p f (pre ++ t) pre.length = _ := hx
    rw [Wr.bind] at hx'
    cases hy : p (pre ++ t) pre.length with
    | err e => rw [hy] at hx'; cases hx'
    | panic => exact hp.2 hs pre t hy
    | ok y =>
    obtain ⟨bs, hl, g⟩ := hp.1 pre t y hy
    have h0 := g t (Nat.le_refl _)
    rw [h0] at hx'
    simp only [← List.append_assoc, ← List.length_append] at hx'
    exact (hf y.1).2 hs _ _ hx'

variable [ScrollRule]

theorem Fine.pwrite0 {safe : Bool} {w : Writer} (h : Fine safe w) : Fine safe (pwrite w 0) := by
  have he : pwrite w 0 = Wr.run (Wr.gwrite w) := by
    funext buf
    rw [pwrite, Wr.run]
    cases Wr.gwrite w buf 0 <;> rfl
  rw [he]
  exact Fine.run (WFine.gwrite h)

theorem KFine.fcs [Crc32] (safe : Bool) : KFine safe attachFcs := by
  have key : ∀ pre t : Bytes, attachFcs (pre ++ t) pre.length =
      Wr.gwrite (writeLE (Crc32.hash pre)) (pre ++ t) pre.length := by
    intro pre t
    rw [attachFcs, if_pos (by simp), List.take_left]
  have h := fun pre => (WFine.gwrite (Fine.le safe (Crc32.hash pre))).known
  refine ⟨fun pre t x hx => ?_, fun hs pre t hx => ?_⟩
  · rw [key] at hx
    obtain ⟨bs, hl, g⟩ := (h pre).1 pre t x hx
    exact ⟨bs, hl, fun t' ht => by rw [key, g t' ht]⟩
  · rw [key] at hx
    exact (h pre).2 hs pre t hx

theorem KFine.fcsIf [Crc32] (safe b : Bool) : KFine safe (if b = true then attachFcs else pure ()) := by
  cases b
  · exact (WFine.pure safe ()).known
  · exact KFine.fcs safe

end Verif
