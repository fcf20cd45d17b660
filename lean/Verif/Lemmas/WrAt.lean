import Verif.Basic.Tactics
import Verif.Model.Crypto.Eapol
/-!
# Writers that skip bytes and fill them in later

`WrAt p pre buf a bs`: with the buffer `pre ++ buf` and the offset at the end of `pre`, `p` returns `a`,
replaces the beginning of `buf` by `bs` and advances past it.  Unlike `WEmits` this is about one buffer, so
that `bs` may contain bytes of the buffer that were skipped.
-/
namespace Verif

def WrAt {α : Type} (p : Wr α) (pre buf : Bytes) (a : α) (bs : Bytes) : Prop :=
  p (pre ++ buf) pre.length = .ok (a, pre ++ (bs ++ buf.drop bs.length), pre.length + bs.length)

/-- `p` errs there. -/
def WrErr {α : Type} (p : Wr α) (buf : Bytes) (off : Nat) : Prop := ∃ e, p buf off = .err e

namespace WrAt

theorem ofEmits {α : Type} {p : Wr α} {a : α} {bs : Bytes} {n : Nat} (h : WEmits p a bs n) (pre buf : Bytes)
    (hn : n ≤ buf.length) : WrAt p pre buf a bs := h.ok pre buf hn

theorem bind {α β : Type} {p : Wr α} {f : α → Wr β} {pre buf b1 b2 : Bytes} {a : α} {b : β}
    (h1 : WrAt p pre buf a b1) (h2 : WrAt (f a) (pre ++ b1) (buf.drop b1.length) b b2) :
    WrAt (p >>= f) pre buf b (b1 ++ b2) := by
  show Wr.bind p f _ _ = _
  unfold WrAt at h1 h2
  simp only [List.append_assoc, List.length_append] at h2
  simp only [Wr.bind, h1, h2, List.drop_drop, List.append_assoc, List.length_append, Nat.add_assoc]

theorem skip {pre buf : Bytes} {n : Nat} (h : n ≤ buf.length) :
    WrAt (Wr.skip n) pre buf () (buf.take n) := by
  unfold WrAt Wr.skip
  rw [List.length_take, Nat.min_eq_left h, List.take_append_drop]

theorem offset {pre buf : Bytes} : WrAt Wr.offset pre buf pre.length [] := by
  unfold WrAt Wr.offset
  simp

theorem lift {α : Type} {x : Res α} {a : α} (h : x = .ok a) {pre buf : Bytes} :
    WrAt (Wr.lift x) pre buf a [] := by
  subst h
  simp [WrAt, Wr.lift, Res.bind]

end WrAt

/-- A step whose result is known. -/
theorem Wr.bind_ok {α β : Type} {p : Wr α} {f : α → Wr β} {buf buf' : Bytes} {off off' : Nat} {a : α}
    (h : p buf off = .ok (a, buf', off')) : (p >>= f) buf off = f a buf' off' := by
  show Wr.bind p f _ _ = _
  simp only [Wr.bind, h]

theorem Wr.lift_ok {α : Type} {x : Res α} {a : α} (h : x = .ok a) (buf : Bytes) (off : Nat) :
    Wr.lift x buf off = .ok (a, buf, off) := by
  subst h
  rfl

namespace WrErr

theorem bind_left {α β : Type} {p : Wr α} {f : α → Wr β} {buf : Bytes} {off : Nat} (h : WrErr p buf off) :
    WrErr (p >>= f) buf off := by
  obtain ⟨e, he⟩ := h
  exact ⟨e, by show Wr.bind p f _ _ = _; simp only [Wr.bind, he]⟩

theorem bind_right {α β : Type} {p : Wr α} {f : α → Wr β} {buf buf' : Bytes} {off off' : Nat} {a : α}
    (h1 : p buf off = .ok (a, buf', off')) (h2 : WrErr (f a) buf' off') : WrErr (p >>= f) buf off := by
  obtain ⟨e, he⟩ := h2
  exact ⟨e, by show Wr.bind p f _ _ = _; simp only [Wr.bind, h1, he]⟩

/-- Writing past the end. -/
theorem gwrite_past [ScrollRule] {w : Writer} {buf : Bytes} {off : Nat} (h : buf.length < off) :
    WrErr (Wr.gwrite w) buf off := by
  refine ⟨.badOffset, ?_⟩
  simp only [Wr.gwrite, badOff_eq]
  rw [if_pos (by simp; omega)]

theorem ofEmits {α : Type} {p : Wr α} {a : α} {bs : Bytes} {n : Nat} (h : WEmits p a bs n) (pre buf : Bytes)
    (hn : buf.length < n) : WrErr p (pre ++ buf) pre.length := h.err pre buf hn

end WrErr

/-- Replacing bytes in the middle of the buffer. -/
theorem pwrite_middle [ScrollRule] (x old new y : Bytes) (h : old.length = new.length) (hp : 0 < new.length)
    (w : Writer) (hw : Emits w new new.length) :
    pwrite w x.length (x ++ (old ++ y)) = .ok (x ++ (new ++ y), new.length) := by
  have := (WEmits.gwrite_pos hw hp).ok x (old ++ y) (by simp; omega)
  rw [← h, List.drop_left] at this
  simp only [pwrite, this]
  simp [h]

theorem Wr.patch_middle [ScrollRule] (x old new y : Bytes) (off : Nat) (h : old.length = new.length)
    (hp : 0 < new.length) (w : Writer) (hw : Emits w new new.length) :
    Wr.patch w x.length (x ++ (old ++ y)) off = .ok ((), x ++ (new ++ y), off) := by
  simp only [Wr.patch, pwrite_middle x old new y h hp w hw]

end Verif
