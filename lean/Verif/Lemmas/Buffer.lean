import Verif.Lemmas.WrAt
import Verif.Model.Crypto.EapolSerde
/-!
# Reading and replacing pieces in the middle of a buffer
-/
namespace Verif

theorem slice_mid (x y z : Bytes) {p n : Nat} (hp : p = x.length) (hn : n = y.length) :
    slice (x ++ (y ++ z)) p n = .ok y := by
  subst hp hn
  rw [slice, if_pos (by simp), List.drop_left, List.take_left]

theorem copyInto_mid (x y y' z : Bytes) {p : Nat} (hp : p = x.length) (hl : y'.length = y.length) :
    copyInto (x ++ (y ++ z)) p y' = .ok (x ++ (y' ++ z)) := by
  subst hp
  rw [copyInto, if_pos (by simp [hl]), List.take_left, ← List.drop_drop, List.drop_left, hl, List.drop_left,
    List.append_assoc]

variable [ScrollRule]

theorem pwriteBE_mid (x y z : Bytes) (v : BitVec 16) {p : Nat} (hp : p = x.length) (hl : y.length = 2) :
    pwrite (writeBE v) p (x ++ (y ++ z)) = .ok (x ++ (toBE v ++ z), 2) := by
  subst hp
  have := pwrite_middle x y (toBE v) z (by simp [hl]) (by simp) _ ((Emits.writeBE v).cast rfl (by simp))
  simpa using this

theorem pwriteIgnore_mid (x y z : Bytes) (v : BitVec 16) {p : Nat} (hp : p = x.length) (hl : y.length = 2) :
    pwriteIgnore v p (x ++ (y ++ z)) = x ++ (toBE v ++ z) := by
  rw [pwriteIgnore, pwriteBE_mid x y z v hp hl]

theorem pwriteBytes_mid (x y y' z : Bytes) {p : Nat} (hp : p = x.length) (hl : y'.length = y.length)
    (hs : slack ≤ y.length + z.length) :
    pwrite (writeBytes y') p (x ++ (y ++ z)) = .ok (x ++ (y' ++ z), y.length) := by
  subst hp
  have := (WEmits.gwrite (Emits.bytes y')).ok x (y ++ z) (by simp; omega)
  rw [hl, List.drop_left] at this
  simp only [pwrite, this]
  simp

theorem preadBE_mid (x z : Bytes) (v : BitVec 16) {p : Nat} (hp : p = x.length) :
    pread (readBE 16) p (x ++ (toBE v ++ z)) = .ok v := by
  subst hp
  have := RdAt.gread (readBE_append (w := 16) rfl v z) (by have := slack_le; simp; omega) x
  simp only [pread, this, Res.map]

end Verif
