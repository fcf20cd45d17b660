import Verif.Model.Elements.Ht
import Verif.Basic
/-!
# Lemmas about the HT elements
-/
namespace Verif

variable [ScrollRule]

omit [ScrollRule] in
theorem toLE_zeroExtend_take (x : BitVec 32) :
    (toLE (x.zeroExtend 64)).take 6 = toLE x ++ [0, 0] := by
  have hx : x.toNat < 4294967296 := x.isLt
  simp only [toLE, BitVec.truncate_eq_setWidth, BitVec.toNat_setWidth, Nat.reducePow]
  rw [Nat.mod_eq_of_lt (by omega)]
  simp only [Nat.reduceDiv, leBytes, List.take_succ_cons, List.take_zero, List.cons_append,
    List.nil_append]
  rw [show x.toNat / 256 / 256 / 256 / 256 = 0 by omega]
  rfl

/-- The wire form of an MCS set. -/
def encMCSSet (s : SupportedMCSSet) : Bytes :=
  s.supported_rx_mcs_set.val ++ (toLE s.supported_rx_mcs_set_flags.bits ++ [0, 0])

omit [ScrollRule] in
@[simp] theorem encMCSSet_length (s : SupportedMCSSet) : (encMCSSet s).length = 16 := by
  simp [encMCSSet]

theorem writeSupportedMCSSet_emits (s : SupportedMCSSet) :
    Emits (writeSupportedMCSSet s) (encMCSSet s) 16 := by
  unfold writeSupportedMCSSet
  rw [toLE_zeroExtend_take]
  apply Emits.cast
  · apply WEmits.run
    apply WEmits.arr (hp := by decide)
    exact WEmits.gwrite_pos (Emits.bytes _) (by simp)
  · rfl
  · simp

theorem readSupportedMCSSet_arr (a : Arr 10) (f : Arr 4) (rest : Bytes) :
    readSupportedMCSSet (a.val ++ (f.val ++ rest)) = .ok (⟨a, ⟨fromLE 32 f.val⟩⟩, 16) := by
  apply RdAt.run
  apply RdAt.cast
  · apply RdAt.arr (hp := by decide)
    apply RdAt.arr (hp := by decide)
    exact RdAt.advance_pure
  · rfl

theorem readSupportedMCSSet_adv (inp : Bytes) :
    (∃ e, readSupportedMCSSet inp = .err e) ∨ ∃ a, readSupportedMCSSet inp = .ok (a, 16) :=
  Rd.Adv.run (k := 16) (Rd.Adv.bind (Rd.Adv.gread (readArr_fixed 10).adv) fun _ =>
    Rd.Adv.bind (k := 4) (m := 2) (Rd.Adv.gread (readArr_fixed 4).adv) fun _ =>
      Rd.Adv.bind (k := 2) (m := 0) Rd.Adv.advance fun _ => Rd.Adv.pure) inp

theorem readSupportedMCSSet_short (inp : Bytes) (h : inp.length < 14) :
    ∃ e, readSupportedMCSSet inp = .err e :=
  Rd.Needs.run (n := 14) (Rd.Needs.bind (k := 10) (n := 4) (Rd.Adv.gread (readArr_fixed 10).adv)
    fun _ => Rd.Needs.left (Rd.Needs.gread (readArr_fixed 4))) inp h

omit [ScrollRule] in
theorem fromLE_arr4 (x : BitVec 32) (f : Arr 4) (h : f.val = toLE x) : fromLE 32 f.val = x := by
  rw [h, fromLE_toLE rfl]

theorem readSupportedMCSSet_enc (s : SupportedMCSSet) (rest : Bytes) :
    readSupportedMCSSet (encMCSSet s ++ rest) = .ok (s, 16) := by
  have := readSupportedMCSSet_arr s.supported_rx_mcs_set
    ⟨toLE s.supported_rx_mcs_set_flags.bits, by simp⟩ ([0, 0] ++ rest)
  simp only [fromLE_toLE (show 32 % 8 = 0 from rfl)] at this
  simpa [encMCSSet, List.append_assoc] using this

end Verif
