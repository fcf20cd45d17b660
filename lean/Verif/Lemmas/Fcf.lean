import Verif.Lemmas.Frames
import Verif.Props.C01
import Verif.Props.C05
/-!
# Frame control field and frame check sequence in whole frames
-/
namespace Verif

namespace Spec

/-- The frame control field of a frame with these flags as two bytes: version 0, type and subtype
number in the first, the flags in the second. -/
def frameStart (t : FrameType) (flags : FCFFlags) : Bytes :=
  [BitVec.ofNat 8 (4 * (typeNumbers t).1 + 16 * (typeNumbers t).2), flags.bits]

/-- A frame with or without its check sequence: the checksum of everything before it. -/
def withFcs [Crc32] (fcs : Bool) (frame : Bytes) : Bytes :=
  if fcs then frame ++ toLE (Crc32.hash frame) else frame

end Spec

open Spec

@[simp] theorem frameStart_length (t : FrameType) (f : FCFFlags) : (frameStart t f).length = 2 := rfl

theorem fcf_bits (f : FrameControlField) :
    f.bits.toNat = f.version.toNat + 4 * f.frame_type.toNat + 256 * f.flags.toNat := by
  have := f.bits.isLt
  simp [FrameControlField.version, FrameControlField.frame_type, FrameControlField.flags, getField,
    Nat.shiftRight_eq_div_pow]
  omega

/-- The frame control field written for a type and flags. -/
theorem fcf_written (t : FrameType) (h : ValidFrameType t) (g : FCFFlags) :
    ∃ f, FrameControlField.withFrameType ⟨0⟩ t = .ok f ∧
      toLE (f.withFcfFlags g).bits = frameStart t g ∧ (f.withFcfFlags g).frameType = t ∧
      (f.withFcfFlags g).fcfFlags = g := by
  obtain ⟨f, hf, ht, hv, hg⟩ := c01_frame_control_field ⟨0⟩ t h
  have e1 : (f.withFcfFlags g).frame_type = f.frame_type :=
    getField_setField_other _ _ _ _ _ _ (by decide) (by decide)
  have e2 : (f.withFcfFlags g).version = f.version :=
    getField_setField_other _ _ _ _ _ _ (by decide) (by decide)
  have e3 : (f.withFcfFlags g).flags = g.bits := getField_setField_same _ _ _ _ (by decide)
  refine ⟨f, hf, ?_, ?_, ?_⟩
  · have hb := fcf_bits (f.withFcfFlags g)
    have hn := c01_decode (f.frame_type.zeroExtend 8)
    rw [show FrameType.fromBits (f.frame_type.zeroExtend 8) = t from ht] at hn
    have h6 : (f.frame_type.zeroExtend 8).toNat = f.frame_type.toNat := by
      have := f.frame_type.isLt
      simp; omega
    have hv0 : f.version.toNat = 0 := by rw [hv]; rfl
    rw [h6] at hn
    rw [e1, e2, e3, hv0] at hb
    have := f.frame_type.isLt
    have := g.bits.isLt
    simp only [toLE, leBytes, frameStart, hn]
    congr 1
    · apply BitVec.eq_of_toNat_eq
      simp only [BitVec.toNat_ofNat]
      omega
    · congr 1
      apply BitVec.eq_of_toNat_eq
      simp only [BitVec.toNat_ofNat]
      omega
  · rw [FrameControlField.frameType, e1]; exact ht
  · rw [FrameControlField.fcfFlags, e3]

/-- Any two bytes as a frame control field. -/
theorem fcf_of_bytes (v : BitVec 16) :
    ∃ b0 : Byte, toLE v = [b0, (FrameControlField.mk v).fcfFlags.bits] ∧
      typeNumbers (FrameControlField.mk v).frameType = (b0.toNat / 4 % 4, b0.toNat / 16) := by
  refine ⟨BitVec.ofNat 8 v.toNat, ?_, ?_⟩
  · simp only [toLE, leBytes]
    congr 2
    apply BitVec.eq_of_toNat_eq
    simp [FrameControlField.fcfFlags, FrameControlField.flags, getField, Nat.shiftRight_eq_div_pow]
  · rw [c01_frame_control_decode]
    simp only [BitVec.toNat_ofNat]
    apply Prod.ext <;> simp only <;> omega

theorem Wr.run_bind {p : Wr Unit} {f : Unit → Wr Unit} (buf : Bytes) :
    Wr.run (p >>= f) buf = match p buf 0 with
      | .ok (a, b, o) => (match f a b o with
        | .ok (_, b', o') => .ok (b', o')
        | .err e => .err e
        | .panic => .panic)
      | .err e => .err e
      | .panic => .panic := by
  show Wr.run (Wr.bind p f) buf = _
  simp only [Wr.run, Wr.bind]
  cases p buf 0 <;> rfl

theorem Wr.bind_assoc {α β γ : Type} {p : Wr α} {f : α → Wr β} {g : β → Wr γ} :
    (p >>= f) >>= g = p >>= fun a => f a >>= g := by
  funext buf off
  show Wr.bind (Wr.bind p f) g buf off = Wr.bind p (fun a => Wr.bind (f a) g) buf off
  simp only [Wr.bind]
  cases p buf off <;> rfl

variable [ScrollRule] [Crc32]

/-- Writing something and then its check sequence. -/
theorem Emits.fcs {p : Wr Unit} {bs : Bytes} {n : Nat} (h : WEmits p () bs n) :
    Emits (Wr.run (p >>= fun _ => attachFcs)) (bs ++ toLE (Crc32.hash bs)) (max n (bs.length + 4)) where
  le := by have := h.le; simp; omega
  ok buf hl := by
    have h1 := h.ok [] buf (by omega)
    have h2 := c05_attach bs (buf.drop bs.length) (by simp; omega)
    simp only [List.nil_append, List.length_nil, Nat.zero_add] at h1
    rw [Wr.run_bind]
    simp only [h1, h2]
    simp [Nat.add_comm]
  err buf hl := by
    by_cases hn : n ≤ buf.length
    · have h1 := h.ok [] buf hn
      simp only [List.nil_append, List.length_nil, Nat.zero_add] at h1
      obtain ⟨e, he⟩ := c05_attach_short bs (buf.drop bs.length) (by simp; omega)
      refine ⟨e, ?_⟩
      rw [Wr.run_bind]
      simp only [h1, he]
    · obtain ⟨e, he⟩ := h.err [] buf (by omega)
      refine ⟨e, ?_⟩
      rw [Wr.run_bind]
      simp only [List.nil_append, List.length_nil] at he
      simp only [he]

/-- The same with the flag. -/
theorem Emits.withFcs {p : Wr Unit} {bs : Bytes} {n : Nat} (h : WEmits p () bs n) (fcs : Bool) :
    Emits (Wr.run (p >>= fun _ => if fcs then attachFcs else pure ())) (Spec.withFcs fcs bs)
      (max n (bs.length + if fcs then 4 else 0)) := by
  cases fcs
  · apply Emits.cast
    · apply WEmits.run
      exact WEmits.bind h WEmits.pure
    · simp [Spec.withFcs]
    · have := h.le; simp; try omega
  · exact Emits.fcs h

end Verif
