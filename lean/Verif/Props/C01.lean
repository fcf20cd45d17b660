import Verif.Props.C02
import Verif.Model.Common
/-!
# C01: frame type bits are lossless and decode by the type/subtype table
-/
namespace Verif

namespace Spec

/-- A frame type value that has a wire form: its subtype has a number below 16 and, if it is an
`Unknown` subtype, that number is not the number of a named one. -/
def ValidFrameType : FrameType → Prop
  | .Management s => s.intoBits.toNat < 16 ∧ s.Canonical
  | .Control s => s.intoBits.toNat < 16 ∧ s.Canonical
  | .Data s => s.intoBits.toNat < 16 ∧ s.Canonical
  | .Unknown v => v.toNat < 16

/-- The type/subtype numbers of a frame type: two type bits, four subtype bits. -/
def typeNumbers : FrameType → Nat × Nat
  | .Management s => (0, s.intoBits.toNat)
  | .Control s => (1, s.intoBits.toNat)
  | .Data s => (2, s.intoBits.toNat)
  | .Unknown v => (3, v.toNat)

end Spec

private theorem and3 (v : BitVec 8) : (v &&& 0b11).toNat = v.toNat % 4 := by
  rw [BitVec.toNat_and]; exact Nat.and_two_pow_sub_one_eq_mod _ 2

private theorem sub4 (v : BitVec 8) : ((v &&& 0b111100) >>> 2).toNat = v.toNat / 4 % 16 := by
  revert v; decide +kernel

/-- Decoding: the low two bits give the type number and the next four the subtype number. -/
theorem c01_decode (v : BitVec 8) :
    Spec.typeNumbers (FrameType.fromBits v) = (v.toNat % 4, v.toNat / 4 % 16) := by
  have h3 := and3 v
  have h4 := sub4 v
  simp only [FrameType.fromBits]
  split
  · rename_i h
    rw [h] at h3
    simp only [Spec.typeNumbers, ManagementFrameSubtype.intoBits_fromBits, h4, ← h3]; rfl
  · split
    · rename_i h
      rw [h] at h3
      simp only [Spec.typeNumbers, ControlFrameSubtype.intoBits_fromBits, h4, ← h3]; rfl
    · split
      · rename_i h
        rw [h] at h3
        simp only [Spec.typeNumbers, DataFrameSubtype.intoBits_fromBits, h4, ← h3]; rfl
      · rename_i a b c
        have : v.toNat % 4 = 3 := by
          have ha : (v &&& 0b11).toNat ≠ 0 := fun e => a (BitVec.eq_of_toNat_eq e)
          have hb : (v &&& 0b11).toNat ≠ 1 := fun e => b (BitVec.eq_of_toNat_eq e)
          have hc : (v &&& 0b11).toNat ≠ 2 := fun e => c (BitVec.eq_of_toNat_eq e)
          omega
        simp only [Spec.typeNumbers, h4, this]

/-- What decoding returns is a valid frame type. -/
theorem c01_decode_valid (v : BitVec 8) : Spec.ValidFrameType (FrameType.fromBits v) := by
  have h := c01_decode v
  have h2 : v.toNat / 4 % 16 < 16 := Nat.mod_lt _ (by decide)
  simp only [FrameType.fromBits] at h ⊢
  split
  · rename_i h1
    simp only [h1, if_true, Spec.typeNumbers, Prod.mk.injEq] at h
    exact ⟨by rw [h.2]; exact h2, ManagementFrameSubtype.canonical_fromBits _⟩
  · rename_i h1
    simp only [h1, if_false] at h
    split
    · rename_i h1
      simp only [h1, if_true, Spec.typeNumbers, Prod.mk.injEq] at h
      exact ⟨by rw [h.2]; exact h2, ControlFrameSubtype.canonical_fromBits _⟩
    · rename_i h1
      simp only [h1, if_false] at h
      split
      · rename_i h1
        simp only [h1, if_true, Spec.typeNumbers, Prod.mk.injEq] at h
        exact ⟨by rw [h.2]; exact h2, DataFrameSubtype.canonical_fromBits _⟩
      · rename_i h1
        simp only [h1, if_false, Spec.typeNumbers, Prod.mk.injEq] at h
        show _ < 16
        rw [h.2]; exact h2

private theorem shl2 : ∀ b : BitVec 8, b.toNat < 16 → (b <<< 2).toNat = 4 * b.toNat ∧
    (0b01 ||| (b <<< 2)).toNat = 4 * b.toNat + 1 ∧ (0b10 ||| (b <<< 2)).toNat = 4 * b.toNat + 2 ∧
    (0b11 ||| (b <<< 2)).toNat = 4 * b.toNat + 3 := by decide +kernel

/-- Encoding a valid frame type gives the type number in the low two bits and the subtype number
above it. -/
theorem c01_encode (t : FrameType) (h : Spec.ValidFrameType t) :
    t.intoBits.toNat = (Spec.typeNumbers t).1 + 4 * (Spec.typeNumbers t).2 := by
  cases t with
  | Management s => have := (shl2 _ h.1).1; simp only [FrameType.intoBits, Spec.typeNumbers]; omega
  | Control s => have := (shl2 _ h.1).2.1; simp only [FrameType.intoBits, Spec.typeNumbers]; omega
  | Data s => have := (shl2 _ h.1).2.2.1; simp only [FrameType.intoBits, Spec.typeNumbers]; omega
  | Unknown s => have := (shl2 _ h).2.2.2; simp only [FrameType.intoBits, Spec.typeNumbers]; omega

private theorem typeNumbers_lt (t : FrameType) (h : Spec.ValidFrameType t) :
    (Spec.typeNumbers t).1 < 4 ∧ (Spec.typeNumbers t).2 < 16 := by
  cases t <;> simp only [Spec.typeNumbers] <;> constructor <;>
    first | decide | exact h.1 | exact h

/-- Decoding and encoding the six bits gives the same six bits. -/
theorem c01_bits_roundtrip (v : BitVec 6) :
    (FrameType.fromBits (v.zeroExtend 8)).intoBits = v.zeroExtend 8 := by
  apply BitVec.eq_of_toNat_eq
  rw [c01_encode _ (c01_decode_valid _), c01_decode]
  have : (v.zeroExtend 8).toNat = v.toNat := by simp; have := v.isLt; omega
  rw [this]
  have := v.isLt
  simp only
  omega

theorem typeNumbers_inj (t u : FrameType) (ht : Spec.ValidFrameType t)
    (hu : Spec.ValidFrameType u) (h : Spec.typeNumbers t = Spec.typeNumbers u) : t = u := by
  have key : ∀ {a b : BitVec 8}, a.toNat = b.toNat → a = b := BitVec.eq_of_toNat_eq
  cases t <;> cases u <;> simp only [Spec.typeNumbers, Prod.mk.injEq] at h <;>
    first
      | exact absurd h.1 (by decide)
      | (have e := key h.2
         first
           | rw [← ManagementFrameSubtype.fromBits_intoBits _ ht.2, e,
               ManagementFrameSubtype.fromBits_intoBits _ hu.2]
           | rw [← ControlFrameSubtype.fromBits_intoBits _ ht.2, e,
               ControlFrameSubtype.fromBits_intoBits _ hu.2]
           | rw [← DataFrameSubtype.fromBits_intoBits _ ht.2, e,
               DataFrameSubtype.fromBits_intoBits _ hu.2]
           | rw [e])

/-- Every valid frame type encodes and decodes to itself. -/
theorem c01_value_roundtrip_partial (t : FrameType) (h : Spec.ValidFrameType t) :
    FrameType.fromBits t.intoBits = t := by
  apply typeNumbers_inj _ _ (c01_decode_valid _) h
  rw [c01_decode, c01_encode t h]
  have := typeNumbers_lt t h
  apply Prod.ext <;> simp only <;> omega

/-- Through the frame control field: the setter does not panic on a valid type, the getter
returns it, and version and flags are unchanged. -/
theorem c01_frame_control_field (f : FrameControlField) (t : FrameType)
    (h : Spec.ValidFrameType t) :
    ∃ g, f.withFrameType t = .ok g ∧ g.frameType = t ∧ g.version = f.version ∧
      g.flags = f.flags := by
  have hl := typeNumbers_lt t h
  have he := c01_encode t h
  have h64 : t.intoBits.toNat < 2 ^ 6 := by omega
  refine ⟨f.with_frame_type (t.intoBits.setWidth 6), ?_, ?_, ?_, ?_⟩
  · simp [FrameControlField.withFrameType, fitField, h64]
  · have : (f.with_frame_type (t.intoBits.setWidth 6)).frame_type = t.intoBits.setWidth 6 :=
      getField_setField_same _ _ _ _ (by decide)
    rw [FrameControlField.frameType, this]
    have e : BitVec.zeroExtend 8 (t.intoBits.setWidth 6) = t.intoBits := by
      apply BitVec.eq_of_toNat_eq
      simp; omega
    rw [e, c01_value_roundtrip_partial t h]
  · exact getField_setField_other _ _ _ _ _ _ (by decide) (by decide)
  · exact getField_setField_other _ _ _ _ _ _ (by decide) (by decide)

/-- The type of a frame control word is given by its bits 2..8. -/
theorem c01_frame_control_decode (f : FrameControlField) :
    Spec.typeNumbers f.frameType = (f.bits.toNat / 4 % 4, f.bits.toNat / 16 % 16) := by
  rw [FrameControlField.frameType, c01_decode]
  have : (BitVec.zeroExtend 8 f.frame_type).toNat = f.bits.toNat / 4 % 64 := by
    simp [FrameControlField.frame_type, getField, Nat.shiftRight_eq_div_pow]
    omega
  rw [this]
  apply Prod.ext <;> simp only <;> omega

/-- Violation: not every value of the Rust type has a wire form: an `Unknown` subtype of 16 or more
is changed by the round trip, and the frame control setter panics on it. -/
theorem c01_invalid_subtype :
    FrameType.fromBits (FrameType.Management (.Unknown 0x10)).intoBits
      ≠ .Management (.Unknown 0x10) ∧
    FrameControlField.withFrameType ⟨0⟩ (.Management (.Unknown 0x10)) = .panic := by
  decide +kernel

/-- Concrete case: 0x20 is a beacon, 0x0d (with the low bits 01) an unknown control subtype. -/
example : FrameType.fromBits 0x20 = .Management .Beacon ∧
    FrameType.fromBits 0x05 = .Control (.Unknown 1) ∧
    Spec.ValidFrameType (.Control (.Unknown 1)) ∧
    (FrameControlField.mk 0x4188).frameType = .Data .QoSData := by
  refine ⟨by decide +kernel, by decide +kernel, ⟨by decide, ?_⟩, by decide +kernel⟩
  intro v h; cases h; decide

end Verif
