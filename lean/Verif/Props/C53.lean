import Verif.Props.C25
import Verif.Props.C49
/-!
# C53: recognising EAPOL frames
-/
namespace Verif

namespace Spec

/-- A data frame which carries a payload whose seventh and eighth byte, after the six bytes of LLC and
SNAP, are the ethertype of EAPOL. -/
def CarriesEapol (bs : Bytes) : Prop :=
  ∃ b0 b1 rest llc packet, bs = b0 :: b1 :: rest ∧ b0.toNat / 4 % 4 = 2 ∧ b0.toNat / 64 % 2 = 0 ∧
    dataHeaderLength b0 b1 ≤ bs.length ∧
    bs.drop (dataHeaderLength b0 b1) = llc ++ ([0x88, 0x8e] ++ packet) ∧ llc.length = 6

end Spec

open Spec

variable [ScrollRule] [Crc32]

omit [ScrollRule] [Crc32] in
private theorem ethertype_iff (p : Bytes) :
    (8 ≤ p.length && (p.drop 6).take 2 == [0x88, 0x8e]) = true ↔
      ∃ llc packet, p = llc ++ ([0x88, 0x8e] ++ packet) ∧ llc.length = 6 := by
  simp only [Bool.and_eq_true, decide_eq_true_eq, beq_iff_eq]
  constructor
  · rintro ⟨h1, h2⟩
    refine ⟨p.take 6, p.drop 8, ?_, by simp; omega⟩
    rw [← h2, ← List.append_assoc, ← List.take_add, List.take_append_drop]
  · rintro ⟨llc, packet, rfl, h⟩
    refine ⟨by simp; omega, ?_⟩
    rw [← h]; simp

/-- `is_eapol_key_frame` is true exactly for data frames with the ethertype of EAPOL in their payload; for
all other frames it is false.  It never errs or panics. -/
theorem c53_exact (bs : Bytes) (hl : 10 ≤ bs.length) :
    ((GenericFrame.mk bs).isEapolKeyFrame = .ok true ↔ CarriesEapol bs) ∧
    ((GenericFrame.mk bs).isEapolKeyFrame = .ok false ↔ ¬ CarriesEapol bs) := by
  suffices h : ∃ r, (GenericFrame.mk bs).isEapolKeyFrame = .ok r ∧ (r = true ↔ CarriesEapol bs) by
    obtain ⟨r, hr, hr'⟩ := h
    rw [hr, ← hr']
    cases r <;> simp
  obtain ⟨f, _, _, hf, hf', _⟩ := c24_always ⟨bs⟩ hl
  match bs, hl with
  | b0 :: b1 :: rest, hl =>
  simp only [slice, List.drop_zero, List.take_succ_cons, List.take_zero] at hf'
  obtain ⟨c, h1, htn⟩ := fcf_of_bytes f.bits
  rw [hf'] at h1
  obtain ⟨rfl, hb1⟩ : b0 = c ∧ b1 = (FrameControlField.mk f.bits).fcfFlags.bits := by simpa using h1
  have hcar : CarriesEapol (b0 :: b1 :: rest) ↔ b0.toNat / 4 % 4 = 2 ∧ b0.toNat / 64 % 2 = 0 ∧
      dataHeaderLength b0 b1 ≤ (b0 :: b1 :: rest).length ∧
      ∃ llc packet, (b0 :: b1 :: rest).drop (dataHeaderLength b0 b1) = llc ++ ([0x88, 0x8e] ++ packet) ∧
        llc.length = 6 := by
    constructor
    · rintro ⟨c0, c1, r, llc, packet, h, h1, h2, h3, h4, h5⟩
      obtain ⟨rfl, rfl, rfl⟩ : b0 = c0 ∧ b1 = c1 ∧ rest = r := by simpa using h
      exact ⟨h1, h2, h3, llc, packet, h4, h5⟩
    · rintro ⟨h1, h2, h3, llc, packet, h4, h5⟩
      exact ⟨b0, b1, rest, llc, packet, rfl, h1, h2, h3, h4, h5⟩
  cases hft : f.frameType with
  | Data s =>
    have htn' := htn
    rw [show (FrameControlField.mk f.bits).frameType = f.frameType from rfl, hft] at htn'
    simp only [typeNumbers, Prod.mk.injEq] at htn'
    have hpay := (c27_subtypes s (c27_valid f.bits s hft)).2
    have hps : payloadSubtype s ↔ b0.toNat / 64 % 2 = 0 := by
      rw [payloadSubtype, htn'.2]; omega
    have hm := (c25_control_data (b0 :: b1 :: rest) hl).2.2.1.2 ⟨b0, _, rfl, htn'.1.symm⟩
    have hty := c25_parse_to_typed ⟨b0 :: b1 :: rest⟩ hl dataFrameKind readDataFrame
      (fun inp h => by have := (c49_panics_iff false inp).1 h; simp at this) true hm
    simp only [if_true] at hty
    simp only [GenericFrame.isEapolKeyFrame, hf, Res.ok_bind, hft]
    by_cases hp : s.hasPayload = true
    · simp only [hp, Bool.not_true, Bool.false_eq_true, if_false, hty, Res.ok_bind]
      obtain ⟨hok, herr⟩ := c49_from_header (b0 :: b1 :: rest)
      cases hrd : readDataHeader (b0 :: b1 :: rest) with
      | panic => exact absurd hrd (c27_safe.ne_panic _)
      | err e =>
        obtain ⟨e', he'⟩ := herr e hrd
        rw [he']
        refine ⟨false, rfl, ?_⟩
        rw [hcar]
        constructor
        · intro h; cases h
        · rintro ⟨h1, h2, h3, _⟩
          obtain ⟨h, hh⟩ := (c27_accepts_iff _ _).2 ⟨b0, b1, rest, rfl, h1, rfl, h3⟩
          rw [hrd] at hh; cases hh
      | ok x =>
        obtain ⟨h, n⟩ := x
        rw [hok h n hrd]
        obtain ⟨c0, c1, r, hi, h1, h2, h3⟩ := (c27_accepts_iff _ _).1 ⟨h, hrd⟩
        obtain ⟨rfl, rfl, rfl⟩ : b0 = c0 ∧ b1 = c1 ∧ rest = r := by simpa using hi
        obtain ⟨d0, r', hi', _, _, h4, _, _⟩ := c27_parse _ _ _ hrd
        obtain ⟨rfl, -⟩ := List.cons.inj hi'
        have hps' : payloadSubtype h.subtype := by
          rw [payloadSubtype, ← h4, htn'.2.symm]; exact hpay.1 hp
        rw [if_pos hps']
        refine ⟨_, rfl, ?_⟩
        rw [ethertype_iff, hcar, ← h2]
        constructor
        · intro hx; exact ⟨h1, hps.1 (hpay.1 hp), h3, hx⟩
        · rintro ⟨_, _, _, hx⟩; exact hx
    · refine ⟨false, by simp [hp], ?_⟩
      rw [hcar]
      rw [hpay, hps] at hp
      simp [hp]
  | Management s =>
    refine ⟨false, by simp only [GenericFrame.isEapolKeyFrame, hf, Res.ok_bind, hft]; rfl, ?_⟩
    rw [show (FrameControlField.mk f.bits).frameType = f.frameType from rfl, hft] at htn
    simp only [typeNumbers, Prod.mk.injEq] at htn
    rw [hcar, ← htn.1]; simp
  | Control s =>
    refine ⟨false, by simp only [GenericFrame.isEapolKeyFrame, hf, Res.ok_bind, hft]; rfl, ?_⟩
    rw [show (FrameControlField.mk f.bits).frameType = f.frameType from rfl, hft] at htn
    simp only [typeNumbers, Prod.mk.injEq] at htn
    rw [hcar, ← htn.1]; simp
  | Unknown s =>
    refine ⟨false, by simp only [GenericFrame.isEapolKeyFrame, hf, Res.ok_bind, hft]; rfl, ?_⟩
    rw [show (FrameControlField.mk f.bits).frameType = f.frameType from rfl, hft] at htn
    simp only [typeNumbers, Prod.mk.injEq] at htn
    rw [hcar, ← htn.1]; simp

/-- Violation (only key frames are reported): neither the LLC and SNAP header nor the type of the EAPOL
packet is looked at.  A payload which does not begin with LLC and SNAP and an EAPOL-Start packet, which is
not a key frame, are reported as well, as is a frame with the protected flag, in which these bytes are
ciphertext. -/
theorem c53_not_key : ∀ (flags : Byte), flags = 0x02 ∨ flags = 0x42 → ∀ llc ∈ [[0xaa, 0xaa, 3, 0, 0, 0],
    [0, 0, 0, 0, 0, 0]], (GenericFrame.mk ([0x08, flags] ++ List.replicate 22 7 ++ llc ++
      [0x88, 0x8e, 2, 1, 0, 0])).isEapolKeyFrame = .ok true := by
  rintro flags hf llc hllc
  have hx : ∀ (f : Byte) (l : Bytes), f = 0x02 ∨ f = 0x42 → l.length = 6 →
      CarriesEapol ([0x08, f] ++ List.replicate 22 7 ++ l ++ [0x88, 0x8e, 2, 1, 0, 0]) := by
    intro f l hf hl
    have hd : dataHeaderLength 0x08 f = 24 := by rcases hf with rfl | rfl <;> decide
    refine ⟨0x08, f, List.replicate 22 7 ++ l ++ [0x88, 0x8e, 2, 1, 0, 0], l, [2, 1, 0, 0], by simp,
      by decide, by decide, ?_, ?_, hl⟩
    · rw [hd]; simp
    · rw [hd]; simp
  have hl : llc.length = 6 := by
    simp only [List.mem_cons, List.not_mem_nil, or_false] at hllc
    rcases hllc with rfl | rfl <;> rfl
  exact (c53_exact _ (by simp)).1.2 (hx flags llc hf hl)

/-- A concrete key frame, QoS data from the access point, is recognised. -/
example : (GenericFrame.mk ([0x88, 0x02] ++ List.replicate 24 7 ++
    [0xaa, 0xaa, 3, 0, 0, 0, 0x88, 0x8e, 2, 3, 0, 95])).isEapolKeyFrame = .ok true := by
  refine (c53_exact _ (by simp)).1.2 ⟨0x88, 0x02, _, [0xaa, 0xaa, 3, 0, 0, 0], [2, 3, 0, 95], rfl,
    by decide, by decide, ?_, ?_, rfl⟩ <;> decide

end Verif
