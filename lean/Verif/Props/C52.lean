import Verif.Props.C27
/-!
# C52: what the data subtype and the frame type say
-/
namespace Verif

open Spec

/-- `type_matches` compares the two type bits only. -/
theorem c52_type_matches (a b : FrameType) :
    a.typeMatches b = true ↔ a.intoBits.toNat % 4 = b.intoBits.toNat % 4 := by
  have hand : ∀ v : BitVec 8, v.toNat % 4 = (v &&& 3).toNat := by decide +kernel
  have h0 : ∀ v : BitVec 8, (v <<< 2 &&& 3).toNat = 0 := by decide +kernel
  have h1 : ∀ v : BitVec 8, ((1 ||| v <<< 2) &&& 3).toNat = 1 := by decide +kernel
  have h2 : ∀ v : BitVec 8, ((2 ||| v <<< 2) &&& 3).toNat = 2 := by decide +kernel
  have h3 : ∀ v : BitVec 8, ((3 ||| v <<< 2) &&& 3).toNat = 3 := by decide +kernel
  rw [hand, hand]
  cases a <;> cases b <;>
    simp only [FrameType.intoBits, h0, h1, h2, h3, FrameType.typeMatches] <;> decide

/-- For two frame control fields: the types match when bits 2 and 3 of the first bytes agree. -/
theorem c52_type_matches_wire (v w : BitVec 16) :
    (FrameControlField.mk v).frameType.typeMatches (FrameControlField.mk w).frameType = true ↔
      v.toNat / 4 % 4 = w.toNat / 4 % 4 := by
  have key : ∀ v : BitVec 16, (FrameControlField.mk v).frameType.intoBits.toNat % 4 = v.toNat / 4 % 4 := by
    intro v
    obtain ⟨b, hb, ht⟩ := fcf_of_bytes v
    have hv : b.toNat = v.toNat % 256 := by
      have : (toLE v).head? = some b := by rw [hb]; rfl
      have h1 : (toLE v).head? = some (BitVec.ofNat 8 (v.toNat % 256)) := by
        simp only [toLE, leBytes, List.head?_cons]
        congr 1
        apply BitVec.eq_of_toNat_eq
        simp
      rw [h1] at this
      rw [← Option.some.inj this]; simp
    have h2 : b.toNat / 4 % 4 = v.toNat / 4 % 4 := by omega
    rw [← h2]
    have h3 : (typeNumbers (FrameControlField.mk v).frameType).1 = b.toNat / 4 % 4 :=
      congrArg Prod.fst ht
    rw [← h3]
    clear h3
    have hand : ∀ v : BitVec 8, v.toNat % 4 = (v &&& 3).toNat := by decide +kernel
    have h0 : ∀ v : BitVec 8, (v <<< 2 &&& 3).toNat = 0 := by decide +kernel
    have h1 : ∀ v : BitVec 8, ((1 ||| v <<< 2) &&& 3).toNat = 1 := by decide +kernel
    have h2 : ∀ v : BitVec 8, ((2 ||| v <<< 2) &&& 3).toNat = 2 := by decide +kernel
    have h3 : ∀ v : BitVec 8, ((3 ||| v <<< 2) &&& 3).toNat = 3 := by decide +kernel
    rw [hand]
    cases (FrameControlField.mk v).frameType <;>
      simp only [FrameType.intoBits, h0, h1, h2, h3, typeNumbers]
  rw [c52_type_matches, key, key]

variable [ScrollRule]

/-- What a parsed data header says about its subtype is in the upper four bits of the first byte: bit 6
means no payload, the two bits below are the contention free functions (none, ack, poll, both), bit 7 is
QoS.  Subtype 13, which is reserved, is not classified by the last two. -/
theorem c52_subtype (inp : Bytes) (h : DataFrameHeader) (n : Nat) (hr : readDataHeader inp = .ok (h, n)) :
    ∃ b0 rest, inp = b0 :: rest ∧
      (h.subtype.hasPayload = true ↔ b0.getLsbD 6 = false) ∧
      h.subtype.dataFrameCf = (match b0.getLsbD 5, b0.getLsbD 4 with
        | false, false => DataFrameCF.None
        | false, true => .Ack
        | true, false => .Poll
        | true, true => .AckPoll) ∧
      (b0.toNat / 16 ≠ 13 →
        h.subtype.isQos = b0.getLsbD 7 ∧
        (h.isNoCf = true ↔ h.subtype.dataFrameCf = .None) ∧
        (h.isCfAck = true ↔ h.subtype.dataFrameCf = .Ack) ∧
        (h.isCfPoll = true ↔ h.subtype.dataFrameCf = .Poll) ∧
        (h.isCfAckPoll = true ↔ h.subtype.dataFrameCf = .AckPoll)) ∧
      (b0.toNat / 16 = 13 → h.subtype.isQos = false ∧ h.isNoCf = false ∧ h.isCfAck = false ∧
        h.isCfPoll = false ∧ h.isCfAckPoll = false) := by
  obtain ⟨b0, rest, hi, _, _, hs, _, hv⟩ := c27_parse inp h n hr
  refine ⟨b0, _, hi, ?_⟩
  have hsub : h.subtype = .fromBits (BitVec.ofNat 8 (b0.toNat / 16)) := by
    rw [hs, BitVec.ofNat_toNat, BitVec.setWidth_eq, DataFrameSubtype.fromBits_intoBits _ hv.2]
  simp only [DataFrameHeader.isNoCf, DataFrameHeader.isCfAck, DataFrameHeader.isCfPoll,
    DataFrameHeader.isCfAckPoll, hsub]
  clear hsub hs hi hr
  revert b0
  decide +kernel

/-- Violation: for subtype 13 `data_frame_cf` says "ack" but `is_cf_ack` says no, and the QoS bit is set
but `is_qos` says no. -/
theorem c52_reserved_inconsistent : ∃ (inp : Bytes) (h : DataFrameHeader) (n : Nat),
    readDataHeader inp = .ok (h, n) ∧ inp.head?.map (·.getLsbD 7) = some true ∧
    h.subtype.isQos = false ∧ h.subtype.dataFrameCf = .Ack ∧ h.isCfAck = false := by
  let m : Mac := ⟨[1, 2, 3, 4, 5, 6], rfl⟩
  refine ⟨_, ⟨.Unknown 13, ⟨0⟩, 0, m, m, m, ⟨0⟩, none, none, none⟩, _,
    (c27_round_trip _ ?_ ?_ []), ?_, rfl, by decide, rfl⟩
  · exact ⟨by decide, DataFrameSubtype.canonical_fromBits 13⟩
  · constructor <;> decide
  · decide

omit [ScrollRule] in
/-- A concrete header: QoS CF-Poll. -/
example (s : Bool) : letI : ScrollRule := ⟨s⟩
    ∃ h, readDataHeader ([0xe8, 0x02, 0, 0] ++ List.replicate 22 7) = .ok (h, 26) ∧
      h.isCfPoll = true ∧ h.subtype.isQos = true ∧ h.subtype.hasPayload = false := by
  cases s <;> exact ⟨_, rfl, rfl, rfl, rfl⟩

/-- Frame types with different subtypes match, with different types do not. -/
example : (FrameType.Data .Null).typeMatches (.Data .QoSData) = true ∧
    (FrameType.Data .Data).typeMatches (.Management .AssociationRequest) = false := by decide

end Verif
