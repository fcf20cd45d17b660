import Verif.Lemmas.Fcf
import Verif.Lemmas.Rsn
import Verif.Model.Frames.Data
/-!
# C27: data frame headers
-/
namespace Verif

namespace Spec

/-- The QoS subtypes by number: the upper half of the subtypes, of which 13 is reserved. -/
def qosSubtype (s : DataFrameSubtype) : Prop := 8 ≤ s.intoBits.toNat ∧ s.intoBits.toNat ≠ 13

/-- The data subtypes which carry a payload, by number: those in which bit 2 ("no data") is clear. -/
def payloadSubtype (s : DataFrameSubtype) : Prop := s.intoBits.toNat / 4 % 2 = 0

instance (s : DataFrameSubtype) : Decidable (qosSubtype s) := inferInstanceAs (Decidable (_ ∧ _))
instance (s : DataFrameSubtype) : Decidable (payloadSubtype s) := inferInstanceAs (Decidable (_ = _))

/-- A data frame header after the frame control field. -/
def dataHeaderWire (h : DataFrameHeader) : Bytes :=
  toLE h.duration ++ (h.address_1.val ++ (h.address_2.val ++ (h.address_3.val ++
    (toLE h.sequence_control.bits ++ (optWire h.address_4 ++ (optWire h.qos ++ optWire h.ht_control))))))

/-- The optional fields are present exactly when the frame control field says so, as this library
reads it: HT control depends on the order flag only. -/
structure HeaderConsistent (h : DataFrameHeader) : Prop where
  address_4 : h.address_4.isSome ↔ h.fcf_flags.to_ds ∧ h.fcf_flags.from_ds
  qos : h.qos.isSome ↔ qosSubtype h.subtype
  ht_control : h.ht_control.isSome ↔ h.fcf_flags.order

/-- The number of the subtype fits, and `Unknown` stands for unassigned numbers only. -/
def ValidData (h : DataFrameHeader) : Prop := ValidFrameType (.Data h.subtype)

/-- The length of a data header, frame control field included, by its first two bytes: a fourth address
when both direction flags are set, the QoS field by the subtype number, HT control by the order flag. -/
def dataHeaderLength (b0 b1 : Byte) : Nat :=
  24 + (if b1.toNat % 4 = 3 then 6 else 0) +
    (if 8 ≤ b0.toNat / 16 ∧ b0.toNat / 16 ≠ 13 then 2 else 0) + (if 128 ≤ b1.toNat then 4 else 0)

end Spec

open Spec

/-- `is_qos` and `has_payload` for the sixteen numbers. -/
theorem c27_subtypes (s : DataFrameSubtype) (h : ValidFrameType (.Data s)) :
    (s.isQos = true ↔ qosSubtype s) ∧ (s.hasPayload = true ↔ payloadSubtype s) := by
  have key : ∀ v : BitVec 8, v.toNat < 16 →
      ((DataFrameSubtype.fromBits v).isQos = true ↔ (8 ≤ v.toNat ∧ v.toNat ≠ 13)) ∧
      ((DataFrameSubtype.fromBits v).hasPayload = true ↔ v.toNat / 4 % 2 = 0) := by
    have : ∀ n < 16, ((DataFrameSubtype.fromBits (BitVec.ofNat 8 n)).isQos = true ↔ (8 ≤ n ∧ n ≠ 13)) ∧
      ((DataFrameSubtype.fromBits (BitVec.ofNat 8 n)).hasPayload = true ↔ n / 4 % 2 = 0) := by decide
    intro v hv
    have := this v.toNat hv
    simpa using this
  have := key s.intoBits h.1
  rwa [DataFrameSubtype.fromBits_intoBits s h.2] at this

theorem c27_valid (v : BitVec 16) (s : DataFrameSubtype)
    (h : (FrameControlField.mk v).frameType = .Data s) : ValidFrameType (.Data s) := by
  rw [← h]
  exact c01_decode_valid _

variable [ScrollRule]

/-- The header is written in the order of the standard, without the frame control field. -/
theorem c27_write (h : DataFrameHeader) :
    Emits (writeDataHeader h) (dataHeaderWire h) (dataHeaderWire h).length := by
  apply Emits.cast
  · apply WEmits.run
    wr_steps
    exact WEmits.optI (WEmits.optI (WEmits.opt _ (by decide)) (by decide)) (by decide)
  · rfl
  · simp [dataHeaderWire]

private theorem header_read (v : BitVec 16) (h : DataFrameHeader)
    (ht : (FrameControlField.mk v).frameType = .Data h.subtype)
    (hg : (FrameControlField.mk v).fcfFlags = h.fcf_flags) (hc : HeaderConsistent h) (rest : Bytes) :
    readDataHeader (toLE v ++ (dataHeaderWire h ++ rest)) = .ok (h, 2 + (dataHeaderWire h).length) := by
  have hs := slack_le
  have hq := (c27_subtypes h.subtype (c27_valid v _ ht)).1
  obtain ⟨s, g, d, a1, a2, a3, sc, a4, q, htc⟩ := h
  obtain ⟨h4, hqos, hht⟩ := hc
  simp only at ht hg hq h4 hqos hht
  simp only [dataHeaderWire, List.append_assoc]
  apply RdAt.run
  apply RdAt.cast
  · apply RdAt.le (h := by decide) (hp := by decide)
    simp only [ht, hg]
    rd_steps
    refine RdAt.optI ?_ (RdAt.optI ?_ (RdAt.optI ?_ RdAt.pure (by decide)) (by decide)) (by decide)
    · rw [Bool.eq_iff_iff, h4]; simp
    · rw [Bool.eq_iff_iff, hqos, hq]
    · rw [Bool.eq_iff_iff, hht]
  · simp

/-- Reading the frame control field and what was written gives the header back. -/
theorem c27_round_trip (h : DataFrameHeader) (hv : ValidData h) (hc : HeaderConsistent h) (rest : Bytes) :
    readDataHeader (frameStart (.Data h.subtype) h.fcf_flags ++ (dataHeaderWire h ++ rest)) =
      .ok (h, 2 + (dataHeaderWire h).length) := by
  obtain ⟨f, hf, hb, ht, hg⟩ := fcf_written (.Data h.subtype) hv h.fcf_flags
  rw [← hb]
  exact header_read _ h ht hg hc rest

/-- Whatever is accepted is the wire form of the result after a data frame control field; the optional
fields are there exactly when the subtype and flags say so. -/
theorem c27_parse (inp : Bytes) (h : DataFrameHeader) (n : Nat) (hr : readDataHeader inp = .ok (h, n)) :
    ∃ (b0 : Byte) (rest : Bytes), inp = b0 :: h.fcf_flags.bits :: (dataHeaderWire h ++ rest) ∧
      n = 2 + (dataHeaderWire h).length ∧ b0.toNat / 4 % 4 = 2 ∧
      b0.toNat / 16 = h.subtype.intoBits.toNat ∧ HeaderConsistent h ∧ ValidData h := by
  have hp : ParsesR readDataHeader (fun h bs _ => ∃ (b0 : Byte),
      bs = b0 :: h.fcf_flags.bits :: dataHeaderWire h ∧ b0.toNat / 4 % 4 = 2 ∧
      b0.toNat / 16 = h.subtype.intoBits.toNat ∧ HeaderConsistent h ∧ ValidData h) := by
    apply Parses.run
    refine Parses.imp (Parses.bind (R := fun f (h : DataFrameHeader) bs _ =>
        bs = dataHeaderWire h ∧ h.fcf_flags = (FrameControlField.mk f).fcfFlags ∧
        (FrameControlField.mk f).frameType = .Data h.subtype ∧ HeaderConsistent h)
        (Parses.gread' (readLE_parses 16 rfl)) ?_) ?_
    · intro f
      dsimp only
      split
      · rename_i s hs
        refine Parses.imp (Parses.bind (Parses.gread' (readLE_parses 16 rfl)) fun _ =>
          Parses.bind (Parses.gread' (readArr_parses 6)) fun _ =>
          Parses.bind (Parses.gread' (readArr_parses 6)) fun _ =>
          Parses.bind (Parses.gread' (readArr_parses 6)) fun _ =>
          Parses.bind (Parses.gread' (readLE_parses 16 rfl)) fun _ =>
          Parses.bind Parses.opt fun _ =>
          Parses.bind Parses.opt fun _ =>
          Parses.bind Parses.opt fun _ => Parses.pure) ?_
        rintro h bs rest ⟨d, _, _, rfl, rfl, a1, _, _, rfl, rfl, a2, _, _, rfl, rfl, a3, _, _, rfl, rfl,
          sc, _, _, rfl, rfl, a4, _, _, rfl, ⟨h4, rfl⟩, q, _, _, rfl, ⟨hq, rfl⟩, ht, _, _, rfl,
          ⟨hht, rfl⟩, rfl, rfl⟩
        refine ⟨by simp [dataHeaderWire], rfl, hs, ?_, ?_, ?_⟩
        · simp [h4]
        · rw [hq]; exact (c27_subtypes s (c27_valid f s hs)).1
        · simp [hht]
      · exact Parses.fail
    · rintro h bs rest ⟨f, _, _, rfl, rfl, rfl, hf, ht, hc⟩
      obtain ⟨b0, h0, h1⟩ := fcf_of_bytes f
      rw [ht] at h1
      simp only [typeNumbers, Prod.mk.injEq] at h1
      exact ⟨b0, by rw [h0, hf]; rfl, h1.1.symm, h1.2.symm, hc, c27_valid f _ ht⟩
  obtain ⟨bs, rest, rfl, rfl, b0, rfl, h1, h2, h3, h4⟩ := hp _ _ _ hr
  exact ⟨b0, rest, by simp, by simp; omega, h1, h2, h3, h4⟩

/-- So writing back a parsed header reproduces the bytes after the frame control field. -/
theorem c27_rewrite (inp : Bytes) (h : DataFrameHeader) (n : Nat) (hr : readDataHeader inp = .ok (h, n))
    (buf : Bytes) (hb : n ≤ buf.length + 2) :
    writeDataHeader h buf = .ok ((inp.take n).drop 2 ++ buf.drop (n - 2), n - 2) := by
  obtain ⟨b0, rest, rfl, rfl, _⟩ := c27_parse inp h n hr
  have := (c27_write h).ok buf (by omega)
  rw [this]
  simp [Nat.add_comm 2]

/-- It never panics and consumes no more than there is. -/
theorem c27_safe : SafeReader readDataHeader := by
  apply Rd.Safe.run
  apply Rd.Safe.bind (Rd.Safe.gread (readLE_fixed 16).safe); intro f
  dsimp only
  split
  · rd_safe
    apply Rd.Safe.bind (Rd.Safe.opt (readArr_fixed 6).safe); intro _
    apply Rd.Safe.bind (Rd.Safe.opt (readArr_fixed 2).safe); intro _
    apply Rd.Safe.bind (Rd.Safe.opt (readArr_fixed 4).safe); intro _
    exact Rd.Safe.pure
  · exact Rd.Safe.fail

/-- It never panics, and it errs unless there are enough bytes and the type is data. -/
theorem c27_errors (inp : Bytes) :
    readDataHeader inp ≠ .panic ∧
    (∀ b0 rest, inp = b0 :: rest → b0.toNat / 4 % 4 ≠ 2 → ∃ e, readDataHeader inp = .err e) ∧
    (inp.length < 24 → ∃ e, readDataHeader inp = .err e) := by
  have hsafe : readDataHeader inp ≠ .panic := c27_safe.ne_panic inp
  have herr : (∀ c n, readDataHeader inp ≠ .ok (c, n)) → ∃ e, readDataHeader inp = .err e := by
    intro h
    cases hr : readDataHeader inp with
    | ok x => exact absurd hr (h x.1 x.2)
    | err e => exact ⟨e, rfl⟩
    | panic => exact absurd hr hsafe
  refine ⟨hsafe, ?_, ?_⟩
  · intro b0 rest h hn
    apply herr
    intro c n hc
    obtain ⟨b, _, h', _, h2, _⟩ := c27_parse inp c n hc
    rw [h] at h'
    exact hn ((List.cons.inj h').1 ▸ h2)
  · intro hl
    apply herr
    intro c n hc
    obtain ⟨b, _, rfl, _⟩ := c27_parse inp c n hc
    simp [dataHeaderWire] at hl
    omega

omit [ScrollRule] in
/-- The reported length counts the frame control field, which is read but not written with the header:
it is the number of bytes consumed in reading and two more than the number written. -/
theorem c27_length (h : DataFrameHeader) : h.lengthInBytes = 2 + (dataHeaderWire h).length := by
  simp only [DataFrameHeader.lengthInBytes, dataHeaderWire, List.length_append, optWire_length,
    toLE_length, h.address_1.property, h.address_2.property, h.address_3.property]
  omega

/-- The length reported for a parsed header is the length consumed. -/
theorem c27_length_read (inp : Bytes) (h : DataFrameHeader) (n : Nat)
    (hr : readDataHeader inp = .ok (h, n)) : h.lengthInBytes = n := by
  obtain ⟨_, _, _, rfl, _⟩ := c27_parse inp h n hr
  exact c27_length h

omit [ScrollRule] in
private theorem exists_opt {k : Nat} (c : Bool) {inp : Bytes} (h : (if c then k else 0) ≤ inp.length) :
    ∃ (o : Option (Arr k)) (rest : Bytes), o.isSome = c ∧ inp = optWire o ++ rest := by
  cases c
  · exact ⟨none, inp, rfl, by simp⟩
  · obtain ⟨a, rest, h⟩ := exists_arr k h
    exact ⟨some a, rest, rfl, by simp [h]⟩

omit [ScrollRule] in
private theorem flag_bits (g : FCFFlags) :
    ((g.to_ds && g.from_ds) = true ↔ g.bits.toNat % 4 = 3) ∧ (g.order = true ↔ 128 ≤ g.bits.toNat) := by
  obtain ⟨b⟩ := g
  revert b
  decide +kernel

omit [ScrollRule] in
private theorem wire_length (h : DataFrameHeader) (hc : HeaderConsistent h) (b0 : Byte)
    (hb : b0.toNat / 16 = h.subtype.intoBits.toNat) :
    2 + (dataHeaderWire h).length = dataHeaderLength b0 h.fcf_flags.bits := by
  obtain ⟨h1, h2⟩ := flag_bits h.fcf_flags
  obtain ⟨h4, hq, hh⟩ := hc
  rw [← c27_length, DataFrameHeader.lengthInBytes, dataHeaderLength, hb]
  simp only [← Bool.and_eq_true, h1] at h4
  simp only [qosSubtype] at hq
  simp only [h2] at hh
  simp only [h4, hq, hh]

/-- Exactly which bytes are a data header: the type is data and there are as many bytes as the first two
ask for; exactly that many are consumed. -/
theorem c27_accepts_iff (inp : Bytes) (n : Nat) :
    (∃ h, readDataHeader inp = .ok (h, n)) ↔
    ∃ b0 b1 rest, inp = b0 :: b1 :: rest ∧ b0.toNat / 4 % 4 = 2 ∧ n = dataHeaderLength b0 b1 ∧
      n ≤ inp.length := by
  constructor
  · rintro ⟨h, hr⟩
    obtain ⟨b0, rest, hi, hn, ht, hb, hc, hv⟩ := c27_parse inp h n hr
    refine ⟨b0, _, _, hi, ht, hn.trans (wire_length h hc b0 hb), ?_⟩
    rw [hi, hn]; simp; omega
  · rintro ⟨b0, b1, rest, hi, ht, rfl, hl⟩
    have hs := slack_le
    rw [dataHeaderLength] at hl
    obtain ⟨v, r0, h0⟩ := exists_toLE 16 rfl (inp := inp) (by omega)
    obtain ⟨c0, hv0, hvt⟩ := fcf_of_bytes v
    rw [hv0] at h0
    have hb := h0
    rw [hi] at hb
    obtain ⟨rfl, rfl, rfl⟩ : b0 = c0 ∧ b1 = (FrameControlField.mk v).fcfFlags.bits ∧ rest = r0 := by
      simpa using hb
    obtain ⟨h1, h2⟩ := flag_bits (FrameControlField.mk v).fcfFlags
    cases hft : (FrameControlField.mk v).frameType with
    | Data s =>
      rw [hft] at hvt
      simp only [typeNumbers, Prod.mk.injEq] at hvt
      have hsub := hvt.2
      have hq := (c27_subtypes s (c27_valid v s hft)).1
      have hr : inp.length = rest.length + 2 := by rw [hi]; simp
      have e4 : (if (FrameControlField.mk v).fcfFlags.bits.toNat % 4 = 3 then 6 else 0) =
          if ((FrameControlField.mk v).fcfFlags.to_ds && (FrameControlField.mk v).fcfFlags.from_ds) = true
          then 6 else 0 := by simp only [h1]
      have eq' : (if 8 ≤ b0.toNat / 16 ∧ b0.toNat / 16 ≠ 13 then 2 else 0) =
          if s.isQos = true then 2 else 0 := by simp only [hq, qosSubtype, hsub]
      have eh : (if 128 ≤ (FrameControlField.mk v).fcfFlags.bits.toNat then 4 else 0) =
          if (FrameControlField.mk v).fcfFlags.order = true then 4 else 0 := by simp only [h2]
      rw [e4, eq', eh] at hl
      obtain ⟨d, r1, rfl⟩ := exists_toLE 16 rfl (inp := rest) (by omega)
      obtain ⟨a1, r2, rfl⟩ := exists_arr 6 (inp := r1) (by simp at hr; omega)
      obtain ⟨a2, r3, rfl⟩ := exists_arr 6 (inp := r2) (by simp at hr; omega)
      obtain ⟨a3, r4, rfl⟩ := exists_arr 6 (inp := r3) (by simp at hr; omega)
      obtain ⟨sc, r5, rfl⟩ := exists_toLE 16 rfl (inp := r4) (by simp at hr; omega)
      simp only [List.length_append, toLE_length, a1.property, a2.property, a3.property] at hr
      obtain ⟨a4, r6, c4, rfl⟩ := exists_opt (k := 6) ((FrameControlField.mk v).fcfFlags.to_ds &&
        (FrameControlField.mk v).fcfFlags.from_ds) (inp := r5) (by omega)
      have l4 : (optWire a4).length = if ((FrameControlField.mk v).fcfFlags.to_ds &&
          (FrameControlField.mk v).fcfFlags.from_ds) = true then 6 else 0 := by
        rw [optWire_length, c4]
      rw [List.length_append, l4] at hr
      obtain ⟨q, r7, cq, rfl⟩ := exists_opt (k := 2) s.isQos (inp := r6) (by omega)
      have lq : (optWire q).length = if s.isQos = true then 2 else 0 := by
        rw [optWire_length, cq]
      rw [List.length_append, lq] at hr
      obtain ⟨ht, r8, ch, rfl⟩ := exists_opt (k := 4) (FrameControlField.mk v).fcfFlags.order (inp := r7)
        (by omega)
      have hc : HeaderConsistent ⟨s, (FrameControlField.mk v).fcfFlags, d, a1, a2, a3, ⟨sc⟩, a4, q, ht⟩ := by
        refine ⟨?_, ?_, ?_⟩
        · simp only [c4, Bool.and_eq_true]
        · simp only [cq]; exact hq
        · simp only [ch]
      refine ⟨⟨s, (FrameControlField.mk v).fcfFlags, d, a1, a2, a3, ⟨sc⟩, a4, q, ht⟩, ?_⟩
      rw [hi, ← wire_length _ hc b0 hsub.symm]
      have := header_read v _ hft rfl hc r8
      rw [hv0] at this
      simpa [dataHeaderWire] using this
    | Management s => rw [hft] at hvt; simp [typeNumbers] at hvt; omega
    | Control s => rw [hft] at hvt; simp [typeNumbers] at hvt; omega
    | Unknown s => rw [hft] at hvt; simp [typeNumbers] at hvt; omega

/-- Violation (HT control exactly for QoS frames with the order flag): a frame which is not QoS and has
the order flag, which then stands for strict ordering, loses the first four bytes of its payload to HT
control. -/
theorem c27_order_without_qos : ∃ (inp : Bytes) (h : DataFrameHeader),
    readDataHeader inp = .ok (h, 28) ∧ ¬ qosSubtype h.subtype ∧ h.ht_control.isSome := by
  let m : Mac := ⟨[1, 2, 3, 4, 5, 6], rfl⟩
  refine ⟨_, ⟨.Data, ⟨0x80⟩, 0, m, m, m, ⟨0⟩, none, none, some ⟨[9, 8, 7, 6], rfl⟩⟩,
    (c27_round_trip _ ?_ ?_ []), ?_, rfl⟩
  · exact ⟨by decide, DataFrameSubtype.canonical_fromBits 0⟩
  · constructor <;> decide
  · decide

omit [ScrollRule] in
/-- Violation: the measure of a header is two more than what it writes. -/
theorem c27_measure_wrong (h : DataFrameHeader) : h.lengthInBytes ≠ (dataHeaderWire h).length := by
  rw [c27_length]; omega

omit [ScrollRule] in
/-- The frame control field of a header. -/
theorem c27_fcf (h : DataFrameHeader) (hv : ValidData h) :
    ∃ f, h.getFcf = .ok f ∧ f.frameType = .Data h.subtype ∧ f.fcfFlags = h.fcf_flags := by
  obtain ⟨f, hf, hb, ht, hg⟩ := fcf_written (.Data h.subtype) hv h.fcf_flags
  exact ⟨_, by simp only [DataFrameHeader.getFcf, hf]; rfl, ht, hg⟩

/-- A concrete QoS data header with four addresses. -/
example : let m (k : Byte) : Mac := ⟨[k, k, k, k, k, k], rfl⟩
    let h : DataFrameHeader := ⟨.QoSData, ⟨0x83⟩, 0x102, m 1, m 2, m 3, ⟨0x30⟩, some (m 4),
      some ⟨[5, 0], rfl⟩, some ⟨[6, 7, 8, 9], rfl⟩⟩
    let bytes : Bytes := [2, 1, 1, 1, 1, 1, 1, 1, 2, 2, 2, 2, 2, 2, 3, 3, 3, 3, 3, 3, 0x30, 0,
      4, 4, 4, 4, 4, 4, 5, 0, 6, 7, 8, 9]
    dataHeaderWire h = bytes ∧ readDataHeader (0x88 :: 0x83 :: bytes ++ [0xff]) = .ok (h, 36) ∧
      HeaderConsistent h := by
  refine ⟨by decide, ?_, by constructor <;> decide⟩
  cases ‹ScrollRule› with | mk s => cases s <;> decide +kernel

end Verif
