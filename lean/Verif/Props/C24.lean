import Verif.Props.C23
import Verif.Props.C26
import Verif.Props.C49
/-!
# C24: the generic view of a frame agrees with the typed parsers
-/
namespace Verif

namespace Spec

/-- Bytes `off` to `off + n` of a frame. -/
def slice (bs : Bytes) (off n : Nat) : Bytes := (bs.drop off).take n

/-- Kinds of frames with a second address by type and subtype number, as the standard has them:
management, data, and among the control frames trigger (2), TACK (3), beamforming report poll (4), NDP
announcement (5), block ack request and block ack (8, 9), PS-poll (10), RTS (11), CF-End (14) and CF-End
with ack (15). -/
def standardHasAddress2 (n : Nat × Nat) : Bool :=
  n.1 == 0 || n.1 == 2 || (n.1 == 1 && [2, 3, 4, 5, 8, 9, 10, 11, 14, 15].contains n.2)

/-- Kinds of frames with a third address and sequence control: management and data. -/
def standardHasAddress3 (n : Nat × Nat) : Bool := n.1 == 0 || n.1 == 2

end Spec

open Spec

variable [ScrollRule]

theorem pread_arr_ok (k : Nat) (hk : 0 < k) (off : Nat) (bs : Bytes) (h : off + k ≤ bs.length) :
    ∃ a : Arr k, pread (readArr k) off bs = .ok a ∧ a.val = slice bs off k := by
  have hsl := slack_le
  have hl : (slice bs off k).length = k := by simp [slice]; omega
  refine ⟨⟨slice bs off k, hl⟩, ?_, rfl⟩
  have hsplit : bs = bs.take off ++ (slice bs off k ++ bs.drop (off + k)) := by
    rw [slice, ← List.drop_drop, List.take_append_drop, List.take_append_drop]
  have := RdAt.gread (readArr_append (⟨slice bs off k, hl⟩ : Arr k) (bs.drop (off + k)))
    (by simp [hl]; omega) (bs.take off)
  simp only [List.length_take, Nat.min_eq_left (show off ≤ bs.length by omega)] at this
  rw [← hsplit] at this
  simp only [pread, this]
  rfl

theorem pread_arr_err (k off : Nat) (bs : Bytes) (h : bs.length < off + k) :
    ∃ e, pread (readArr k) off bs = .err e := by
  obtain ⟨e, he⟩ := Rd.Needs.gread (readArr_fixed k) bs off h
  exact ⟨e, by rw [pread, he]; rfl⟩

theorem pread_le_ok (off : Nat) (bs : Bytes) (h : off + 2 ≤ bs.length) :
    ∃ v : BitVec 16, pread (readLE 16) off bs = .ok v ∧ toLE v = slice bs off 2 := by
  have hsl := slack_le
  have hl : (slice bs off 2).length = 2 := by simp [slice]; omega
  have hsplit : bs = bs.take off ++ (slice bs off 2 ++ bs.drop (off + 2)) := by
    rw [slice, ← List.drop_drop, List.take_append_drop, List.take_append_drop]
  have hv : toLE (fromLE 16 (slice bs off 2)) = slice bs off 2 := toLE_fromLE rfl _ hl
  refine ⟨fromLE 16 (slice bs off 2), ?_, hv⟩
  have := RdAt.gread (readLE_append rfl (fromLE 16 (slice bs off 2)) (bs.drop (off + 2)))
    (by simp; omega) (bs.take off)
  simp only [List.length_take, Nat.min_eq_left (show off ≤ bs.length by omega)] at this
  rw [hv, ← hsplit] at this
  simp only [pread, this]
  rfl

theorem pread_le_err (off : Nat) (bs : Bytes) (h : bs.length < off + 2) :
    ∃ e, pread (readLE 16) off bs = .err e := by
  obtain ⟨e, he⟩ := Rd.Needs.gread (readLE_fixed 16) bs off h
  exact ⟨e, by rw [pread, he]; rfl⟩

open GenericFrame

/-- Every generic frame there is has at least ten bytes, since it is made by `new`. -/
theorem c24_new [Crc32] (bs : Bytes) (fcs : Bool) (g : GenericFrame) :
    GenericFrame.new bs fcs = .ok g ↔ bs = withFcs fcs g.bytes ∧ 10 ≤ g.bytes.length := by
  obtain ⟨gb⟩ := g
  cases fcs
  · simp only [GenericFrame.new, withFcs, Res.ok_bind, Bool.false_eq_true, if_false]
    split
    · simp; rintro rfl; omega
    · simp; rintro rfl; omega
  · simp only [GenericFrame.new, withFcs, if_true]
    rw [← c05_accepts_iff]
    cases hs : stripAndValidateFcs bs with
    | ok out =>
      simp only [Res.ok_bind, Res.ok.injEq]
      split
      · simp; rintro rfl; omega
      · simp; rintro rfl; omega
    | err e => simp
    | panic => simp

/-- `new` panics exactly when a check sequence is expected in fewer than four bytes. -/
theorem c24_new_panics_iff [Crc32] (bs : Bytes) (fcs : Bool) :
    GenericFrame.new bs fcs = .panic ↔ fcs = true ∧ bs.length < 4 := by
  cases fcs
  · simp only [GenericFrame.new, Res.ok_bind, Bool.false_eq_true, if_false]
    split <;> simp
  · simp only [GenericFrame.new, if_true, true_and]
    rw [← c05_short_panics_iff]
    cases hs : stripAndValidateFcs bs with
    | ok out => simp only [Res.ok_bind]; split <;> simp
    | err e => simp
    | panic => simp

/-- The frame control field, the duration and the first address are where they are in any frame. -/
theorem c24_always (g : GenericFrame) (h : 10 ≤ g.bytes.length) :
    ∃ f d a, g.frameControlField = .ok f ∧ toLE f.bits = slice g.bytes 0 2 ∧
      g.duration = .ok d ∧ toLE d = slice g.bytes 2 2 ∧
      g.address1 = .ok a ∧ a.val = slice g.bytes 4 6 := by
  obtain ⟨f, hf, hf'⟩ := pread_le_ok 0 g.bytes (by omega)
  obtain ⟨d, hd, hd'⟩ := pread_le_ok 2 g.bytes (by omega)
  obtain ⟨a, ha, ha'⟩ := pread_arr_ok 6 (by decide) 4 g.bytes (by omega)
  exact ⟨⟨f⟩, d, a, by simp only [frameControlField, hf]; rfl, hf',
    by simp only [duration, hd]; rfl, hd', by simp only [address1, readMac, ha]; rfl, ha'⟩

/-- The second address: there exactly when the kind of frame has one according to the library and the
bytes are long enough. -/
theorem c24_address2 (g : GenericFrame) (f : FrameControlField) (hf : g.frameControlField = .ok f) :
    (g.address2 = .ok none ∧ (f.frameType.hasAddress2 = false ∨ g.bytes.length < 16)) ∨
    (∃ a, g.address2 = .ok (some a) ∧ a.val = slice g.bytes 10 6 ∧ f.frameType.hasAddress2 = true ∧
      16 ≤ g.bytes.length) := by
  simp only [address2, hf, Res.ok_bind]
  cases hk : f.frameType.hasAddress2
  · left; simp
  · by_cases hl : 16 ≤ g.bytes.length
    · obtain ⟨a, ha, ha'⟩ := pread_arr_ok 6 (by decide) 10 g.bytes (by omega)
      right
      exact ⟨a, by simp [readMac, ha], ha', rfl, hl⟩
    · obtain ⟨e, he⟩ := pread_arr_err 6 10 g.bytes (by omega)
      left
      exact ⟨by simp [readMac, he], Or.inr (by omega)⟩

theorem c24_address3 (g : GenericFrame) (f : FrameControlField) (hf : g.frameControlField = .ok f) :
    (g.address3 = .ok none ∧ (f.frameType.hasAddress3 = false ∨ g.bytes.length < 22)) ∨
    (∃ a, g.address3 = .ok (some a) ∧ a.val = slice g.bytes 16 6 ∧ f.frameType.hasAddress3 = true ∧
      22 ≤ g.bytes.length) := by
  simp only [address3, hf, Res.ok_bind]
  cases hk : f.frameType.hasAddress3
  · left; simp
  · by_cases hl : 22 ≤ g.bytes.length
    · obtain ⟨a, ha, ha'⟩ := pread_arr_ok 6 (by decide) 16 g.bytes (by omega)
      right
      exact ⟨a, by simp [readMac, ha], ha', rfl, hl⟩
    · obtain ⟨e, he⟩ := pread_arr_err 6 16 g.bytes (by omega)
      left
      exact ⟨by simp [readMac, he], Or.inr (by omega)⟩

theorem c24_sequence_control (g : GenericFrame) (f : FrameControlField)
    (hf : g.frameControlField = .ok f) :
    (g.sequenceControl = .ok none ∧ (f.frameType.hasSequenceControl = false ∨ g.bytes.length < 24)) ∨
    (∃ s : SequenceControl, g.sequenceControl = .ok (some s) ∧ toLE s.bits = slice g.bytes 22 2 ∧
      f.frameType.hasSequenceControl = true ∧ 24 ≤ g.bytes.length) := by
  simp only [sequenceControl, hf, Res.ok_bind]
  cases hk : f.frameType.hasSequenceControl
  · left; simp
  · by_cases hl : 24 ≤ g.bytes.length
    · obtain ⟨a, ha, ha'⟩ := pread_le_ok 22 g.bytes (by omega)
      right
      exact ⟨⟨a⟩, by simp [ha, Res.map], ha', rfl, hl⟩
    · obtain ⟨e, he⟩ := pread_le_err 22 g.bytes (by omega)
      left
      exact ⟨by simp [he, Res.map], Or.inr (by omega)⟩

omit [ScrollRule] in
/-- Which kinds of frames have which field, against the standard: the third address and sequence control
are right; the second address is left out for trigger, TACK, beamforming report poll, NDP announcement, RTS and CF-End
with ack frames (a violation), and right for exactly the others. -/
theorem c24_kinds (f : FrameControlField) :
    let n := typeNumbers f.frameType
    f.frameType.hasAddress3 = standardHasAddress3 n ∧
    f.frameType.hasSequenceControl = standardHasAddress3 n ∧
    (f.frameType.hasAddress2 = standardHasAddress2 n ↔ ¬ (n.1 = 1 ∧ n.2 ∈ [2, 3, 4, 5, 11, 15])) := by
  have hv := c01_decode_valid (f.frame_type.zeroExtend 8)
  rw [show FrameType.fromBits (f.frame_type.zeroExtend 8) = f.frameType from rfl] at hv
  have hctl : ∀ n < 16, (ControlFrameSubtype.fromBits (BitVec.ofNat 8 n)).hasAddress2 =
      [2, 3, 4, 5, 8, 9, 10, 11, 14, 15].contains n ↔ n ∉ [2, 3, 4, 5, 11, 15] := by decide
  cases ht : f.frameType with
  | Management s => simp [typeNumbers, FrameType.hasAddress3, FrameType.hasSequenceControl,
      FrameType.hasAddress2, standardHasAddress2, standardHasAddress3]
  | Data s => simp [typeNumbers, FrameType.hasAddress3, FrameType.hasSequenceControl,
      FrameType.hasAddress2, standardHasAddress2, standardHasAddress3]
  | Unknown s => simp [typeNumbers, FrameType.hasAddress3, FrameType.hasSequenceControl,
      FrameType.hasAddress2, standardHasAddress2, standardHasAddress3]
  | Control s =>
    rw [ht] at hv
    have := hctl s.intoBits.toNat hv.1
    rw [show BitVec.ofNat 8 s.intoBits.toNat = s.intoBits by simp,
      ControlFrameSubtype.fromBits_intoBits s hv.2] at this
    simpa [typeNumbers, FrameType.hasAddress3, FrameType.hasSequenceControl,
      FrameType.hasAddress2, standardHasAddress2, standardHasAddress3] using this

/-- Nothing panics. -/
theorem c24_safe (g : GenericFrame) (h : 10 ≤ g.bytes.length) :
    g.frameControlField ≠ .panic ∧ g.duration ≠ .panic ∧ g.address1 ≠ .panic ∧
    g.address2 ≠ .panic ∧ g.address3 ≠ .panic ∧ g.sequenceControl ≠ .panic := by
  obtain ⟨f, d, a, hf, _, hd, _, ha, _⟩ := c24_always g h
  refine ⟨by simp [hf], by simp [hd], by simp [ha], ?_, ?_, ?_⟩
  · rcases c24_address2 g f hf with ⟨h, _⟩ | ⟨_, h, _⟩ <;> simp [h]
  · rcases c24_address3 g f hf with ⟨h, _⟩ | ⟨_, h, _⟩ <;> simp [h]
  · rcases c24_sequence_control g f hf with ⟨h, _⟩ | ⟨_, h, _⟩ <;> simp [h]

variable [Crc32]

omit [ScrollRule] [Crc32] in
private theorem fcf_type (f : FrameControlField) (b0 b1 : Byte) (h : toLE f.bits = [b0, b1]) :
    typeNumbers f.frameType = (b0.toNat / 4 % 4, b0.toNat / 16) ∧ f.fcfFlags.bits = b1 := by
  obtain ⟨c, h1, h2⟩ := fcf_of_bytes f.bits
  rw [h1] at h
  simp only [List.cons.injEq, and_true] at h
  exact ⟨by rw [← h.1]; exact h2, h.2⟩

omit [ScrollRule] [Crc32] in
private theorem mgmt_of_type (t : FrameType) (h : (typeNumbers t).1 = 0 ∨ (typeNumbers t).1 = 2) :
    t.hasAddress2 = true ∧ t.hasAddress3 = true ∧ t.hasSequenceControl = true := by
  cases t <;> simp [typeNumbers] at h <;> exact ⟨rfl, rfl, rfl⟩

/-- The accessors on a frame with the layout shared by management and data frames. -/
private theorem accessors (b0 b1 : Byte) (d : BitVec 16) (a1 a2 a3 : Mac) (sc : SequenceControl)
    (rest : Bytes) (bs : Bytes) (ht : b0.toNat / 4 % 4 = 0 ∨ b0.toNat / 4 % 4 = 2)
    (hbs : bs = b0 :: b1 :: (toLE d ++ (a1.val ++ (a2.val ++ (a3.val ++ (toLE sc.bits ++ rest)))))) :
    GenericFrame.new bs false = .ok ⟨bs⟩ ∧
    ∃ f : FrameControlField, (GenericFrame.mk bs).frameControlField = .ok f ∧
      f.fcfFlags.bits = b1 ∧ typeNumbers f.frameType = (b0.toNat / 4 % 4, b0.toNat / 16) ∧
    (GenericFrame.mk bs).duration = .ok d ∧
    (GenericFrame.mk bs).address1 = .ok a1 ∧
    (GenericFrame.mk bs).address2 = .ok (some a2) ∧
    (GenericFrame.mk bs).address3 = .ok (some a3) ∧
    (GenericFrame.mk bs).sequenceControl = .ok (some sc) := by
  have hlen : 24 ≤ bs.length := by rw [hbs]; simp; omega
  obtain ⟨f, d', a, hf, hf', hd, hd', ha, ha'⟩ := c24_always ⟨bs⟩ (by simp only; omega)
  have e0 : slice bs 0 2 = [b0, b1] := by simp [hbs, slice]
  obtain ⟨htn, hfl⟩ := fcf_type f b0 b1 (hf'.trans e0)
  obtain ⟨k2, k3, ks⟩ := mgmt_of_type f.frameType (by rw [htn]; exact ht)
  refine ⟨(c24_new _ _ _).2 ⟨rfl, by simp only; omega⟩, f, hf, hfl, htn, ?_, ?_, ?_, ?_, ?_⟩
  · rw [hd]
    have : slice bs 2 2 = toLE d := by simp [hbs, slice]
    exact congrArg _ (toLE_inj rfl (hd'.trans this))
  · rw [ha]
    have : slice bs 4 6 = a1.val := by simp [hbs, slice]
    exact congrArg _ (Subtype.ext (ha'.trans this))
  · rcases c24_address2 ⟨bs⟩ f hf with ⟨_, h | h⟩ | ⟨x, hx, hx', _⟩
    · rw [k2] at h; simp at h
    · simp only at h; omega
    · rw [hx]
      have : slice bs 10 6 = a2.val := by
        simp [hbs, slice, List.drop_append, List.drop_eq_nil_of_le]
      exact congrArg _ (congrArg _ (Subtype.ext (hx'.trans this)))
  · rcases c24_address3 ⟨bs⟩ f hf with ⟨_, h | h⟩ | ⟨x, hx, hx', _⟩
    · rw [k3] at h; simp at h
    · simp only at h; omega
    · rw [hx]
      have : slice bs 16 6 = a3.val := by
        simp [hbs, slice, List.drop_append, List.drop_eq_nil_of_le]
      exact congrArg _ (congrArg _ (Subtype.ext (hx'.trans this)))
  · rcases c24_sequence_control ⟨bs⟩ f hf with ⟨_, h | h⟩ | ⟨x, hx, hx', _⟩
    · rw [ks] at h; simp at h
    · simp only at h; omega
    · rw [hx]
      have : slice bs 22 2 = toLE sc.bits := by
        simp [hbs, slice, List.drop_append, List.drop_eq_nil_of_le]
      have := toLE_inj rfl (hx'.trans this)
      cases x; cases sc
      simp only at this
      rw [this]

omit [ScrollRule] [Crc32] in
private theorem flags_ext {x y : FCFFlags} (h : x.bits = y.bits) : x = y := by
  cases x; cases y; simpa using h

/-- For a management frame every accessor agrees with the typed parse, whatever the body. -/
theorem c24_mgmt {β : Type} (r : Reader β) (hb : Bounded r) (bs : Bytes) (h : ManagementFrameHeader)
    (b : β) (n : Nat) (hr : readMgmtFrame r false bs = .ok ((h, b), n)) :
    GenericFrame.new bs false = .ok ⟨bs⟩ ∧
    ∃ f : FrameControlField, (GenericFrame.mk bs).frameControlField = .ok f ∧
      f.fcfFlags = h.fcf_flags ∧ (∃ s, f.frameType = .Management s) ∧
    (GenericFrame.mk bs).duration = .ok h.duration ∧
    (GenericFrame.mk bs).address1 = .ok h.receiver_address ∧
    (GenericFrame.mk bs).address2 = .ok (some h.transmitter_address) ∧
    (GenericFrame.mk bs).address3 = .ok (some h.bssid) ∧
    (GenericFrame.mk bs).sequenceControl = .ok (some h.sequence_control) := by
  obtain ⟨b0, body, k, hbs, h0, _⟩ := c23_parse r hb false bs h b n hr
  obtain ⟨h1, f, h2, h3, h4, h5⟩ := accessors b0 h.fcf_flags.bits h.duration h.receiver_address
    h.transmitter_address h.bssid h.sequence_control (optWire h.ht_control ++ body) bs (Or.inl h0)
    (by rw [hbs]; simp [withFcs, mgmtHeaderWire])
  refine ⟨h1, f, h2, flags_ext h3, ?_, h5⟩
  rw [h0] at h4
  cases ht : f.frameType with
  | Management s => exact ⟨s, rfl⟩
  | _ => rw [ht] at h4; simp [typeNumbers] at h4

/-- For a data frame too. -/
theorem c24_data (bs : Bytes) (d : DataFrame Bytes) (n : Nat)
    (hr : readDataFrame false bs = .ok (d, n)) :
    GenericFrame.new bs false = .ok ⟨bs⟩ ∧
    ∃ f : FrameControlField, (GenericFrame.mk bs).frameControlField = .ok f ∧
      f.fcfFlags = d.header.fcf_flags ∧ f.frameType = .Data d.header.subtype ∧
    (GenericFrame.mk bs).duration = .ok d.header.duration ∧
    (GenericFrame.mk bs).address1 = .ok d.header.address_1 ∧
    (GenericFrame.mk bs).address2 = .ok (some d.header.address_2) ∧
    (GenericFrame.mk bs).address3 = .ok (some d.header.address_3) ∧
    (GenericFrame.mk bs).sequenceControl = .ok (some d.header.sequence_control) := by
  obtain ⟨b0, body, hbs, h0, hsub, _, _, hv, _⟩ := c49_parse false bs d n hr
  obtain ⟨h1, f, h2, h3, h4, h5⟩ := accessors b0 d.header.fcf_flags.bits d.header.duration
    d.header.address_1 d.header.address_2 d.header.address_3 d.header.sequence_control
    (optWire d.header.address_4 ++ (optWire d.header.qos ++ (optWire d.header.ht_control ++ body))) bs
    (Or.inr h0) (by rw [hbs]; simp [withFcs, dataHeaderWire])
  refine ⟨h1, f, h2, flags_ext h3, ?_, h5⟩
  rw [h0, hsub] at h4
  have hvf := c01_decode_valid (f.frame_type.zeroExtend 8)
  rw [show FrameType.fromBits (f.frame_type.zeroExtend 8) = f.frameType from rfl] at hvf
  cases ht : f.frameType with
  | Data s =>
    rw [ht] at h4 hvf
    simp only [typeNumbers, Prod.mk.injEq, true_and] at h4
    have := BitVec.eq_of_toNat_eq h4
    rw [← DataFrameSubtype.fromBits_intoBits s hvf.2, this, DataFrameSubtype.fromBits_intoBits _ hv.2]
  | _ => rw [ht] at h4; simp [typeNumbers] at h4

omit [Crc32] in
/-- For a control frame with a typed parse: the first address is the receiver address; there is no third
address and no sequence control. -/
theorem c24_control (bs : Bytes) (hl : 10 ≤ bs.length) (f : FrameControlField)
    (hf : (GenericFrame.mk bs).frameControlField = .ok f) (s : ControlFrameSubtype)
    (hs : f.frameType = .Control s) (c : ControlFrame) (n : Nat)
    (hr : readControlFrame s f.fcfFlags (bs.drop 2) = .ok (c, n)) :
    (GenericFrame.mk bs).address1 = .ok c.receiverAddress ∧
    (GenericFrame.mk bs).address3 = .ok none ∧ (GenericFrame.mk bs).sequenceControl = .ok none ∧
    (∀ fl d ra ta, c = .RTS fl d ra ta ∨ c = .CTS fl d ra ∨ c = .Ack fl d ra →
      (GenericFrame.mk bs).duration = .ok d) := by
  obtain ⟨_, d, a, _, _, hd, hd', ha, ha'⟩ := c24_always ⟨bs⟩ hl
  obtain ⟨rest, hbs, _, hsub, _, hp⟩ := c26_parse _ _ _ _ _ hr
  have e1 : slice bs 4 6 = slice (controlWire c ++ rest) 2 6 := by rw [← hbs]; simp [slice]
  have e2 : slice bs 2 2 = slice (controlWire c ++ rest) 0 2 := by rw [← hbs]; simp [slice]
  simp only at ha' hd'
  have hlen : 8 ≤ (controlWire c ++ rest).length := by rw [← hbs]; simp; omega
  refine ⟨?_, ?_, ?_, ?_⟩
  · rw [ha]
    congr 1
    apply Subtype.ext
    rw [ha', e1]
    by_cases hw : 8 ≤ (controlWire c).length
    · rw [(c26_addresses c).1 hw, slice, List.drop_append_of_le_length (by omega),
        List.take_append_of_le_length (by simp; omega)]
    · cases c with
      | RTS => simp [controlWire] at hw
      | CTS => simp [controlWire] at hw
      | Ack => simp [controlWire] at hw
      | Unknown s' fl body =>
      simp only [ControlFrame.getSubtype] at hsub
      subst hsub
      have := c26_round_trip (.Unknown s' f.fcfFlags (bs.drop 2)) hp
      simp only [ControlFrame.getSubtype, ControlFrame.getFcfFlags, controlWire] at this
      rw [hr] at this
      simp only [Res.ok.injEq, Prod.mk.injEq, ControlFrame.Unknown.injEq] at this
      rw [this.1.2.2] at hw
      simp [controlWire] at hw
      omega
  · simp only [address3, hf, hs, Res.ok_bind, FrameType.hasAddress3, Bool.false_eq_true, if_false]
    rfl
  · simp only [sequenceControl, hf, hs, Res.ok_bind, FrameType.hasSequenceControl, Bool.false_eq_true, if_false]
    rfl
  · intro fl dd ra ta h
    rw [hd]
    congr 1
    rw [e2] at hd'
    apply toLE_inj rfl
    rcases h with rfl | rfl | rfl <;> simpa [slice, controlWire] using hd'

omit [Crc32] in
/-- Violation: the second address of an RTS frame is its transmitter address, but the generic view
returns none. -/
theorem c24_rts_address2 (fl : FCFFlags) (d : BitVec 16) (ra ta : Mac) :
    (GenericFrame.mk (frameStart (.Control .RTS) fl ++ controlWire (.RTS fl d ra ta))).address2 = .ok none ∧
    (ControlFrame.RTS fl d ra ta).transmitterAddress = some ta := by
  refine ⟨?_, rfl⟩
  obtain ⟨f, hf, hb, ht, hg⟩ := fcf_written (.Control .RTS) ⟨by decide, ControlFrameSubtype.canonical_fromBits 11⟩ fl
  obtain ⟨v, hv, hv'⟩ := pread_le_ok 0 (frameStart (.Control .RTS) fl ++ controlWire (.RTS fl d ra ta)) (by simp)
  have : v = (f.withFcfFlags fl).bits := by
    apply toLE_inj rfl
    rw [hv', hb]
    simp [slice, frameStart]
  simp only [address2, frameControlField, hv, this]
  simp only [Res.unwrap, Res.ok_bind]
  rw [show (pure (FrameControlField.mk (f.withFcfFlags fl).bits) : Res FrameControlField) =
    .ok (f.withFcfFlags fl) from rfl]
  simp only [Res.ok_bind, ht]
  rfl

/-- A concrete management frame. -/
example : let m (k : Byte) : Mac := ⟨[k, k, k, k, k, k], rfl⟩
    let g : GenericFrame := ⟨[0xb0, 8, 2, 1, 1, 1, 1, 1, 1, 1, 2, 2, 2, 2, 2, 2, 3, 3, 3, 3, 3, 3, 0x30, 0]⟩
    (g.address1, g.address2, g.address3, g.sequenceControl) =
      (.ok (m 1), .ok (some (m 2)), .ok (some (m 3)), .ok (some ⟨0x30⟩)) ∧
    (GenericFrame.mk (g.bytes.take 20)).address3 = .ok none := by
  cases ‹ScrollRule› with | mk s => cases s <;> decide +kernel

end Verif
