import Verif.Lemmas.Frames
/-!
# C21: management frame header
-/
namespace Verif

namespace Spec

/-- The bytes of a management frame header after the frame control field: duration, three addresses,
sequence control, and HT control if there is one. -/
def mgmtHeaderWire (h : ManagementFrameHeader) : Bytes :=
  toLE h.duration ++ (h.receiver_address.val ++ (h.transmitter_address.val ++ (h.bssid.val ++
    (toLE h.sequence_control.bits ++ optWire h.ht_control))))

/-- The order flag says whether there is an HT control field. -/
def HtConsistent (h : ManagementFrameHeader) : Prop := h.ht_control.isSome = h.fcf_flags.order

end Spec

open Spec

variable [ScrollRule]

omit [ScrollRule] in
/-- Where each field is, counted from the end of the frame control field. -/
theorem c21_offsets (h : ManagementFrameHeader) :
    (mgmtHeaderWire h).take 2 = toLE h.duration ∧
    ((mgmtHeaderWire h).drop 2).take 6 = h.receiver_address.val ∧
    ((mgmtHeaderWire h).drop 8).take 6 = h.transmitter_address.val ∧
    ((mgmtHeaderWire h).drop 14).take 6 = h.bssid.val ∧
    ((mgmtHeaderWire h).drop 20).take 2 = toLE h.sequence_control.bits ∧
    (mgmtHeaderWire h).drop 22 = optWire h.ht_control := by
  simp [mgmtHeaderWire, List.drop_append, List.drop_eq_nil_of_le]

/-- A header is written as exactly these bytes; a buffer that is too small is an error. -/
theorem c21_write (h : ManagementFrameHeader) :
    Emits (writeMgmtHeader h) (mgmtHeaderWire h) (mgmtHeaderWire h).length := by
  apply Emits.cast
  · apply WEmits.run
    wr_steps
    exact WEmits.opt h.ht_control (by decide)
  · rfl
  · simp [mgmtHeaderWire]

omit [ScrollRule] in
/-- The reported length counts the frame control field, which is written separately. -/
theorem c21_length (h : ManagementFrameHeader) : h.lengthInBytes = 2 + (mgmtHeaderWire h).length := by
  cases hh : h.ht_control <;> simp [ManagementFrameHeader.lengthInBytes, mgmtHeaderWire, hh]

/-- Reading needs 22 bytes, or 26 with the order flag: with fewer it errs, with as many it succeeds and
consumes as many. -/
theorem c21_fixed (f : FCFFlags) : FixedReader (readMgmtHeader f) (22 + if f.order then 4 else 0) := by
  apply Rd.Fixed.run
  apply Rd.Fixed.cast
  · rd_fixed
    apply Rd.Fixed.bind (Rd.Fixed.opt (readArr_fixed 4) (by decide)); intro _
    exact Rd.Fixed.pure
  · cases f.order <;> rfl

/-- Whatever is read is the wire form of the result, and the order flag decides about HT control. -/
theorem c21_parse (f : FCFFlags) (inp : Bytes) (h : ManagementFrameHeader) (n : Nat)
    (hr : readMgmtHeader f inp = .ok (h, n)) :
    ∃ rest, inp = mgmtHeaderWire h ++ rest ∧ n = (mgmtHeaderWire h).length ∧ h.fcf_flags = f ∧
      HtConsistent h := by
  have hp : ParsesR (readMgmtHeader f) (fun h bs _ => bs = mgmtHeaderWire h ∧ h.fcf_flags = f ∧
      HtConsistent h) := by
    apply Parses.run
    refine Parses.imp
      (Parses.bind (Parses.gread' (readLE_parses 16 rfl)) fun _ =>
       Parses.bind (Parses.gread' (readArr_parses 6)) fun _ =>
       Parses.bind (Parses.gread' (readArr_parses 6)) fun _ =>
       Parses.bind (Parses.gread' (readArr_parses 6)) fun _ =>
       Parses.bind (Parses.gread' (readLE_parses 16 rfl)) fun _ =>
       Parses.bind Parses.opt fun _ => Parses.pure) ?_
    rintro h bs rest ⟨d, _, _, rfl, rfl, ra, _, _, rfl, rfl, ta, _, _, rfl, rfl, b, _, _, rfl, rfl,
      s, _, _, rfl, rfl, ht, _, _, rfl, ⟨ho, rfl⟩, rfl, rfl⟩
    simp [mgmtHeaderWire, HtConsistent, ho]
  obtain ⟨bs, rest, rfl, rfl, rfl, h2, h3⟩ := hp inp h n hr
  exact ⟨rest, rfl, rfl, h2, h3⟩

/-- Reading what was written returns the same header, provided the order flag says whether there is an
HT control field; whatever follows is ignored. -/
theorem c21_round_trip_partial (h : ManagementFrameHeader) (hc : HtConsistent h) (rest : Bytes) :
    readMgmtHeader h.fcf_flags (mgmtHeaderWire h ++ rest) = .ok (h, (mgmtHeaderWire h).length) := by
  have hs := slack_le
  obtain ⟨f, d, ra, ta, b, s, ht⟩ := h
  simp only [mgmtHeaderWire, List.append_assoc]
  apply RdAt.run
  apply RdAt.cast
  · rd_steps
    exact RdAt.optI hc RdAt.pure (by decide)
  · simp

omit [ScrollRule] in
/-- Violation: the HT control field is written whether or not the order flag is set, so a header with
HT control and without the order flag is not read back. -/
theorem c21_round_trip_wrong : ¬ ∀ (_ : ScrollRule) (h : ManagementFrameHeader),
    readMgmtHeader h.fcf_flags (mgmtHeaderWire h) = .ok (h, (mgmtHeaderWire h).length) := by
  intro h
  let m : Mac := ⟨[1, 2, 3, 4, 5, 6], rfl⟩
  have := h ⟨true⟩ ⟨⟨0⟩, 0, m, m, m, ⟨0⟩, some ⟨[1, 2, 3, 4], rfl⟩⟩
  revert this
  decide

omit [ScrollRule] in
/-- Violation: a header with the order flag and without HT control is written without the field, and
what follows is read as HT control. -/
theorem c21_order_without_ht : ∃ (h : ManagementFrameHeader) (rest : Bytes),
    ∀ _ : ScrollRule, ∃ h', readMgmtHeader h.fcf_flags (mgmtHeaderWire h ++ rest) = .ok (h', 26) ∧
      h.ht_control = none ∧ (h'.ht_control.map (·.val)) = some rest := by
  let m : Mac := ⟨[1, 2, 3, 4, 5, 6], rfl⟩
  refine ⟨⟨⟨0x80⟩, 0, m, m, m, ⟨0⟩, none⟩, [9, 8, 7, 6], ?_⟩
  intro s
  refine ⟨⟨⟨0x80⟩, 0, m, m, m, ⟨0⟩, some ⟨[9, 8, 7, 6], rfl⟩⟩, ?_, rfl, rfl⟩
  cases s with | mk s => cases s <;> decide

/-- Concrete case: a consistent header with HT control. -/
example : HtConsistent ⟨⟨0x88⟩, 314, ⟨[1, 2, 3, 4, 5, 6], rfl⟩, ⟨[2, 2, 3, 4, 5, 6], rfl⟩,
    ⟨[3, 2, 3, 4, 5, 6], rfl⟩, ⟨0x1230⟩, some ⟨[9, 8, 7, 6], rfl⟩⟩ ∧
    mgmtHeaderWire ⟨⟨0x88⟩, 314, ⟨[1, 2, 3, 4, 5, 6], rfl⟩, ⟨[2, 2, 3, 4, 5, 6], rfl⟩,
    ⟨[3, 2, 3, 4, 5, 6], rfl⟩, ⟨0x1230⟩, some ⟨[9, 8, 7, 6], rfl⟩⟩ =
    [0x3a, 0x01, 1, 2, 3, 4, 5, 6, 2, 2, 3, 4, 5, 6, 3, 2, 3, 4, 5, 6, 0x30, 0x12, 9, 8, 7, 6] := by
  unfold HtConsistent
  decide

end Verif
