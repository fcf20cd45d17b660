import Verif.Props.C26
import Verif.Props.C49
import Verif.Props.C65
/-!
# C103: a reserved medium is left alone

Two stations reserve the medium for a data frame: RTS, CTS, the frame and its acknowledgement, each of which says how much
longer the exchange takes.  Every other station that hears any of these keeps silent until the end, and the two themselves
are not blocked (10.3.2.4, 10.3.2.9 of the standard).  The stations are not in the crate; they are written here with its
functions.  Times are in microseconds; propagation is left out.
-/
namespace Verif

namespace Spec

/-! ## The rule of the standard, in octets -/

/-- Until when a station keeps silent after a frame that ended at `t` (10.3.2.4): the duration is in octets 2 and 3 unless
bit 15 is set (9.2.4.2), and does not count for the station the frame is for, whose address follows. -/
def navRule (me : Bytes) (nav t : Nat) (frame : Bytes) : Nat :=
  let duration := (frame.getD 2 0).toNat + 256 * (frame.getD 3 0).toNat
  if 10 ≤ frame.length ∧ duration < 32768 ∧ (frame.drop 4).take 6 ≠ me then max nav (t + duration) else nav

variable [ScrollRule] [Crc32]

/-! ## The stations -/

/-- The time until which a station keeps silent, after one more frame. -/
def keepNav (me : Mac) (fcs : Bool) (nav t : Nat) (bytes : Bytes) : Res Nat :=
  match GenericFrame.new bytes fcs with
  | .panic => .panic
  | .err _ => .ok nav
  | .ok g => do
    let d ← g.duration
    let to ← g.address1
    pure (if d.toNat < 32768 ∧ to ≠ me then max nav (t + d.toNat) else nav)

/-- After several frames. -/
def keepNavs (me : Mac) (fcs : Bool) : Nat → List (Nat × Bytes) → Res Nat
  | nav, [] => .ok nav
  | nav, x :: l => do
    let nav ← keepNav me fcs nav x.1 x.2
    keepNavs me fcs nav l

/-- A control frame, by the functions of the crate: the frame control field, then the rest.  The check sequence is the
hardware's. -/
def sendControl (fcs : Bool) (buf : Bytes) (c : ControlFrame) : Res Bytes := do
  let f ← c.getFcf
  let (out, n) ← Wr.run (do
    Wr.gwrite (writeLE f.bits)
    Wr.gwrite (writeControlFrame c)) buf
  pure (withFcs fcs (out.take n))

/-- A control frame that is heard. -/
def heardControl (fcs : Bool) (bytes : Bytes) : Res (Option ControlFrame) :=
  match GenericFrame.new bytes fcs with
  | .panic => .panic
  | .err _ => .ok none
  | .ok g => do
    let f ← g.frameControlField
    match f.frameType with
    | .Control s =>
      match pread (readControlFrame s f.fcfFlags) 2 g.bytes with
      | .panic => .panic
      | .err _ => .ok none
      | .ok c => .ok (some c)
    | _ => .ok none

omit [ScrollRule] [Crc32] in
/-- An exchange: the header of the data frame, from its second to its first address; the time when the RTS has been sent, the
space between frames, and how long the other frames take. -/
structure Reserved where
  fcs : Bool
  header : DataFrameHeader
  payload : Option Bytes
  start : Nat
  space : Nat
  ctsTime : Nat
  dataTime : Nat
  ackTime : Nat

omit [ScrollRule] [Crc32] in
/-- How long the exchange takes after the RTS. -/
def Reserved.rest (r : Reserved) : Nat := 3 * r.space + r.ctsTime + r.dataTime + r.ackTime

/-- What the receiver answers to an RTS. -/
def Reserved.answerRts (r : Reserved) (buf bytes : Bytes) : Res (Option Bytes) := do
  match ← heardControl r.fcs bytes with
  | some (.RTS _ d to from_) =>
    if to = r.header.address_1 then do
      let b ← sendControl r.fcs buf (.CTS ⟨0⟩ (BitVec.ofNat 16 (d.toNat - r.space - r.ctsTime)) from_)
      pure (some b)
    else pure none
  | _ => pure none

/-- What it answers to a data frame. -/
def Reserved.answerData (r : Reserved) (buf bytes : Bytes) : Res (Option Bytes) :=
  match matchFrames bytes (if r.fcs then some true else none) [armOf dataFrameKind readDataFrame id] with
  | .panic => .panic
  | .err _ => .ok none
  | .ok (_, f) => do
    if f.header.address_1 = r.header.address_1 then do
      let b ← sendControl r.fcs buf
        (.Ack ⟨0⟩ (BitVec.ofNat 16 (f.header.duration.toNat - r.space - r.ackTime)) f.header.address_2)
      pure (some b)
    else pure none

/-- The whole exchange: frames and the times when they end.  The sender goes on when it gets what it expects. -/
def Reserved.exchange (r : Reserved) (buf : Bytes) : Res (List (Nat × Bytes)) := do
  let rts ← sendControl r.fcs buf (.RTS ⟨0⟩ (BitVec.ofNat 16 r.rest) r.header.address_1 r.header.address_2)
  let sent := [(r.start, rts)]
  match ← r.answerRts buf rts with
  | none => pure sent
  | some cts =>
    let sent := sent ++ [(r.start + (r.space + r.ctsTime), cts)]
    match ← heardControl r.fcs cts with
    | some (.CTS _ _ to) =>
      if to = r.header.address_2 then do
        let (out, n) ← writeDataFrame ⟨{ r.header with duration := BitVec.ofNat 16 (r.space + r.ackTime) },
          r.payload.map bytesObj⟩ r.fcs buf
        let sent := sent ++ [(r.start + (r.space + r.ctsTime) + (r.space + r.dataTime), out.take n)]
        match ← r.answerData buf (out.take n) with
        | none => pure sent
        | some ack => pure (sent ++ [(r.start + r.rest, ack)])
      else pure sent
    | _ => pure sent

omit [ScrollRule] [Crc32] in
/-- The data frame can be written and read, and the exchange is not longer than what can be reserved. -/
structure Reserved.Fine (r : Reserved) : Prop where
  valid : ValidData r.header
  consistent : HeaderConsistent r.header
  payload : r.payload.isSome ↔ payloadSubtype r.header.subtype
  fits : r.rest < 32768

end Spec

open Spec

variable [ScrollRule] [Crc32]

/-! ## One frame -/

/-- Whatever is received: the rule of the standard is followed; frames that are too short, or whose check sequence is wrong,
change nothing. -/
theorem c103_exact (me : Mac) (fcs : Bool) (nav t : Nat) (bytes : Bytes) :
    (∀ frame, bytes = withFcs fcs frame → keepNav me fcs nav t bytes = .ok (navRule me.val nav t frame)) ∧
    ((∀ frame, bytes ≠ withFcs fcs frame) → ¬ (fcs = true ∧ bytes.length < 4) → keepNav me fcs nav t bytes = .ok nav) := by
  have hnew := c24_new bytes fcs
  have hpan := c24_new_panics_iff bytes fcs
  constructor
  · intro frame hb
    by_cases hl : 10 ≤ frame.length
    · have hg : GenericFrame.new bytes fcs = .ok ⟨frame⟩ := (hnew ⟨frame⟩).2 ⟨hb, hl⟩
      obtain ⟨f, d, a, -, -, h1, h2, h3, h4⟩ := c24_always ⟨frame⟩ hl
      unfold keepNav
      rw [hg]
      simp only [h1, h3, Res.ok_bind]
      have hd : d.toNat = (frame.getD 2 0).toNat + 256 * (frame.getD 3 0).toNat := by
        match frame, hl with
        | b0 :: b1 :: b2 :: b3 :: rest, _ =>
          simp only [slice, List.drop_succ_cons, List.drop_zero, List.take_succ_cons, List.take_zero] at h2
          have : d = fromLE 16 [b2, b3] := by rw [← h2, fromLE_toLE rfl]
          rw [this]
          have h2 := b2.isLt
          have h3 := b3.isLt
          simp [fromLE, leNat]
          omega
      have ha : (a ≠ me) = ((frame.drop 4).take 6 ≠ me.val) := by
        rw [show (frame.drop 4).take 6 = a.val from h4.symm]
        exact propext ⟨fun h e => h (Subtype.ext e), fun h e => h (by rw [e])⟩
      simp only [navRule, hd, ha, hl, true_and]
      rfl
    · have hr : navRule me.val nav t frame = nav := by
        rw [navRule]
        exact if_neg (fun h => hl h.1)
      rw [hr]
      unfold keepNav
      cases hg : GenericFrame.new bytes fcs with
      | panic =>
        exfalso
        obtain ⟨rfl, h⟩ := hpan.1 hg
        rw [hb] at h
        simp [withFcs] at h
        omega
      | err e => rfl
      | ok g =>
        exfalso
        obtain ⟨h1, h2⟩ := (hnew g).1 hg
        rw [hb] at h1
        have := congrArg List.length h1
        cases fcs <;> simp [withFcs] at this <;> omega
  · intro hn hp
    unfold keepNav
    cases hg : GenericFrame.new bytes fcs with
    | panic => exact absurd (hpan.1 hg) hp
    | err e => rfl
    | ok g => exact absurd ((hnew g).1 hg).1 (hn _)

/-- Nothing panics, unless a check sequence is expected in fewer than four bytes. -/
theorem c103_panics_iff (me : Mac) (fcs : Bool) (nav t : Nat) (bytes : Bytes) :
    keepNav me fcs nav t bytes = .panic ↔ fcs = true ∧ bytes.length < 4 := by
  constructor
  · intro h
    by_cases hf : ∃ frame, bytes = withFcs fcs frame
    · obtain ⟨frame, hf⟩ := hf
      rw [(c103_exact me fcs nav t bytes).1 frame hf] at h
      cases h
    · by_cases hp : fcs = true ∧ bytes.length < 4
      · exact hp
      · rw [(c103_exact me fcs nav t bytes).2 (fun frame h => hf ⟨frame, h⟩) hp] at h
        cases h
  · intro h
    unfold keepNav
    rw [(c24_new_panics_iff bytes fcs).2 h]

/-- A frame with these octets. -/
private theorem nav_of (me : Mac) (fcs : Bool) (nav t : Nat) (b0 b1 : Byte) (d : BitVec 16) (to : Mac) (rest : Bytes) :
    keepNav me fcs nav t (withFcs fcs (b0 :: b1 :: (toLE d ++ (to.val ++ rest)))) =
      .ok (if d.toNat < 32768 ∧ to ≠ me then max nav (t + d.toNat) else nav) := by
  rw [(c103_exact me fcs nav t _).1 _ rfl]
  have hd : d.toNat = (BitVec.ofNat 8 d.toNat).toNat + 256 * (BitVec.ofNat 8 (d.toNat / 256)).toNat := by
    have := d.isLt
    simp
    omega
  have e : toLE d = [BitVec.ofNat 8 d.toNat, BitVec.ofNat 8 (d.toNat / 256)] := rfl
  have ha : (to ≠ me) = (to.val ≠ me.val) :=
    propext ⟨fun h e => h (Subtype.ext e), fun h e => h (by rw [e])⟩
  have ht : (to.val ++ rest).take 6 = to.val := List.take_left' (by simp)
  have hl : 10 ≤ (b0 :: b1 :: (toLE d ++ (to.val ++ rest))).length := by simp; omega
  simp only [navRule, hl, true_and, ha]
  rw [e]
  simp only [List.cons_append, List.nil_append, List.getD_cons_succ, List.getD_cons_zero, List.drop_succ_cons, List.drop_zero,
    ht, ← hd]

/-- A control frame as it is sent, and that it is heard. -/
private theorem control_sent (fcs : Bool) (buf : Bytes) (c : ControlFrame) (hv : ValidFrameType (.Control c.getSubtype))
    (hp : ProperControl c) (hl : 8 ≤ (controlWire c).length) (hb : 2 + (controlWire c).length ≤ buf.length) :
    ∃ b0 b1, sendControl fcs buf c = .ok (withFcs fcs (b0 :: b1 :: controlWire c)) ∧
      heardControl fcs (withFcs fcs (b0 :: b1 :: controlWire c)) = .ok (some c) := by
  have hs := slack_le
  obtain ⟨f, h1, h2, h3, h4⟩ := c26_fcf c hv
  have hE : Emits (Wr.run (do
      Wr.gwrite (writeLE f.bits)
      Wr.gwrite (writeControlFrame c))) (toLE f.bits ++ controlWire c) (2 + (controlWire c).length) := by
    apply Emits.cast
    · apply WEmits.run
      wr_steps
      exact WEmits.gwrite_pos (c26_write c) (by omega)
    · rfl
    · simp
      omega
  obtain ⟨b0, b1, hbs⟩ : ∃ b0 b1, toLE f.bits = [b0, b1] := ⟨_, _, rfl⟩
  refine ⟨b0, b1, ?_, ?_⟩
  · simp only [sendControl, h1, Res.ok_bind, hE.ok buf hb]
    rw [List.take_left' (by simp), hbs]
    rfl
  · have hlen : 10 ≤ (b0 :: b1 :: controlWire c).length := by simp; omega
    have hg := (c24_new (withFcs fcs (b0 :: b1 :: controlWire c)) fcs ⟨b0 :: b1 :: controlWire c⟩).2 ⟨rfl, hlen⟩
    obtain ⟨c0, c1, rest, f', hcs, hf, hb', -, -, -⟩ := generic_fcf_cons _ hlen
    obtain ⟨rfl, rfl, rfl⟩ : b0 = c0 ∧ b1 = c1 ∧ controlWire c = rest := by simpa using hcs
    have hff : f' = f := by
      obtain ⟨x⟩ := f'
      obtain ⟨y⟩ := f
      have : toLE x = toLE y := hb'.trans hbs.symm
      have := congrArg (fromLE 16) this
      rw [fromLE_toLE rfl, fromLE_toLE rfl] at this
      rw [this]
    subst hff
    unfold heardControl
    rw [hg]
    simp only [hf, Res.ok_bind, h2, h3]
    have : pread (readControlFrame c.getSubtype c.getFcfFlags) 2 (b0 :: b1 :: controlWire c) = .ok c := by
      simp only [pread, Rd.gread, badOff_eq]
      rw [if_neg (by simp; omega)]
      simp only [List.drop_succ_cons, List.drop_zero, c26_round_trip c hp]
      rfl
    rw [this]

/-- A PS-Poll has an association ID in the place of the duration; it reserves nothing. -/
theorem c103_poll (fcs : Bool) (buf : Bytes) (ap from_ : Mac) (x : BitVec 16) (a : AssociationID)
    (h : AssociationID.newChecked x = some a) (hb : 16 ≤ buf.length) :
    ∃ b, sendControl fcs buf (.Unknown .PSPoll ⟨0⟩ (toLE a.intoBits ++ (ap.val ++ from_.val))) = .ok b ∧
      ∀ me nav t, keepNav me fcs nav t b = .ok nav := by
  obtain ⟨b0, b1, h1, -⟩ := control_sent fcs buf (.Unknown .PSPoll ⟨0⟩ (toLE a.intoBits ++ (ap.val ++ from_.val)))
    (show ValidFrameType (.Control .PSPoll) from ⟨by decide, fun v hv => by cases hv⟩) ⟨by decide, by decide, by decide⟩
    (by simp [controlWire]) (by simp [controlWire]; omega)
  refine ⟨_, h1, fun me nav t => ?_⟩
  have hbits := (c04_new_checked _ _).1 h
  show keepNav me fcs nav t (withFcs fcs (b0 :: b1 :: (toLE a.intoBits ++ (ap.val ++ from_.val)))) = _
  rw [nav_of, if_neg]
  omega

/-- Violation: `duration` says that all frames have one.  For each such poll it gives the association ID, as 49153
microseconds or more; the caller must look at bit 15, or at the subtype, to find out. -/
theorem c103_duration_wrong (fcs : Bool) (buf : Bytes) (ap from_ : Mac) (x : BitVec 16) (a : AssociationID)
    (h : AssociationID.newChecked x = some a) (hb : 16 ≤ buf.length) :
    ∃ b g d, sendControl fcs buf (.Unknown .PSPoll ⟨0⟩ (toLE a.intoBits ++ (ap.val ++ from_.val))) = .ok b ∧
      GenericFrame.new b fcs = .ok g ∧ g.duration = .ok d ∧ d = a.intoBits ∧ 49153 ≤ d.toNat := by
  obtain ⟨b0, b1, h1, -⟩ := control_sent fcs buf (.Unknown .PSPoll ⟨0⟩ (toLE a.intoBits ++ (ap.val ++ from_.val)))
    (show ValidFrameType (.Control .PSPoll) from ⟨by decide, fun v hv => by cases hv⟩) ⟨by decide, by decide, by decide⟩
    (by simp [controlWire]) (by simp [controlWire]; omega)
  have hl : 10 ≤ (b0 :: b1 :: (toLE a.intoBits ++ (ap.val ++ from_.val))).length := by simp
  have hg := (c24_new _ fcs ⟨b0 :: b1 :: (toLE a.intoBits ++ (ap.val ++ from_.val))⟩).2 ⟨rfl, hl⟩
  obtain ⟨f, d, t, -, -, hd, hv, -, -⟩ := c24_always ⟨b0 :: b1 :: (toLE a.intoBits ++ (ap.val ++ from_.val))⟩ hl
  have e : d = a.intoBits := by
    have : toLE d = toLE a.intoBits := hv
    have := congrArg (fromLE 16) this
    rwa [fromLE_toLE rfl, fromLE_toLE rfl] at this
  refine ⟨_, _, d, h1, hg, hd, e, ?_⟩
  have hbits := (c04_new_checked _ _).1 h
  rw [e]
  omega

/-! ## The exchange -/

/-- The data frame as it is sent, and that it is heard. -/
private theorem data_sent (h : DataFrameHeader) (payload : Option Bytes) (hv : ValidData h) (hc : HeaderConsistent h)
    (hp : payload.isSome ↔ payloadSubtype h.subtype) (fcs : Bool) :
    ∃ size b0 b1, ∀ buf : Bytes, size ≤ buf.length → ∃ out n,
      writeDataFrame ⟨h, payload.map bytesObj⟩ fcs buf = .ok (out, n) ∧
      out.take n = withFcs fcs (b0 :: b1 :: (toLE h.duration ++ (h.address_1.val ++ (h.address_2.val ++
        (h.address_3.val ++ (toLE h.sequence_control.bits ++ (optWire h.address_4 ++ (optWire h.qos ++
          optWire h.ht_control))))) ++ payload.getD []))) ∧
      matchFrames (out.take n) (if fcs then some true else none) [armOf dataFrameKind readDataFrame id] =
        .ok (0, ⟨h, payload⟩) := by
  obtain ⟨size, hd⟩ := c65_data_partial ⟨h, payload.map bytesObj⟩ hv hc (by
      show (payload.map bytesObj).isSome ↔ _
      rw [Option.isSome_map]
      exact hp) payload (by
      cases payload with
      | none => trivial
      | some p => exact ⟨_, Emits.bytes p⟩) fcs id [] [] (by simp)
  have hE : ∃ k, Emits (writeDataFrame ⟨h, payload.map bytesObj⟩ fcs)
      (withFcs fcs (dataFrameWire h (payload.getD []))) k := by
    cases payload with
    | none => exact ⟨_, c49_write ⟨h, none⟩ hv [] 0 ⟨rfl, rfl⟩ fcs⟩
    | some p => exact ⟨_, c49_write ⟨h, some (bytesObj p)⟩ hv p _ ⟨_, Emits.bytes p, rfl⟩ fcs⟩
  obtain ⟨k, hE⟩ := hE
  obtain ⟨x0, x1, hfs⟩ : ∃ x0 x1, frameStart (.Data h.subtype) h.fcf_flags = [x0, x1] := ⟨_, _, rfl⟩
  refine ⟨max size k, x0, x1, fun buf hb => ?_⟩
  obtain ⟨out, n, hw, hm⟩ := hd buf (by omega)
  refine ⟨out, n, hw, ?_, hm⟩
  have := hw.symm.trans (hE.ok buf (by omega))
  injection this with this
  injection this with h1 h2
  rw [h1, h2, List.take_left, dataFrameWire, hfs, dataHeaderWire]
  simp only [List.append_assoc, List.cons_append, List.nil_append]

/-- The exchange takes place, and what each of its four frames does to a station that hears it: nothing, if the frame is for
the station; otherwise the station keeps silent until the end of the whole exchange. -/
theorem c103_exchange (r : Reserved) (hr : r.Fine) :
    ∃ size, ∀ buf : Bytes, size ≤ buf.length → ∃ rts cts data ack,
      r.exchange buf = .ok [(r.start, rts), (r.start + (r.space + r.ctsTime), cts),
        (r.start + (r.space + r.ctsTime) + (r.space + r.dataTime), data), (r.start + r.rest, ack)] ∧
      (∀ me nav, keepNav me r.fcs nav r.start rts =
        .ok (if me = r.header.address_1 then nav else max nav (r.start + r.rest))) ∧
      (∀ me nav, keepNav me r.fcs nav (r.start + (r.space + r.ctsTime)) cts =
        .ok (if me = r.header.address_2 then nav else max nav (r.start + r.rest))) ∧
      (∀ me nav, keepNav me r.fcs nav (r.start + (r.space + r.ctsTime) + (r.space + r.dataTime)) data =
        .ok (if me = r.header.address_1 then nav else max nav (r.start + r.rest))) ∧
      (∀ me nav, keepNav me r.fcs nav (r.start + r.rest) ack =
        .ok (if me = r.header.address_2 then nav else max nav (r.start + r.rest))) := by
  have hfit := hr.fits
  have hrest : r.rest = 3 * r.space + r.ctsTime + r.dataTime + r.ackTime := rfl
  obtain ⟨size, x0, x1, hd⟩ := data_sent { r.header with duration := BitVec.ofNat 16 (r.space + r.ackTime) } r.payload
    hr.valid ⟨hr.consistent.1, hr.consistent.2, hr.consistent.3⟩ hr.payload r.fcs
  refine ⟨max size 16, fun buf hb => ?_⟩
  obtain ⟨out, n, hw, hout, hm⟩ := hd buf (by omega)
  -- the control frames
  have vR : ValidFrameType (.Control .RTS) := ⟨by decide, fun v hv => by cases hv⟩
  have vC : ValidFrameType (.Control .CTS) := ⟨by decide, fun v hv => by cases hv⟩
  have vA : ValidFrameType (.Control .Ack) := ⟨by decide, fun v hv => by cases hv⟩
  have e1 : (BitVec.ofNat 16 r.rest).toNat = r.rest := by simp; omega
  have e2 : (BitVec.ofNat 16 (r.space + r.ackTime)).toNat = r.space + r.ackTime := by simp; omega
  have e3 : (BitVec.ofNat 16 (r.rest - r.space - r.ctsTime)).toNat = r.rest - r.space - r.ctsTime := by simp; omega
  have e4 : (BitVec.ofNat 16 (r.space + r.ackTime - r.space - r.ackTime)).toNat = 0 := by
    rw [show r.space + r.ackTime - r.space - r.ackTime = 0 by omega]
    rfl
  obtain ⟨a0, a1, hr1, hr2⟩ := control_sent r.fcs buf
    (.RTS ⟨0⟩ (BitVec.ofNat 16 r.rest) r.header.address_1 r.header.address_2) vR trivial
    (by simp [controlWire]) (by simp [controlWire]; omega)
  obtain ⟨c0, c1, hc1, hc2⟩ := control_sent r.fcs buf
    (.CTS ⟨0⟩ (BitVec.ofNat 16 (r.rest - r.space - r.ctsTime)) r.header.address_2) vC trivial
    (by simp [controlWire]) (by simp [controlWire]; omega)
  obtain ⟨k0, k1, hk1, hk2⟩ := control_sent r.fcs buf
    (.Ack ⟨0⟩ (BitVec.ofNat 16 (r.space + r.ackTime - r.space - r.ackTime)) r.header.address_2)
    vA trivial (by simp [controlWire]) (by simp [controlWire]; omega)
  have hA : r.answerRts buf (withFcs r.fcs (a0 :: a1 :: controlWire
      (.RTS ⟨0⟩ (BitVec.ofNat 16 r.rest) r.header.address_1 r.header.address_2))) =
      .ok (some (withFcs r.fcs (c0 :: c1 :: controlWire
        (.CTS ⟨0⟩ (BitVec.ofNat 16 (r.rest - r.space - r.ctsTime)) r.header.address_2)))) := by
    unfold Reserved.answerRts
    rw [hr2]
    simp only [Res.ok_bind, if_true, e1, hc1]
    rfl
  have hD : r.answerData buf (out.take n) =
      .ok (some (withFcs r.fcs (k0 :: k1 :: controlWire
        (.Ack ⟨0⟩ (BitVec.ofNat 16 (r.space + r.ackTime - r.space - r.ackTime)) r.header.address_2)))) := by
    unfold Reserved.answerData
    rw [hm]
    simp only [if_true, e2, hk1, Res.ok_bind]
    rfl
  have flip : ∀ (me to : Mac) (nav x y : Nat) (d : Nat), d < 32768 → x + d = y →
      (if d < 32768 ∧ to ≠ me then max nav (x + d) else nav) = if me = to then nav else max nav y := by
    intro me to nav x y d h1 h2
    subst h2
    by_cases e : me = to
    · rw [if_pos e, if_neg (fun h => h.2 e.symm)]
    · rw [if_neg e, if_pos ⟨h1, fun h => e h.symm⟩]
  refine ⟨_, _, out.take n, _, ?_, fun me nav => (nav_of me r.fcs nav _ a0 a1 (BitVec.ofNat 16 r.rest) r.header.address_1
      r.header.address_2.val).trans ?_, fun me nav => (nav_of me r.fcs nav _ c0 c1
      (BitVec.ofNat 16 (r.rest - r.space - r.ctsTime)) r.header.address_2 []).trans ?_, fun me nav => ?_,
    fun me nav => (nav_of me r.fcs nav _ k0 k1
      (BitVec.ofNat 16 (r.space + r.ackTime - r.space - r.ackTime)) r.header.address_2 []).trans ?_⟩
  · simp only [List.append_nil]
    unfold Reserved.exchange
    rw [hr1]
    simp only [Res.ok_bind]
    erw [hA]
    simp only [Res.ok_bind]
    rw [hc2]
    simp only [Res.ok_bind, if_true, hw]
    rw [hD]
    rfl
  · rw [e1, flip _ _ _ _ _ _ hfit rfl]
  · rw [e3, flip _ _ _ _ (r.start + r.rest) _ (by omega) (by omega)]
  · rw [hout, List.append_assoc, nav_of]
    show Res.ok (if (BitVec.ofNat 16 (r.space + r.ackTime)).toNat < 32768 ∧ r.header.address_1 ≠ me then
      max nav (_ + (BitVec.ofNat 16 (r.space + r.ackTime)).toNat) else nav) = _
    rw [e2, flip _ _ _ _ (r.start + r.rest) _ (by omega) (by omega)]
  · rw [e4, flip _ _ _ _ (r.start + r.rest) _ (by omega) (by omega)]

/-- Several frames that have the same effect each. -/
private theorem navs_same (me : Mac) (fcs : Bool) (f : Nat → Nat) (hf : ∀ nav, f (f nav) = f nav) (l : List (Nat × Bytes))
    (h : ∀ x ∈ l, ∀ nav, keepNav me fcs nav x.1 x.2 = .ok (f nav)) (nav : Nat) :
    keepNavs me fcs nav l = .ok (if l = [] then nav else f nav) := by
  induction l generalizing nav with
  | nil => rfl
  | cons x l ih =>
    show (keepNav me fcs nav x.1 x.2).bind _ = _
    rw [h x (.head _)]
    show keepNavs me fcs (f nav) l = _
    rw [ih (fun y hy => h y (.tail _ hy))]
    by_cases e : l = [] <;> simp [e, hf]

/-- Any other station: whichever of the four frames it hears, as long as it is at least one, it keeps silent until the exchange
is over, or longer if it had to anyway. -/
theorem c103_bystander (r : Reserved) (hr : r.Fine) (me : Mac) (h1 : me ≠ r.header.address_1) (h2 : me ≠ r.header.address_2) :
    ∃ size, ∀ buf : Bytes, size ≤ buf.length → ∃ frames, r.exchange buf = .ok frames ∧ frames.length = 4 ∧
      ∀ heard, heard.Sublist frames → heard ≠ [] → ∀ nav,
        keepNavs me r.fcs nav heard = .ok (max nav (r.start + r.rest)) := by
  obtain ⟨size, h⟩ := c103_exchange r hr
  refine ⟨size, fun buf hb => ?_⟩
  obtain ⟨a, b, c, d, he, ha, hb, hc, hd⟩ := h buf hb
  refine ⟨_, he, rfl, fun heard hs hne nav => ?_⟩
  rw [navs_same me r.fcs (fun nav => max nav (r.start + r.rest)) (fun nav => by omega) heard ?_ nav, if_neg hne]
  intro x hx nav
  have hx := hs.subset hx
  simp only [List.mem_cons, List.not_mem_nil, or_false] at hx
  rcases hx with rfl | rfl | rfl | rfl
  · exact (ha me nav).trans (by rw [if_neg h1])
  · exact (hb me nav).trans (by rw [if_neg h2])
  · exact (hc me nav).trans (by rw [if_neg h1])
  · exact (hd me nav).trans (by rw [if_neg h2])

/-- The two stations themselves are not blocked by what they hear from each other. -/
theorem c103_parties (r : Reserved) (hr : r.Fine) :
    ∃ size, ∀ buf : Bytes, size ≤ buf.length → ∃ rts cts data ack, r.exchange buf = .ok [rts, cts, data, ack] ∧
      ∀ nav, keepNavs r.header.address_2 r.fcs nav [cts, ack] = .ok nav ∧
        keepNavs r.header.address_1 r.fcs nav [rts, data] = .ok nav := by
  obtain ⟨size, h⟩ := c103_exchange r hr
  refine ⟨size, fun buf hb => ?_⟩
  obtain ⟨a, b, c, d, he, ha, hb, hc, hd⟩ := h buf hb
  refine ⟨_, _, _, _, he, fun nav => ⟨?_, ?_⟩⟩
  · rw [navs_same _ r.fcs id (fun _ => rfl)]
    · rfl
    · intro x hx nav
      simp only [List.mem_cons, List.not_mem_nil, or_false] at hx
      rcases hx with rfl | rfl
      · exact (hb _ nav).trans (by rw [if_pos rfl]; rfl)
      · exact (hd _ nav).trans (by rw [if_pos rfl]; rfl)
  · rw [navs_same _ r.fcs id (fun _ => rfl)]
    · rfl
    · intro x hx nav
      simp only [List.mem_cons, List.not_mem_nil, or_false] at hx
      rcases hx with rfl | rfl
      · exact (ha _ nav).trans (by rw [if_pos rfl]; rfl)
      · exact (hc _ nav).trans (by rw [if_pos rfl]; rfl)

/-! ## Concrete cases -/

/-- Association ID 5. -/
example : (AssociationID.newChecked 5).map (·.intoBits) = some 0xc005 := by decide

private def example103 : Reserved where
  fcs := true
  header := ⟨.QoSData, ⟨1⟩, 0, ⟨[2, 0, 0, 0, 0, 1], rfl⟩, ⟨[2, 0, 0, 0, 0, 2], rfl⟩, ⟨[2, 0, 0, 0, 0, 3], rfl⟩, ⟨0x30⟩, none,
    some ⟨[0, 0], rfl⟩, none⟩
  payload := some [0xaa, 0xbb, 0xcc]
  start := 1000
  space := 10
  ctsTime := 44
  dataTime := 300
  ackTime := 44

omit [ScrollRule] [Crc32] in
/-- The hypotheses hold: the exchange takes 418 microseconds after the RTS. -/
private theorem example103_fine : example103.Fine where
  valid := ⟨by decide, fun v hv => by cases hv⟩
  consistent := ⟨by decide, by decide, by decide⟩
  payload := by decide
  fits := by decide

example : example103.rest = 418 := by decide

omit [ScrollRule] [Crc32] in
/-- The exchange; the durations are 418, 364, 54 and 0. -/
example (s : Bool) : letI : ScrollRule := ⟨s⟩
    letI : Crc32 := ⟨fun bs => BitVec.ofNat 32 bs.length⟩
    example103.exchange (List.replicate 64 0xff) = .ok [
      (1000, [0xb4, 0, 0xa2, 1, 2, 0, 0, 0, 0, 1, 2, 0, 0, 0, 0, 2, 16, 0, 0, 0]),
      (1054, [0xc4, 0, 0x6c, 1, 2, 0, 0, 0, 0, 2, 10, 0, 0, 0]),
      (1364, [0x88, 1, 0x36, 0, 2, 0, 0, 0, 0, 1, 2, 0, 0, 0, 0, 2, 2, 0, 0, 0, 0, 3, 0x30, 0, 0, 0, 0xaa, 0xbb, 0xcc,
        29, 0, 0, 0]),
      (1418, [0xd4, 0, 0, 0, 2, 0, 0, 0, 0, 2, 10, 0, 0, 0])] ∧
    keepNavs ⟨[2, 0, 0, 0, 0, 9], rfl⟩ true 5
      [(1054, [0xc4, 0, 0x6c, 1, 2, 0, 0, 0, 0, 2, 10, 0, 0, 0])] = .ok 1418 := by
  cases s <;> decide +kernel

end Verif
