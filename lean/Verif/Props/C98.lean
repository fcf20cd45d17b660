import Verif.Props.C26
import Verif.Props.C59
import Verif.Props.C93
/-!
# C98: messages are delivered once although frames are lost

A station sends the pieces of its messages (C93) one after the other, each until an acknowledgement is heard; the receiver
joins them and acknowledges whatever data frame is addressed to it (10.3.2.11, 10.3.4.4, 10.5 of the standard).  Any frame
may be lost or damaged, and both stations hear whatever else is on the air.
-/
namespace Verif

namespace Spec

variable [ScrollRule] [Crc32]

/-- An acknowledgement, by the functions of the crate: the frame control field, then the rest.  The check sequence is the
hardware's; the crate has no function for the whole. -/
def sendAck (fcs : Bool) (buf : Bytes) (to : Mac) : Res Bytes := do
  let c := ControlFrame.Ack ⟨0⟩ 0 to
  let f ← c.getFcf
  let (out, n) ← Wr.run (do
    Wr.gwrite (writeLE f.bits)
    Wr.gwrite (writeControlFrame c)) buf
  pure (withFcs fcs (out.take n))

/-- Is this an acknowledgement for me? -/
def isAckFor (me : Mac) (fcs : Bool) (bytes : Bytes) : Res Bool :=
  match GenericFrame.new bytes fcs with
  | .panic => .panic
  | .err _ => .ok false
  | .ok g => do
    let f ← g.frameControlField
    match f.frameType with
    | .Control s =>
      match pread (readControlFrame s f.fcfFlags) 2 g.bytes with
      | .panic => .panic
      | .err _ => .ok false
      | .ok c => .ok (c.getSubtype = .Ack ∧ c.receiverAddress = me)
    | _ => .ok false

/-- Is there one among these? -/
def hearsAck (me : Mac) (fcs : Bool) : List Bytes → Res Bool
  | [] => .ok false
  | b :: l => do
    let x ← isAckFor me fcs b
    let y ← hearsAck me fcs l
    pure (x || y)

/-- The receiver: a data frame addressed to it is taken, and is to be acknowledged. -/
def attend (me : Mac) (fcs : Bool) (j : Joiner) (bytes : Bytes) : Res (Joiner × Option Mac) :=
  match matchFrames bytes (if fcs then some true else none) [armOf dataFrameKind readDataFrame id] with
  | .panic => .panic
  | .err _ => .ok (j, none)
  | .ok (_, f) =>
    if f.header.address_1 = me then
      .ok (match f.payload with
        | some c => j.take (pieceOf f.header c)
        | none => j, some f.header.address_2)
    else .ok (j, none)

/-- Several frames, whoever is acknowledged. -/
def attendAll (me : Mac) (fcs : Bool) : Joiner → List Bytes → Res Joiner
  | j, [] => .ok j
  | j, b :: l => do
    let (j, _) ← attend me fcs j b
    attendAll me fcs j l

omit [ScrollRule] [Crc32] in
/-- The pieces that are not acknowledged yet, whether the first of them was sent before, and the receiver. -/
structure AckedLink where
  queue : List Piece
  tried : Bool
  peer : Joiner

omit [ScrollRule] [Crc32] in
/-- One attempt: is the frame lost, is the acknowledgement lost, and what else do receiver and sender hear? -/
structure Attempted where
  frameLost : Bool
  ackLost : Bool
  atReceiver : List Bytes
  atSender : List Bytes

/-- One attempt to send the first of the pieces. -/
def AckedLink.attempt (h : DataFrameHeader) (fcs : Bool) (buf : Bytes) (l : AckedLink) (r : Attempted) : Res AckedLink := do
  let peer ← attendAll h.address_1 fcs l.peer r.atReceiver
  match l.queue with
  | [] => pure { l with peer }
  | p :: rest =>
    let frame ← sendPiece fcs buf h { p with again := l.tried }
    let (peer, to) ← (if r.frameLost then .ok (peer, none) else attend h.address_1 fcs peer frame)
    let acks ← (match to with
      | none => .ok []
      | some a => do
        let b ← sendAck fcs buf a
        pure (if r.ackLost then [] else [b]))
    let done ← hearsAck h.address_2 fcs (r.atSender ++ acks)
    pure (if done then ⟨rest, false, peer⟩ else ⟨l.queue, true, peer⟩)

/-- One after the other. -/
def AckedLink.attempts (h : DataFrameHeader) (fcs : Bool) (buf : Bytes) : AckedLink → List Attempted → Res AckedLink
  | l, [] => .ok l
  | l, r :: rs => do
    let l ← l.attempt h fcs buf r
    l.attempts h fcs buf rs

/-- Something else, to the receiver: not a data frame to it from the sender.  A frame whose check sequence is wrong is
something else. -/
def ElseToReceiver (h : DataFrameHeader) (fcs : Bool) (bytes : Bytes) : Prop :=
  (fcs = true → 4 ≤ bytes.length) ∧ ∀ frame, bytes = withFcs fcs frame →
    ¬ (IsType 2 frame ∧ (frame.drop 4).take 6 = h.address_1.val ∧ (frame.drop 10).take 6 = h.address_2.val)

/-- Something else, to the sender: not an acknowledgement for it (type 1, subtype 13). -/
def ElseToSender (h : DataFrameHeader) (fcs : Bool) (bytes : Bytes) : Prop :=
  (fcs = true → 4 ≤ bytes.length) ∧ ∀ b0 rest, bytes = withFcs fcs (b0 :: rest) →
    ¬ (b0.toNat / 4 = 53 ∧ (rest.drop 3).take 6 = h.address_2.val)

structure Attempted.Fair (h : DataFrameHeader) (fcs : Bool) (r : Attempted) : Prop where
  receiver : ∀ b ∈ r.atReceiver, ElseToReceiver h fcs b
  sender : ∀ b ∈ r.atSender, ElseToSender h fcs b

omit [ScrollRule] [Crc32] in
/-- Nothing is lost. -/
def Attempted.good (r : Attempted) : Bool := !r.frameLost && !r.ackLost

omit [ScrollRule] [Crc32] in
/-- A message: its number and the pieces it is sent in. -/
abbrev DividedMessage := Nat × List Bytes

omit [ScrollRule] [Crc32] in
def asParcel (m : DividedMessage) : Parcel := ⟨m.1, m.2.map fun c => (c, false, 0)⟩

omit [ScrollRule] [Crc32] in
/-- The pieces to be sent. -/
def toSend (s : Source) (l : List DividedMessage) : List Piece := l.flatMap fun m => (asParcel m).pieces s

omit [ScrollRule] [Crc32] in
/-- What a receiver has from a source, oldest first. -/
def Joiner.delivered (j : Joiner) (s : Source) : List Bytes := ((j.complete.filter (·.1 = s)).map (·.2)).reverse

omit [ScrollRule] [Crc32] in
/-- The messages of a source are in pieces, neighbours have different numbers, and all pieces fit. -/
structure Sendable (h : DataFrameHeader) (fcs : Bool) (buf : Bytes) (s : Source) (l : List DividedMessage) : Prop where
  parts : ∀ m ∈ l, m.2 ≠ []
  move : NumbersMove (l.map asParcel)
  fits : ∀ p ∈ toSend s l, p.Fits h fcs buf

end Spec

open Spec

variable [ScrollRule] [Crc32]

/-! ## Acknowledgements -/

omit [Crc32] in
private theorem control_read_drop (s : ControlFrameSubtype) (f : FCFFlags) (b0 b1 : Byte) (rest : Bytes) (hl : 1 ≤ rest.length) :
    pread (readControlFrame s f) 2 (b0 :: b1 :: rest) = (readControlFrame s f rest).map Prod.fst := by
  have hs := slack_le
  simp only [pread, Rd.gread, badOff_eq]
  rw [if_neg (by simp; omega)]
  simp only [List.drop_succ_cons, List.drop_zero]
  cases readControlFrame s f rest with
  | ok x => rfl
  | err e => rfl
  | panic => rfl

omit [Crc32] in
private theorem ack_read (f : FCFFlags) (d : BitVec 16) (ra : Mac) (tail : Bytes) :
    readControlFrame .Ack f (toLE d ++ (ra.val ++ tail)) = .ok (.Ack f d ra, 8) := by
  have hsl := slack_le
  apply RdAt.run
  apply RdAt.cast
  · show RdAt (do
      let d ← Rd.gread (readLE 16)
      let ra ← Rd.gread readMac
      pure (ControlFrame.Ack f d ra)) _ _ _
    rd_steps
  · simp

/-- An acknowledgement is what the standard has for one: type 1, subtype 13, the address after the duration.  Nothing panics
but, with check sequences, on fewer than four bytes. -/
theorem c98_ack_iff (me : Mac) (fcs : Bool) (bytes : Bytes) :
    (isAckFor me fcs bytes = .panic ↔ fcs = true ∧ bytes.length < 4) ∧ (∀ e, isAckFor me fcs bytes ≠ .err e) ∧
    (isAckFor me fcs bytes = .ok true ↔ ∃ b0 rest, bytes = withFcs fcs (b0 :: rest) ∧ b0.toNat / 4 = 53 ∧
      (rest.drop 3).take 6 = me.val) := by
  rw [← c24_new_panics_iff]
  have back : ∀ b0 rest, bytes = withFcs fcs (b0 :: rest) → (rest.drop 3).take 6 = me.val →
      GenericFrame.new bytes fcs = .ok ⟨b0 :: rest⟩ := by
    intro b0 rest h1 h2
    refine (c24_new _ _ _).2 ⟨h1, ?_⟩
    have := congrArg List.length h2
    simp at this
    simp
    omega
  unfold isAckFor
  cases hg : GenericFrame.new bytes fcs with
  | panic =>
    refine ⟨by simp, by simp, (fun h => by cases h), ?_⟩
    rintro ⟨b0, rest, h1, -, h2⟩
    rw [hg] at back
    cases back b0 rest h1 h2
  | err e =>
    refine ⟨by simp, by simp, (fun h => by cases h), ?_⟩
    rintro ⟨b0, rest, h1, -, h2⟩
    rw [hg] at back
    cases back b0 rest h1 h2
  | ok g =>
    obtain ⟨gb⟩ := g
    obtain ⟨hb, hl⟩ := (c24_new _ _ _).1 hg
    obtain ⟨b0, b1, rest, f, rfl, hf, -, htn, -, hv⟩ := generic_fcf_cons gb hl
    have hl : 8 ≤ rest.length := by simpa using hl
    have huniq : (∃ b0 rest, bytes = withFcs fcs (b0 :: rest) ∧ b0.toNat / 4 = 53 ∧ (rest.drop 3).take 6 = me.val) ↔
        b0.toNat / 4 = 53 ∧ (rest.drop 2).take 6 = me.val := by
      constructor
      · rintro ⟨c0, r, h1, h2, h3⟩
        have := back c0 r h1 h3
        rw [hg] at this
        cases this
        exact ⟨h2, h3⟩
      · rintro ⟨h1, h2⟩
        exact ⟨b0, b1 :: rest, hb, h1, h2⟩
    rw [huniq]
    simp only [hf, Res.ok_bind]
    cases hft : f.frameType with
    | Control s =>
      simp only
      rw [control_read_drop _ _ _ _ _ (by omega)]
      have hsafe := (c26_safe s f.fcfFlags rest).1
      have hack : s = .Ack ↔ b0.toNat / 4 = 53 := by
        have hva : ValidFrameType (.Control .Ack) := by
          refine ⟨by decide, fun v hv => by cases hv⟩
        rw [hft] at hv htn
        constructor
        · rintro rfl
          have h1 := congrArg Prod.fst htn
          have h2 := congrArg Prod.snd htn
          change 1 = _ at h1
          change 13 = _ at h2
          simp only at h1 h2
          omega
        · intro h
          have : FrameType.Control s = .Control .Ack := by
            refine typeNumbers_inj _ _ hv hva ?_
            rw [htn]
            change _ = (1, 13)
            simp only [Prod.mk.injEq]
            omega
          cases this
          rfl
      cases hr : readControlFrame s f.fcfFlags rest with
      | panic => exact absurd hr hsafe
      | err e =>
        refine ⟨by simp [Res.map], by simp [Res.map], (fun h => by cases h), ?_⟩
        rintro ⟨h1, -⟩
        have hs := hack.2 h1
        subst hs
        have hw : rest = toLE (fromLE 16 (rest.take 2)) ++ ((⟨(rest.drop 2).take 6, by simp; omega⟩ : Mac).val ++
            rest.drop 8) := by
          rw [toLE_fromLE rfl _ (by simp; omega)]
          rw [show rest.drop 8 = (rest.drop 2).drop 6 by simp, List.take_append_drop, List.take_append_drop]
        rw [hw, ack_read] at hr
        cases hr
      | ok x =>
        obtain ⟨c, n⟩ := x
        obtain ⟨tail, hw, -, hc, -, hp⟩ := c26_parse s f.fcfFlags rest c n hr
        refine ⟨by simp [Res.map], by simp [Res.map], ?_⟩
        simp only [Res.map, Res.ok.injEq, decide_eq_true_eq, hc, hack]
        refine and_congr_right fun h => ?_
        have hs := hack.2 h
        rw [hs] at hc
        cases c with
        | Ack f' d ra =>
          simp only [controlWire] at hw
          rw [hw]
          simp only [ControlFrame.receiverAddress, List.append_assoc]
          rw [List.drop_left' (by simp), List.take_left' (by simp)]
          exact ⟨fun h => by rw [h], fun h => Subtype.ext h⟩
        | RTS => cases hc
        | CTS => cases hc
        | Unknown s' f' b => exact absurd hc hp.2.2
    | Management s =>
      have hn : ¬ b0.toNat / 4 = 53 := by
        rw [hft] at htn
        have h1 := congrArg Prod.fst htn
        change 0 = _ at h1
        simp only at h1
        omega
      simp [hn]
    | Data s =>
      have hn : ¬ b0.toNat / 4 = 53 := by
        rw [hft] at htn
        have h1 := congrArg Prod.fst htn
        change 2 = _ at h1
        simp only at h1
        omega
      simp [hn]
    | Unknown v =>
      have hn : ¬ b0.toNat / 4 = 53 := by
        rw [hft] at htn
        have h1 := congrArg Prod.fst htn
        change 3 = _ at h1
        simp only at h1
        omega
      simp [hn]

/-- An acknowledgement as it is sent. -/
private theorem ack_sent (fcs : Bool) (buf : Bytes) (to : Mac) (hb : 10 ≤ buf.length) :
    sendAck fcs buf to = .ok (withFcs fcs (0xd4 :: 0 :: (toLE (0 : BitVec 16) ++ to.val))) := by
  have hs := slack_le
  obtain ⟨f, h1, -, -, h2⟩ := c26_fcf (.Ack ⟨0⟩ 0 to)
    (show ValidFrameType (.Control .Ack) from ⟨by decide, fun v hv => by cases hv⟩)
  have hf : toLE f.bits = [0xd4, 0] := by
    rw [h2]
    show frameStart (.Control .Ack) ⟨0⟩ = _
    decide
  have hE : Emits (Wr.run (do
      Wr.gwrite (writeLE f.bits)
      Wr.gwrite (writeControlFrame (.Ack ⟨0⟩ 0 to)))) (toLE f.bits ++ (toLE (0 : BitVec 16) ++ to.val)) 10 := by
    apply Emits.cast
    · apply WEmits.run
      wr_steps
      exact WEmits.gwrite_pos (c26_write _) (by simp [controlWire]; omega)
    · rfl
    · simp [controlWire]; omega
  simp only [sendAck, h1, Res.ok_bind, hE.ok buf hb]
  rw [List.take_left' (by simp), hf]
  rfl

/-- The acknowledgement of a frame is heard as one by whom it is for, and by nobody else. -/
theorem c98_ack (fcs : Bool) (buf : Bytes) (to me : Mac) (hb : 10 ≤ buf.length) :
    ∃ b, sendAck fcs buf to = .ok b ∧ isAckFor me fcs b = .ok (to = me) := by
  refine ⟨_, ack_sent fcs buf to hb, ?_⟩
  obtain ⟨h1, h2, h3⟩ := c98_ack_iff me fcs (withFcs fcs (0xd4 :: 0 :: (toLE (0 : BitVec 16) ++ to.val)))
  have hl : ¬ (fcs = true ∧ (withFcs fcs (0xd4 :: 0 :: (toLE (0 : BitVec 16) ++ to.val))).length < 4) := by
    rintro ⟨rfl, h⟩
    simp [withFcs] at h
  cases hr : isAckFor me fcs (withFcs fcs (0xd4 :: 0 :: (toLE (0 : BitVec 16) ++ to.val))) with
  | panic => exact absurd (h1.1 hr) hl
  | err e => exact absurd hr (h2 e)
  | ok x =>
    rw [hr] at h3
    simp only [Res.ok.injEq] at h3 ⊢
    rw [Bool.eq_iff_iff, h3, decide_eq_true_iff]
    constructor
    · rintro ⟨b0, rest, g1, g2, g3⟩
      have : (0xd4 :: 0 :: (toLE (0 : BitVec 16) ++ to.val) : Bytes) = b0 :: rest := by
        cases fcs
        · exact g1
        · exact List.append_inj_left' g1 (by simp)
      cases this
      rw [show (0 :: (toLE (0 : BitVec 16) ++ to.val) : Bytes) = (0 :: toLE (0 : BitVec 16)) ++ to.val from rfl,
        List.drop_left' (by simp), List.take_of_length_le (by simp)] at g3
      exact Subtype.ext g3
    · rintro rfl
      refine ⟨_, _, rfl, by decide, ?_⟩
      rw [show (0 :: (toLE (0 : BitVec 16) ++ to.val) : Bytes) = (0 :: toLE (0 : BitVec 16)) ++ to.val from rfl,
        List.drop_left' (by simp), List.take_of_length_le (by simp)]

private theorem hears_else (h : DataFrameHeader) (fcs : Bool) (l acks : List Bytes) (hl : ∀ b ∈ l, ElseToSender h fcs b) :
    hearsAck h.address_2 fcs (l ++ acks) = hearsAck h.address_2 fcs acks := by
  induction l with
  | nil => rfl
  | cons b l ih =>
    obtain ⟨g1, g2⟩ := hl b (by simp)
    obtain ⟨h1, h2, h3⟩ := c98_ack_iff h.address_2 fcs b
    have hb : isAckFor h.address_2 fcs b = .ok false := by
      cases hr : isAckFor h.address_2 fcs b with
      | panic => exact absurd (h1.1 hr) (fun ⟨x, y⟩ => by have := g1 x; omega)
      | err e => exact absurd hr (h2 e)
      | ok x =>
        cases x with
        | false => rfl
        | true =>
          obtain ⟨b0, rest, k1, k2, k3⟩ := h3.1 hr
          exact absurd ⟨k2, k3⟩ (g2 b0 rest k1)
    rw [List.cons_append, hearsAck, hb, ih fun b hb => hl b (by simp [hb])]
    cases hearsAck h.address_2 fcs acks <;> rfl

/-! ## The receiver -/

private theorem attend_piece (h : DataFrameHeader) (p : Piece) (hh : SourceHeader h p.source) (fcs : Bool) (buf : Bytes)
    (hp : p.Fits h fcs buf) : ∃ b, sendPiece fcs buf h p = .ok b ∧
      ∀ j, attend h.address_1 fcs j b = .ok (j.take p, some h.address_2) := by
  obtain ⟨hn, hi, hroom⟩ := hp
  obtain ⟨h1, h2, h3⟩ := joiner_piece_header h p.source hh p rfl hn hi
  have hs := slack_le
  obtain ⟨out, n, content, g1, g2, g3⟩ := frame_arrives (pieceHeader h p) h1.valid h1.consistent h1.data
    (bytesObj p.content) (· = p.content) _ (Emits.bytes p.content).writes fcs id [] [] (fun _ ha => by cases ha) buf
    (by rw [h3]; omega)
  subst g2
  refine ⟨out.take n, ?_, fun j => ?_⟩
  · simp only [sendPiece, g1, Res.ok_bind]; rfl
  · have g3 : matchFrames (out.take n) (if fcs then some true else none) [armOf dataFrameKind readDataFrame id] =
      .ok (0, ⟨pieceHeader h p, some p.content⟩) := g3
    simp only [attend, g3]
    have hA : (pieceHeader h p).address_1 = h.address_1 := rfl
    rw [if_pos hA, h2]
    rfl

/-- Other frames do not matter for what comes from the sender. -/
private theorem attend_else (h : DataFrameHeader) (s : Source) (hs : h.address_2 = s.1) (fcs : Bool) (j : Joiner) (b : Bytes)
    (hb : ElseToReceiver h fcs b) : ∃ j' to, attend h.address_1 fcs j b = .ok (j', to) ∧
      j'.progress s = j.progress s ∧ j'.delivered s = j.delivered s := by
  obtain ⟨g1, g2⟩ := hb
  obtain ⟨h1, h2⟩ := match_data fcs b
  cases hm : matchFrames b (if fcs then some true else none) [armOf dataFrameKind readDataFrame id] with
  | panic => exact absurd (h1.1 hm) (fun ⟨x, y⟩ => by have := g1 x; omega)
  | err e => exact ⟨j, none, by simp only [attend, hm], rfl, rfl⟩
  | ok x =>
    obtain ⟨i, f⟩ := x
    obtain ⟨frame, n, k1, k2⟩ := h2 i f hm
    obtain ⟨b0, rest, hf, hb0, -, -, -, -, -⟩ := c49_parse false frame f n k2
    have hf : frame = b0 :: f.header.fcf_flags.bits :: (dataHeaderWire f.header ++ rest) := hf
    by_cases ha : f.header.address_1 = h.address_1
    · refine ⟨match f.payload with
        | some c => j.take (pieceOf f.header c)
        | none => j, some f.header.address_2, by simp only [attend, hm]; rw [if_pos ha], ?_⟩
      have hne : f.header.address_2 ≠ h.address_2 := by
        intro he
        refine g2 frame k1 ⟨⟨b0, _, hf, hb0⟩, ?_, ?_⟩
        · rw [hf, ← ha]
          simp only [dataHeaderWire, List.drop_succ_cons, List.append_assoc]
          rw [List.drop_left' (by simp), List.take_left' (by simp)]
        · rw [hf, ← he]
          simp only [dataHeaderWire, List.drop_succ_cons, List.append_assoc]
          rw [← List.append_assoc, List.drop_left' (by simp), List.take_left' (by simp)]
      cases hp : f.payload with
      | none => exact ⟨rfl, rfl⟩
      | some c =>
        obtain ⟨t1, t2⟩ := joiner_take_run j [pieceOf f.header c] s
        have hfil : [pieceOf f.header c].filter (·.source = s) = [] := by
          simp only [pieceOf, List.filter_cons, List.filter_nil]
          rw [if_neg]
          simp only [decide_eq_true_eq]
          intro he
          exact hne (by rw [hs, ← he])
        rw [hfil] at t1 t2
        simp only [List.foldl_cons, List.foldl_nil, Reassembly.run, List.append_nil] at t1 t2
        exact ⟨t1, t2⟩
    · exact ⟨j, none, by simp only [attend, hm, if_neg ha], rfl, rfl⟩

private theorem attendAll_else (h : DataFrameHeader) (s : Source) (hs : h.address_2 = s.1) (fcs : Bool) (l : List Bytes)
    (j : Joiner) (hb : ∀ b ∈ l, ElseToReceiver h fcs b) : ∃ j', attendAll h.address_1 fcs j l = .ok j' ∧
      j'.progress s = j.progress s ∧ j'.delivered s = j.delivered s := by
  induction l generalizing j with
  | nil => exact ⟨j, rfl, rfl, rfl⟩
  | cons b l ih =>
    obtain ⟨j1, to, h1, h2, h3⟩ := attend_else h s hs fcs j b (hb b (by simp))
    obtain ⟨j2, g1, g2, g3⟩ := ih j1 fun b hb' => hb b (by simp [hb'])
    exact ⟨j2, by simp only [attendAll, h1, Res.ok_bind, g1], g2.trans h2, g3.trans h3⟩

/-! ## The pieces -/

omit [ScrollRule] [Crc32] in
/-- No piece looks like a copy of the one before. -/
private def Moves : Option (Nat × Nat) → List Piece → Prop
  | _, [] => True
  | last, p :: l => last ≠ some (p.number, p.index) ∧ Moves (some (p.number, p.index)) l

omit [ScrollRule] [Crc32] in
private theorem moves_pieces (src : Source) (n : Nat) (l : List (Bytes × Bool × Nat)) (hl : ∀ x ∈ l, x.2.2 = 0) (i : Nat)
    (last : Option (Nat × Nat)) (hlast : ∀ k, i ≤ k → last ≠ some (n, k)) (tail : List Piece)
    (ht : ∀ last : Option (Nat × Nat), (∀ x k, last = some (x, k) → x = n) → last ≠ none → Moves last tail)
    (hne : l ≠ []) : Moves last (piecesFrom src n i l ++ tail) := by
  induction l generalizing i last with
  | nil => exact absurd rfl hne
  | cons x l ih =>
    obtain ⟨c, first, k⟩ := x
    have hk : k = 0 := hl (c, first, k) (by simp)
    subst hk
    simp only [piecesFrom, List.replicate_zero, List.nil_append, List.cons_append, Moves]
    refine ⟨hlast i (Nat.le_refl i), ?_⟩
    by_cases h0 : l = []
    · subst h0
      simp only [piecesFrom, List.nil_append]
      refine ht _ (fun x k h => ?_) (by simp)
      cases h
      rfl
    · refine ih (fun x hx => hl x (by simp [hx])) (i + 1) _ (fun k hk h => ?_) h0
      cases h
      omega

omit [ScrollRule] [Crc32] in
private theorem moves_toSend (src : Source) (l : List DividedMessage) (hp : ∀ m ∈ l, m.2 ≠ [])
    (hn : NumbersMove (l.map asParcel)) (last : Option (Nat × Nat))
    (hlast : ∀ m, l.head? = some m → ∀ k, last ≠ some (m.1, k)) : Moves last (toSend src l) := by
  induction l generalizing last with
  | nil => trivial
  | cons m l ih =>
    have hu : toSend src (m :: l) = piecesFrom src m.1 0 (m.2.map fun c => (c, false, 0)) ++ toSend src l := rfl
    rw [hu]
    refine moves_pieces src m.1 _ (by simp) 0 last (fun k _ => hlast m rfl k) _ (fun last' h1 h2 => ?_)
      (by simpa using hp m (by simp))
    refine ih (fun m hm => hp m (by simp [hm])) ?_ last' ?_
    · cases l with
      | nil => trivial
      | cons b l => exact hn.2
    · intro b hb k hk
      cases l with
      | nil => cases hb
      | cons b' l =>
        cases hb
        have := h1 _ _ hk
        exact hn.1 this.symm

omit [ScrollRule] [Crc32] in
private theorem toSend_source (src : Source) (l : List DividedMessage) : ∀ p ∈ toSend src l, p.source = src := by
  have key : ∀ (n i : Nat) (l : List (Bytes × Bool × Nat)), ∀ p ∈ piecesFrom src n i l, p.source = src := by
    intro n i l
    induction l generalizing i with
    | nil => intro p hp; cases hp
    | cons x l ih =>
      obtain ⟨c, first, k⟩ := x
      intro p hp
      simp only [piecesFrom, List.mem_cons, List.mem_append] at hp
      rcases hp with rfl | hp | hp
      · rfl
      · rw [List.eq_of_mem_replicate hp]
      · exact ih _ p hp
  intro p hp
  simp only [toSend, List.mem_flatMap] at hp
  obtain ⟨m, -, hp⟩ := hp
  exact key _ _ _ p hp

/-! ## Attempts -/

omit [ScrollRule] [Crc32] in
private theorem step_as_new (s : Reassembly) (p : Piece) (a : Bool) (hp : p.again = false)
    (h : s.last ≠ some (p.number, p.index)) : s.step { p with again := a } = s.step p := by
  simp [Reassembly.step, Reassembly.before, hp, h]

private abbrev start : Reassembly := ⟨none, none⟩

/-- What holds between attempts: pieces `done` are acknowledged and joined, and perhaps the next one is joined too. -/
private def Inv (s : Source) (all : List Piece) (l : AckedLink) (n : Nat) : Prop :=
  ∃ done, all = done ++ l.queue ∧ done.length = n ∧ Moves (start.run done).1.last l.queue ∧
    ((l.peer.progress s = (start.run done).1 ∧ l.peer.delivered s = (start.run done).2) ∨
    ∃ p rest, l.queue = p :: rest ∧ l.tried = true ∧ l.peer.progress s = (start.run (done ++ [p])).1 ∧
      l.peer.delivered s = (start.run (done ++ [p])).2)

private theorem attempt_inv (h : DataFrameHeader) (s : Source) (hh : SourceHeader h s) (fcs : Bool) (buf : Bytes)
    (all : List Piece) (hsrc : ∀ p ∈ all, p.source = s) (hfit : ∀ p ∈ all, p.Fits h fcs buf)
    (hag : ∀ p ∈ all, p.again = false) (l : AckedLink) (n : Nat)
    (hi : Inv s all l n) (r : Attempted) (hr : r.Fair h fcs) :
    ∃ l', l.attempt h fcs buf r = .ok l' ∧ Inv s all l' (if r.good ∧ n < all.length then n + 1 else n) := by
  obtain ⟨peer, a1, a2, a3⟩ := attendAll_else h s hh.station fcs r.atReceiver l.peer hr.receiver
  obtain ⟨done, d1, d2, d3, d4⟩ := hi
  rw [← a2, ← a3] at d4
  cases hq : l.queue with
  | nil =>
    refine ⟨{ l with peer }, by simp only [AckedLink.attempt, a1, Res.ok_bind, hq]; rfl, ?_⟩
    have hn : ¬ n < all.length := by
      rw [d1, hq, List.append_nil, d2]
      omega
    rw [if_neg (fun x => hn x.2)]
    refine ⟨done, d1, d2, d3, ?_⟩
    rcases d4 with d4 | ⟨p, rest, e, -⟩
    · exact .inl d4
    · rw [hq] at e; cases e
  | cons p rest =>
    have hmem : p ∈ all := by rw [d1, hq]; simp
    have hps := hsrc p hmem
    have hpf := hfit p hmem
    have hpa := hag p hmem
    have hn : n < all.length := by
      rw [d1, hq, ← d2]
      simp
    rw [hq] at d1 d3 d4
    obtain ⟨frame, f1, f2⟩ := attend_piece h { p with again := l.tried } (by rw [← hps] at hh; exact hh) fcs buf
      ⟨hpf.1, hpf.2, hpf.3⟩
    have hbuf : 10 ≤ buf.length := by
      have := hpf.3
      simp [dataHeaderWire] at this
      omega
    obtain ⟨ack, k1, k2⟩ := c98_ack fcs buf h.address_2 h.address_2 hbuf
    -- the receiver after the frame
    have hafter : (peer.take { p with again := l.tried }).progress s = (start.run (done ++ [p])).1 ∧
        (peer.take { p with again := l.tried }).delivered s = (start.run (done ++ [p])).2 := by
      obtain ⟨t1, t2⟩ := joiner_take_run peer [{ p with again := l.tried }] s
      have hfil : [{ p with again := l.tried }].filter (·.source = s) = [{ p with again := l.tried }] := by
        simp [hps]
      rw [hfil] at t1 t2
      simp only [List.foldl_cons, List.foldl_nil, Reassembly.run, List.append_nil] at t1 t2
      have t2 : (peer.take { p with again := l.tried }).delivered s = peer.delivered s ++ _ := t2
      rcases d4 with ⟨e1, e2⟩ | ⟨p', rest', e0, e3, e1, e2⟩
      · rw [t1, t2, e1, e2, step_as_new _ p _ hpa d3.1, joiner_run_append]
        simp [Reassembly.run]
      · cases e0
        rw [t1, t2, joiner_step_again _ _ e3, e1, e2]
        · simp
        · rw [e1, joiner_run_append]
          simp [Reassembly.run, joiner_step_last]
    have hdone : ∀ peer', (peer'.progress s = (start.run (done ++ [p])).1 ∧ peer'.delivered s = (start.run (done ++ [p])).2) →
        Inv s all ⟨rest, false, peer'⟩ (n + 1) := by
      intro peer' hp'
      refine ⟨done ++ [p], by simp [d1], by simp [d2], ?_, .inl hp'⟩
      have : (start.run (done ++ [p])).1.last = some (p.number, p.index) := by
        rw [joiner_run_append]
        simp [Reassembly.run, joiner_step_last]
      rw [this]
      exact d3.2
    by_cases hfl : r.frameLost = true
    · refine ⟨⟨l.queue, true, peer⟩, ?_, ?_⟩
      · simp only [AckedLink.attempt, a1, Res.ok_bind, hq, f1, hfl, if_true, hears_else h fcs _ _ hr.sender, hearsAck]
        rfl
      · rw [if_neg (fun x => by simp [Attempted.good, hfl] at x)]
        refine ⟨done, by rw [hq]; exact d1, d2, by rw [hq]; exact d3, ?_⟩
        rcases d4 with d4 | ⟨p', rest', e0, e3, e4⟩
        · exact .inl d4
        · exact .inr ⟨p', rest', by rw [hq]; exact e0, rfl, e4⟩
    · by_cases hal : r.ackLost = true
      · refine ⟨⟨l.queue, true, peer.take { p with again := l.tried }⟩, ?_, ?_⟩
        · simp only [AckedLink.attempt, a1, Res.ok_bind, hq, f1, hfl, f2, hal, if_true]
          simp only [Bool.false_eq_true, if_false, Res.ok_bind, k1, Res.pure_eq, hears_else h fcs _ _ hr.sender, hearsAck]
        · rw [if_neg (fun x => by simp [Attempted.good, hal] at x)]
          refine ⟨done, by rw [hq]; exact d1, d2, by rw [hq]; exact d3, .inr ⟨p, rest, hq, rfl, hafter⟩⟩
      · refine ⟨⟨rest, false, peer.take { p with again := l.tried }⟩, ?_, ?_⟩
        · simp only [AckedLink.attempt, a1, Res.ok_bind, hq, f1, hfl, f2, hal]
          simp only [Bool.false_eq_true, if_false, Res.ok_bind, k1, Res.pure_eq, hears_else h fcs _ _ hr.sender, hearsAck, k2]
          rfl
        · rw [if_pos ⟨by simp [Attempted.good, hfl, hal], hn⟩]
          exact hdone _ hafter

private theorem attempts_inv (h : DataFrameHeader) (s : Source) (hh : SourceHeader h s) (fcs : Bool) (buf : Bytes)
    (all : List Piece) (hsrc : ∀ p ∈ all, p.source = s) (hfit : ∀ p ∈ all, p.Fits h fcs buf)
    (hag : ∀ p ∈ all, p.again = false) (rs : List Attempted) (hr : ∀ r ∈ rs, r.Fair h fcs) (l : AckedLink) (n : Nat)
    (hi : Inv s all l n) (hn : n ≤ all.length) :
    ∃ l', l.attempts h fcs buf rs = .ok l' ∧ Inv s all l' (min all.length (n + rs.countP Attempted.good)) := by
  induction rs generalizing l n with
  | nil => exact ⟨l, rfl, by simpa [Nat.min_eq_right hn] using hi⟩
  | cons r rs ih =>
    obtain ⟨l1, h1, h2⟩ := attempt_inv h s hh fcs buf all hsrc hfit hag l n hi r (hr r (by simp))
    obtain ⟨l2, g1, g2⟩ := ih (fun r hr' => hr r (by simp [hr'])) l1 _ h2 (by split <;> omega)
    refine ⟨l2, by simp only [AckedLink.attempts, h1, Res.ok_bind, g1], ?_⟩
    have : min all.length ((if r.good ∧ n < all.length then n + 1 else n) + rs.countP Attempted.good) =
        min all.length (n + (r :: rs).countP Attempted.good) := by
      rw [List.countP_cons]
      cases r.good <;> simp
      split <;> omega
    rw [← this]
    exact g2

/-! ## The property -/

/-- A sender with messages, and a receiver that has nothing. -/
def Spec.AckedLink.fresh (s : Source) (l : List DividedMessage) : AckedLink := ⟨toSend s l, false, .fresh⟩

omit [ScrollRule] [Crc32] in
private theorem toSend_again (src : Source) (l : List DividedMessage) : ∀ p ∈ toSend src l, p.again = false := by
  have key : ∀ (n i : Nat) (l : List Bytes), ∀ p ∈ piecesFrom src n i (l.map fun c => (c, false, 0)), p.again = false := by
    intro n i l
    induction l generalizing i with
    | nil => intro p hp; cases hp
    | cons x l ih =>
      intro p hp
      simp only [List.map_cons, piecesFrom, List.replicate_zero, List.nil_append, List.mem_cons] at hp
      rcases hp with rfl | hp
      · rfl
      · exact ih _ p hp
  intro p hp
  simp only [toSend, List.mem_flatMap] at hp
  obtain ⟨m, -, hp⟩ := hp
  exact key _ _ _ p hp

omit [ScrollRule] [Crc32] in
private theorem run_toSend (src : Source) (l : List DividedMessage) (hp : ∀ m ∈ l, m.2 ≠ [])
    (hn : NumbersMove (l.map asParcel)) : (start.run (toSend src l)).2 = l.map (fun m => m.2.flatten) := by
  have h := joiner_run_messages src (l.map asParcel) (by
    intro m hm
    obtain ⟨x, hx, rfl⟩ := List.mem_map.1 hm
    simpa [asParcel] using hp x hx) hn start (fun m _ i hi => by cases hi)
  have e : (l.map asParcel).flatMap (Parcel.pieces src) = toSend src l := by
    rw [toSend, List.flatMap_map]
  rw [e] at h
  rw [h, List.map_map]
  apply List.map_congr_left
  intro m _
  simp [Parcel.content, asParcel, List.flatMap_map, List.flatMap_id']

omit [ScrollRule] [Crc32] in
private theorem numbersMove_left (a b : List Parcel) (h : NumbersMove (a ++ b)) : NumbersMove a := by
  induction a with
  | nil => trivial
  | cons x a ih =>
    cases a with
    | nil => trivial
    | cons y a => exact ⟨h.1, ih h.2⟩

/-- However many frames and acknowledgements are lost, and whatever else is heard: the receiver has the first of the messages,
each once and whole and in order; as many pieces are acknowledged as there were attempts where nothing was lost, until there
are no more; and messages whose pieces are all acknowledged are delivered.  Partial: with check sequences, what is heard has at
least four bytes (`c98_short_panics`). -/
theorem c98_delivered_partial (h : DataFrameHeader) (s : Source) (hh : SourceHeader h s) (fcs : Bool) (buf : Bytes)
    (messages : List DividedMessage) (hm : Sendable h fcs buf s messages) (rs : List Attempted) (hr : ∀ r ∈ rs, r.Fair h fcs) :
    ∃ l, (AckedLink.fresh s messages).attempts h fcs buf rs = .ok l ∧
      l.peer.delivered s <+: messages.map (fun m => m.2.flatten) ∧
      l.queue = (toSend s messages).drop (rs.countP Attempted.good) ∧
      ∀ a b, messages = a ++ b → (toSend s a).length ≤ rs.countP Attempted.good →
        a.map (fun m => m.2.flatten) <+: l.peer.delivered s := by
  have hag : ∀ p ∈ toSend s messages, p.again = false := toSend_again s messages
  have hi : Inv s (toSend s messages) (AckedLink.fresh s messages) 0 := by
    refine ⟨[], rfl, rfl, ?_, .inl ⟨rfl, rfl⟩⟩
    exact moves_toSend s messages hm.parts hm.move _ (fun m _ k hk => by cases hk)
  obtain ⟨l, h1, done, d1, d2, -, d4⟩ := attempts_inv h s hh fcs buf _ (toSend_source s messages) hm.fits hag rs hr _ 0 hi
    (Nat.zero_le _)
  rw [Nat.zero_add] at d2
  have hall := run_toSend s messages hm.parts hm.move
  obtain ⟨pre, rest, e1, e2⟩ : ∃ pre rest, toSend s messages = pre ++ rest ∧ done <+: pre ∧
      l.peer.delivered s = (start.run pre).2 := by
    rcases d4 with ⟨-, e⟩ | ⟨p, rest, e0, -, -, e⟩
    · exact ⟨done, _, d1, List.prefix_refl _, e⟩
    · exact ⟨done ++ [p], rest, by rw [d1, e0]; simp, List.prefix_append _ _, e⟩
  refine ⟨l, h1, ?_, ?_, ?_⟩
  · rw [e2.2, ← hall, e1, joiner_run_append]
    exact List.prefix_append _ _
  · have hlen := congrArg List.length d1
    simp only [List.length_append] at hlen
    by_cases hle : (toSend s messages).length ≤ rs.countP Attempted.good
    · rw [List.drop_of_length_le hle]
      exact List.eq_nil_of_length_eq_zero (by omega)
    · rw [d1, List.drop_left' (by omega)]
  · intro a b hab hle
    subst hab
    have hsplit : toSend s (a ++ b) = toSend s a ++ toSend s b := by simp [toSend]
    have hda : toSend s a <+: done := by
      refine List.prefix_of_prefix_length_le (l₃ := toSend s (a ++ b)) ?_ ?_ ?_
      · rw [hsplit]; exact List.prefix_append _ _
      · rw [d1]; exact List.prefix_append _ _
      · rw [d2, hsplit, List.length_append]; omega
    obtain ⟨t, ht⟩ := hda.trans e2.1
    have hna : NumbersMove (a.map asParcel) := numbersMove_left _ (b.map asParcel) (by simpa using hm.move)
    have ha := run_toSend s a (fun m hm' => hm.parts m (by simp [hm'])) hna
    rw [e2.2, ← ht, joiner_run_append, ha]
    exact List.prefix_append _ _

/-- So everything is delivered if there are enough attempts where nothing is lost.  Partial as before. -/
theorem c98_all_delivered_partial (h : DataFrameHeader) (s : Source) (hh : SourceHeader h s) (fcs : Bool) (buf : Bytes)
    (messages : List DividedMessage) (hm : Sendable h fcs buf s messages) (rs : List Attempted) (hr : ∀ r ∈ rs, r.Fair h fcs)
    (hen : (toSend s messages).length ≤ rs.countP Attempted.good) :
    ∃ l, (AckedLink.fresh s messages).attempts h fcs buf rs = .ok l ∧ l.queue = [] ∧
      l.peer.delivered s = messages.map (fun m => m.2.flatten) := by
  obtain ⟨l, h1, h2, h3, h4⟩ := c98_delivered_partial h s hh fcs buf messages hm rs hr
  refine ⟨l, h1, by rw [h3, List.drop_of_length_le hen], ?_⟩
  · have := h4 messages [] (by simp) hen
    exact h2.eq_of_length_le (this.length_le)

omit [Crc32] in
/-- With the check sequences of the standard (C59), a frame that was damaged within 32 bits is something else for both
stations: so it counts as lost. -/
theorem c98_damaged (h : DataFrameHeader) (frame damaged : Bytes) :
    letI := ieeeCrc
    Burst (withFcs true frame) damaged → ElseToReceiver h true damaged ∧ ElseToSender h true damaged := by
  letI := ieeeCrc
  intro hb
  have hv : stripAndValidateFcs (withFcs true frame) = .ok frame := (c05_accepts_iff _ _).2 rfl
  have he := c59_burst _ _ _ hb hv
  have hl : damaged.length = (withFcs true frame).length := by
    obtain ⟨p, x, y, q, h1, h2, hl, -, -⟩ := hb
    have e1 := congrArg List.length h1
    have e2 := congrArg List.length h2
    simp only [wireBits_length, List.length_append] at e1 e2
    omega
  have h4 : 4 ≤ damaged.length := by
    rw [hl]
    simp [withFcs]
  have hno : ∀ x, damaged ≠ withFcs true x := by
    intro x hx
    rw [(c05_accepts_iff _ _).2 (show damaged = x ++ toLE (Crc32.hash x) from hx)] at he
    cases he
  exact ⟨⟨fun _ => h4, fun x hx => absurd hx (hno x)⟩, ⟨fun _ => h4, fun b x hx => absurd hx (hno _)⟩⟩

/-- Violation: fewer than four bytes, which a station may well hear, stop it if it expects check sequences. -/
theorem c98_short_panics (me : Mac) (j : Joiner) (bytes : Bytes) (h : bytes.length < 4) :
    isAckFor me true bytes = .panic ∧ attend me true j bytes = .panic := by
  refine ⟨(c98_ack_iff me true bytes).1.2 ⟨rfl, h⟩, ?_⟩
  have := (match_data true bytes).1.2 ⟨rfl, h⟩
  unfold attend
  rw [this]

/-! ## Concrete cases -/

omit [ScrollRule] [Crc32] in
private theorem sourceA_header : SourceHeader (sourceHeader sourceA) sourceA :=
  ⟨⟨by decide, DataFrameSubtype.canonical_fromBits 0⟩, ⟨by decide, by decide, by decide⟩, by decide, rfl, rfl⟩

omit [ScrollRule] [Crc32] in
/-- Two messages, of three pieces and of one. -/
private abbrev twoMessages : List DividedMessage := [(4095, [[1, 2], [3], [4, 5]]), (0, [[6]])]

omit [ScrollRule] [Crc32] in
private theorem twoMessages_sendable :
    Sendable (sourceHeader sourceA) true (List.replicate 60 0xee) sourceA twoMessages := by
  refine ⟨by decide, ⟨by decide, trivial⟩, ?_⟩
  have hfit : ∀ p ∈ toSend sourceA twoMessages, p.number < 4096 ∧ p.index < 16 ∧
      3 + (dataHeaderWire (sourceHeader sourceA)).length + p.content.length + 4 ≤ 60 := by decide +kernel
  exact fun p hp => ⟨(hfit p hp).1, (hfit p hp).2.1, by simpa using (hfit p hp).2.2⟩

/-- The theorem for any pattern of losses. -/
example (losses : List (Bool × Bool)) (h : 4 ≤ losses.countP fun x => !x.1 && !x.2) :
    ∃ l, (AckedLink.fresh sourceA twoMessages).attempts (sourceHeader sourceA) true (List.replicate 60 0xee)
        (losses.map fun x => ⟨x.1, x.2, [], []⟩) = .ok l ∧ l.queue = [] ∧
      l.peer.delivered sourceA = [[1, 2, 3, 4, 5], [6]] :=
  c98_all_delivered_partial _ _ sourceA_header true _ _ twoMessages_sendable _
    (by
      intro r hr
      obtain ⟨x, -, rfl⟩ := List.mem_map.1 hr
      exact ⟨(fun b hb => by cases hb), (fun b hb => by cases hb)⟩)
    (by rw [List.countP_map]; exact h)

omit [ScrollRule] [Crc32] in
/-- Frames and acknowledgements are lost, and an acknowledgement for another station is heard: after the second message got
through but not its acknowledgement, one piece is left to be sent and both messages are delivered. -/
example (s : Bool) :
    letI : ScrollRule := ⟨s⟩
    letI : Crc32 := ⟨fun _ => 0⟩
    (do
      let b ← sendAck true (List.replicate 10 0) (pieceMac 7)
      let l ← (AckedLink.fresh sourceA twoMessages).attempts (sourceHeader sourceA) true (List.replicate 60 0xee)
        [⟨true, false, [], [b]⟩, ⟨false, true, [b], []⟩, ⟨false, false, [], []⟩, ⟨false, false, [], []⟩,
          ⟨false, false, [], []⟩, ⟨false, true, [], [b]⟩]
      pure (l.queue.map Piece.content, l.tried, l.peer.delivered sourceA)) =
      .ok ([[6]], true, [[1, 2, 3, 4, 5], [6]]) := by
  cases s <;> decide +kernel

end Verif
