import Verif.Props.C26
import Verif.Props.C77
import Verif.Props.C93
/-!
# C100: sleeping stations get the messages kept for them

Stations sleep, and an access point keeps their messages.  In its beacons it announces who has messages.  A station that is
awake and finds its number asks for one message after the other, each with a PS-Poll, until a message comes without the
flag for more (11.2.3 of the standard).  Neither program is in the crate; both are written here with its functions.
-/
namespace Verif

namespace Spec

variable [ScrollRule] [Crc32]

/-- A PS-Poll, by the functions of the crate: the frame control field, then the association ID, the access point and the
station.  The crate has no fields for it; the check sequence is the hardware's. -/
def sendPoll (fcs : Bool) (buf : Bytes) (ap me : Mac) (a : AssociationID) : Res Bytes := do
  let c := ControlFrame.Unknown .PSPoll ⟨0⟩ (toLE a.intoBits ++ (ap.val ++ me.val))
  let f ← c.getFcf
  let (out, n) ← Wr.run (do
    Wr.gwrite (writeLE f.bits)
    Wr.gwrite (writeControlFrame c)) buf
  pure (withFcs fcs (out.take n))

/-- Who asks for a message, with which association ID? -/
def pollOf (ap : Mac) (fcs : Bool) (bytes : Bytes) : Res (Option (Nat × Mac)) :=
  match GenericFrame.new bytes fcs with
  | .panic => .panic
  | .err _ => .ok none
  | .ok g => do
    let f ← g.frameControlField
    let d ← g.duration
    let to ← g.address1
    let me ← g.address2
    pure (if f.frameType = .Control .PSPoll ∧ to = ap then
      match AssociationID.newChecked d, me with
      | some a, some m => some (a.aid.toNat, m)
      | _, _ => none
    else none)

omit [ScrollRule] [Crc32] in
/-- The header of a message for a station. -/
def keptHeader (h : DataFrameHeader) (to : Mac) (more : Bool) : DataFrameHeader :=
  { h with address_1 := to, fcf_flags := h.fcf_flags.with_more_data more }

/-- The access point sends a message, and says whether there are more. -/
def sendKept (fcs : Bool) (buf : Bytes) (h : DataFrameHeader) (to : Mac) (more : Bool) (m : Bytes) : Res Bytes := do
  let (out, n) ← writeDataFrame ⟨keptHeader h to more, some (bytesObj m)⟩ fcs buf
  pure (out.take n)

/-- A message for me from my access point, and are there more? -/
def takeKept (me ap : Mac) (fcs : Bool) (bytes : Bytes) : Res (Option (Bytes × Bool)) :=
  match matchFrames bytes (if fcs then some true else none) [armOf dataFrameKind readDataFrame id] with
  | .panic => .panic
  | .err _ => .ok none
  | .ok (_, f) => .ok (if f.header.address_1 = me ∧ f.header.address_2 = ap then
      f.payload.map fun c => (c, f.header.fcf_flags.more_data) else none)

omit [ScrollRule] [Crc32] in
/-- What the access point keeps for each station, and what each has got, oldest first. -/
structure Mailboxes where
  kept : Nat → List Bytes
  got : Nat → List Bytes

omit [ScrollRule] [Crc32] in
/-- A network with stations that sleep: its headers, its elements, the addresses of the stations, and how the access point
makes a bitmap that announces some of them. -/
structure SleepyCell where
  fcs : Bool
  data : DataFrameHeader
  beacon : ManagementFrameHeader
  body : BeaconLikeBody Unit
  before : List (ChainItem × RawElement)
  after : List (ChainItem × RawElement)
  count : Byte
  period : Byte
  station : Nat → Mac
  bitmap : (Nat → Bool) → TIMBitmapControl × Bytes

omit [ScrollRule] [Crc32] in
/-- From one beacon to the next: messages arrive before the beacon, and these stations are awake for it, each for so many
questions at most. -/
structure BeaconInterval where
  arrivals : List (Nat × Bytes)
  awake : List (Nat × Nat)

/-- A station asks, up to `k` times. -/
def SleepyCell.ask (c : SleepyCell) (buf : Bytes) (a : Nat) : Nat → Mailboxes → Res Mailboxes
  | 0, b => .ok b
  | k + 1, b =>
    match AssociationID.newChecked (BitVec.ofNat 16 a) with
    | none => .ok b
    | some id => do
      let poll ← sendPoll c.fcs buf c.data.address_2 (c.station a) id
      let who ← pollOf c.data.address_2 c.fcs poll
      match who with
      | none => .ok b
      | some (x, to) =>
        match b.kept x with
        | [] => .ok b
        | m :: rest => do
          let frame ← sendKept c.fcs buf c.data to (!rest.isEmpty) m
          let r ← takeKept (c.station a) c.data.address_2 c.fcs frame
          let b := { b with kept := fun y => if y = x then rest else b.kept y }
          match r with
          | none => .ok b
          | some (m, more) =>
            let b := { b with got := fun y => if y = a then b.got y ++ [m] else b.got y }
            if more then c.ask buf a k b else .ok b

/-- The stations that are awake have heard this beacon. -/
def SleepyCell.hear (c : SleepyCell) (buf beacon : Bytes) : List (Nat × Nat) → Mailboxes → Res Mailboxes
  | [], b => .ok b
  | (a, k) :: l, b => do
    let told ← told c.fcs beacon
    let b ← (if a ∈ told.map (fun i => i.aid.toNat) then c.ask buf a k b else .ok b)
    c.hear buf beacon l b

/-- One interval. -/
def SleepyCell.interval (c : SleepyCell) (buf : Bytes) (b : Mailboxes) (i : BeaconInterval) : Res Mailboxes := do
  let b := i.arrivals.foldl (fun b x => { b with kept := fun y => if y = x.1 then b.kept y ++ [x.2] else b.kept y }) b
  let (ctl, map) := c.bitmap fun a => !(b.kept a).isEmpty
  let te ← timElem ⟨c.count, c.period, some ⟨ctl, some (.slice map)⟩⟩
  let (out, n) ← beaconWith c.beacon c.body (chainAround (c.before.map Prod.fst) (c.after.map Prod.fst) (.typed te)) c.fcs buf
  c.hear buf (out.take n) i.awake b

/-- One after the other. -/
def SleepyCell.intervals (c : SleepyCell) (buf : Bytes) : Mailboxes → List BeaconInterval → Res Mailboxes
  | b, [] => .ok b
  | b, i :: is => do
    let b ← c.interval buf b i
    c.intervals buf b is

omit [ScrollRule] [Crc32] in
/-- Bitmaps that announce exactly who has messages, by the standard. -/
def Announces (bitmap : (Nat → Bool) → TIMBitmapControl × Bytes) : Prop :=
  ∀ w, (bitmap w).2.length ≤ 252 ∧
    ∀ a, 1 ≤ a → a ≤ 2007 → (Announced (bitmap w).1.n1 (bitmap w).2 a ↔ w a = true)

/-- The network can be written. -/
structure SleepyCell.Fine (c : SleepyCell) : Prop where
  data : ∃ s, SourceHeader c.data s
  beacon : HtConsistent c.beacon
  before : NoTims c.before
  after : NoTims c.after
  count : ¬ c.period < c.count
  bitmap : Announces c.bitmap

omit [ScrollRule] [Crc32] in
/-- What ought to be: messages are put into the boxes, -/
def Mailboxes.post (b : Mailboxes) (l : List (Nat × Bytes)) : Mailboxes :=
  { b with kept := fun a => b.kept a ++ (l.filter (·.1 = a)).map (·.2) }

omit [ScrollRule] [Crc32] in
/-- and a station takes so many from its own. -/
def Mailboxes.fetch (b : Mailboxes) (a k : Nat) : Mailboxes :=
  ⟨fun y => if y = a then (b.kept a).drop k else b.kept y, fun y => if y = a then b.got a ++ (b.kept a).take k else b.got y⟩

omit [ScrollRule] [Crc32] in
/-- In an interval, everybody who is awake fetches, unless some are missed. -/
def Mailboxes.after (b : Mailboxes) (missed : Mailboxes → Nat → Bool) (i : BeaconInterval) : Mailboxes :=
  (i.awake.filter fun x => !missed (b.post i.arrivals) x.1).foldl (fun b x => b.fetch x.1 x.2) (b.post i.arrivals)

omit [ScrollRule] [Crc32] in
/-- The station that the crate misses (C16): the one of the first bit that is sent. -/
def SleepyCell.misses (c : SleepyCell) (b : Mailboxes) (a : Nat) : Bool :=
  8 * (c.bitmap fun a => !(b.kept a).isEmpty).1.n1 = a

end Spec

open Spec

variable [ScrollRule] [Crc32]

/-! ## Asking -/

omit [ScrollRule] [Crc32] in
private theorem psPoll_valid : ValidFrameType (.Control .PSPoll) := ⟨by decide, fun v hv => by cases hv⟩

/-- A question is what the standard has for one: type 1, subtype 10, association ID, access point, station. -/
theorem c100_poll_iff (ap : Mac) (fcs : Bool) (bytes : Bytes) :
    (pollOf ap fcs bytes = .panic ↔ fcs = true ∧ bytes.length < 4) ∧ (∀ e, pollOf ap fcs bytes ≠ .err e) ∧
    ∀ a m, pollOf ap fcs bytes = .ok (some (a, m)) ↔ ∃ (b0 b1 : Byte) (d : BitVec 16) (rest : Bytes),
      bytes = withFcs fcs (b0 :: b1 :: (toLE d ++ (ap.val ++ (m.val ++ rest)))) ∧ b0.toNat / 4 = 41 ∧
      d.toNat % 2 ^ 14 = a ∧ 1 ≤ a ∧ a ≤ 2007 := by
  rw [← c24_new_panics_iff]
  have back : ∀ (b0 b1 : Byte) (d : BitVec 16) (m : Mac) (rest : Bytes),
      bytes = withFcs fcs (b0 :: b1 :: (toLE d ++ (ap.val ++ (m.val ++ rest)))) →
      GenericFrame.new bytes fcs = .ok ⟨b0 :: b1 :: (toLE d ++ (ap.val ++ (m.val ++ rest)))⟩ := by
    intro b0 b1 d m rest h1
    refine (c24_new _ _ _).2 ⟨h1, ?_⟩
    simp
    omega
  unfold pollOf
  cases hg : GenericFrame.new bytes fcs with
  | panic =>
    refine ⟨by simp, by simp, fun a m => ⟨(fun h => by cases h), ?_⟩⟩
    rintro ⟨b0, b1, d, rest, h1, -⟩
    rw [hg] at back
    cases back b0 b1 d m rest h1
  | err e =>
    refine ⟨by simp, by simp, fun a m => ⟨(fun h => by cases h), ?_⟩⟩
    rintro ⟨b0, b1, d, rest, h1, -⟩
    rw [hg] at back
    cases back b0 b1 d m rest h1
  | ok g =>
    obtain ⟨gb⟩ := g
    obtain ⟨hb, hl⟩ := (c24_new _ _ _).1 hg
    obtain ⟨-, d, to, -, -, hd, hd', ha, ha'⟩ := c24_always ⟨gb⟩ hl
    obtain ⟨b0, b1, r, f, rfl, hf, -, htn, -, hv⟩ := generic_fcf_cons gb hl
    have hpoll : f.frameType = .Control .PSPoll ↔ b0.toNat / 4 = 41 := by
      constructor
      · intro h
        rw [h] at htn
        have h1 := congrArg Prod.fst htn
        have h2 := congrArg Prod.snd htn
        change 1 = _ at h1
        change 10 = _ at h2
        simp only at h1 h2
        omega
      · intro h
        refine typeNumbers_inj _ _ hv psPoll_valid ?_
        rw [htn]
        change _ = (1, 10)
        simp only [Prod.mk.injEq]
        omega
    have h2 := c24_address2 ⟨b0 :: b1 :: r⟩ f hf
    simp only [hf, hd, ha, Res.ok_bind]
    have huniq : ∀ a m, (∃ (c0 c1 : Byte) (d : BitVec 16) (rest : Bytes),
        bytes = withFcs fcs (c0 :: c1 :: (toLE d ++ (ap.val ++ (m.val ++ rest)))) ∧ c0.toNat / 4 = 41 ∧
        d.toNat % 2 ^ 14 = a ∧ 1 ≤ a ∧ a ≤ 2007) ↔ ∃ (d : BitVec 16) (rest : Bytes),
        r = toLE d ++ (ap.val ++ ((m : Mac).val ++ rest)) ∧ b0.toNat / 4 = 41 ∧
        d.toNat % 2 ^ 14 = a ∧ 1 ≤ a ∧ a ≤ 2007 := by
      intro a m
      constructor
      · rintro ⟨c0, c1, d, rest, h1, h3⟩
        have := back c0 c1 d m rest h1
        rw [hg] at this
        cases this
        exact ⟨d, rest, rfl, h3⟩
      · rintro ⟨d, rest, rfl, h3⟩
        exact ⟨b0, b1, d, rest, hb, h3⟩
    simp only [huniq]
    have hslice : ∀ (e : BitVec 16) (m : Mac) rest, r = toLE e ++ (ap.val ++ (m.val ++ rest)) →
        d = e ∧ to = ap ∧ Spec.slice (b0 :: b1 :: r) 10 6 = m.val ∧ 16 ≤ (b0 :: b1 :: r).length := by
      rintro e m rest rfl
      simp only [Spec.slice, List.drop_succ_cons, List.drop_zero] at hd' ha' ⊢
      rw [List.take_left' (by simp)] at hd'
      rw [List.drop_left' (by simp), List.take_left' (by simp)] at ha'
      refine ⟨toLE_inj rfl hd', Subtype.ext ha', ?_, by simp; omega⟩
      rw [← List.append_assoc, List.drop_left' (by simp), List.take_left' (by simp)]
    rcases h2 with ⟨h2, h3⟩ | ⟨a2, h2, h4, h5, h6⟩
    · simp only [h2, Res.ok_bind]
      refine ⟨by simp, by simp, fun a m => ⟨fun h => ?_, ?_⟩⟩
      · exfalso
        simp only [Res.pure_eq, Res.ok.injEq] at h
        split at h
        · split at h
          · rename_i hx; cases hx
          · cases h
        · cases h
      · rintro ⟨e, rest, h7, h8, -⟩
        exfalso
        obtain ⟨-, -, -, h9⟩ := hslice e m rest h7
        rw [hpoll.2 h8] at h3
        rcases h3 with h3 | h3
        · cases h3
        · have h3 : (b0 :: b1 :: r).length < 16 := h3
          omega
    · simp only [h2, Res.ok_bind]
      refine ⟨by simp, by simp, fun a m => ?_⟩
      simp only [Res.pure_eq, Res.ok.injEq, hpoll]
      have hsplit : r = toLE d ++ (to.val ++ (a2.val ++ r.drop 14)) := by
        simp only [Spec.slice, List.drop_succ_cons, List.drop_zero] at hd' ha' h4
        rw [hd', ha', h4, show r.drop 14 = (r.drop 8).drop 6 by simp, List.take_append_drop,
          show r.drop 8 = (r.drop 2).drop 6 by simp, List.take_append_drop, List.take_append_drop]
      constructor
      · intro h
        split at h
        · rename_i hc
          split at h
          · rename_i i m' h7 h8
            simp only [Option.some.injEq] at h8 h
            cases h
            cases h8
            have h9 := c04_aid _ _ h7
            refine ⟨d, r.drop 14, ?_, hc.1, h9.symm, ?_⟩
            · rw [← hc.2]; exact hsplit
            · have := (c04_new_checked _ _).1 h7
              omega
          · cases h
        · cases h
      · rintro ⟨e, rest, h7, h8, h9, h10, h11⟩
        obtain ⟨rfl, rfl, k1, -⟩ := hslice e m rest h7
        rw [if_pos ⟨h8, rfl⟩]
        have : a2 = m := Subtype.ext (by rw [h4, k1])
        subst this
        cases hn : AssociationID.newChecked d with
        | none =>
          have := (c04_refused d).1 hn
          omega
        | some i =>
          have := c04_aid _ _ hn
          simp only [Option.some.injEq, Prod.mk.injEq, and_true]
          omega

/-- A question as it is sent. -/
private theorem poll_sent (fcs : Bool) (buf : Bytes) (ap me : Mac) (a : AssociationID) (hb : 16 ≤ buf.length) :
    sendPoll fcs buf ap me a = .ok (withFcs fcs (0xa4 :: 0 :: (toLE a.intoBits ++ (ap.val ++ (me.val ++ []))))) := by
  have hs := slack_le
  obtain ⟨f, h1, -, -, h2⟩ := c26_fcf (.Unknown .PSPoll ⟨0⟩ (toLE a.intoBits ++ (ap.val ++ me.val))) psPoll_valid
  have hf : toLE f.bits = [0xa4, 0] := by
    rw [h2]
    show frameStart (.Control .PSPoll) ⟨0⟩ = _
    decide
  have hE : Emits (Wr.run (do
      Wr.gwrite (writeLE f.bits)
      Wr.gwrite (writeControlFrame (.Unknown .PSPoll ⟨0⟩ (toLE a.intoBits ++ (ap.val ++ me.val))))))
      (toLE f.bits ++ (toLE a.intoBits ++ (ap.val ++ me.val))) 16 := by
    apply Emits.cast
    · apply WEmits.run
      wr_steps
      exact WEmits.gwrite_pos (c26_write _) (by simp [controlWire]; omega)
    · rfl
    · simp [controlWire]; omega
  simp only [sendPoll, h1, Res.ok_bind, hE.ok buf hb]
  rw [List.take_left' (by simp), hf]
  simp

/-- The question of a station is heard by its access point, and by no other. -/
theorem c100_poll (fcs : Bool) (buf : Bytes) (ap me : Mac) (a : AssociationID) (x : BitVec 16)
    (hx : AssociationID.newChecked x = some a) (hb : 16 ≤ buf.length) (ap' : Mac) :
    ∃ b, sendPoll fcs buf ap me a = .ok b ∧
      pollOf ap' fcs b = .ok (if ap' = ap then some (x.toNat % 2 ^ 14, me) else none) := by
  refine ⟨_, poll_sent fcs buf ap me a hb, ?_⟩
  obtain ⟨h1, h2, h3⟩ := c100_poll_iff ap' fcs (withFcs fcs (0xa4 :: 0 :: (toLE a.intoBits ++ (ap.val ++ (me.val ++ [])))))
  have hl : ¬ (fcs = true ∧ (withFcs fcs (0xa4 :: 0 :: (toLE a.intoBits ++ (ap.val ++ (me.val ++ []))))).length < 4) := by
    rintro ⟨rfl, h⟩
    simp [withFcs] at h
  have hsome := (c04_new_checked _ _).1 hx
  cases hr : pollOf ap' fcs (withFcs fcs (0xa4 :: 0 :: (toLE a.intoBits ++ (ap.val ++ (me.val ++ []))))) with
  | panic => exact absurd (h1.1 hr) hl
  | err e => exact absurd hr (h2 e)
  | ok o =>
    by_cases hap : ap' = ap
    · subst hap
      rw [if_pos rfl, ← hr, h3]
      refine ⟨_, _, a.intoBits, [], rfl, by decide, ?_, ?_, ?_⟩ <;> omega
    · rw [if_neg hap]
      cases o with
      | none => rfl
      | some p =>
        obtain ⟨b, m⟩ := p
        obtain ⟨b0, b1, d, rest, g1, -⟩ := (h3 b m).1 hr
        exfalso
        have : (0xa4 :: 0 :: (toLE a.intoBits ++ (ap.val ++ (me.val ++ []))) : Bytes) =
            b0 :: b1 :: (toLE d ++ (ap'.val ++ (m.val ++ rest))) := by
          cases fcs
          · exact g1
          · exact List.append_inj_left' g1 (by simp)
        simp only [List.cons.injEq] at this
        obtain ⟨-, -, k⟩ := this
        have k := List.append_inj_right k (by simp)
        exact hap (Subtype.ext (List.append_inj_left k (by simp)).symm)

/-! ## Answering -/

omit [ScrollRule] [Crc32] in
private theorem kept_header (h : DataFrameHeader) (s : Source) (hh : SourceHeader h s) (to : Mac) (more : Bool) :
    SourceHeader (keptHeader h to more) s ∧ (keptHeader h to more).fcf_flags.more_data = more ∧
    (dataHeaderWire (keptHeader h to more)).length = (dataHeaderWire h).length := by
  obtain ⟨h1, ⟨h4, hq, ho⟩, h3, h5, h6⟩ := hh
  obtain ⟨b0, b1, -, -, -, b5, -, b7⟩ := c03_FCFFlags
  have g0 : (keptHeader h to more).fcf_flags.to_ds = h.fcf_flags.to_ds := (c03_get_set_flag b5 b0 (by decide) _ _).2
  have g1 : (keptHeader h to more).fcf_flags.from_ds = h.fcf_flags.from_ds := (c03_get_set_flag b5 b1 (by decide) _ _).2
  have g7 : (keptHeader h to more).fcf_flags.order = h.fcf_flags.order := (c03_get_set_flag b5 b7 (by decide) _ _).2
  refine ⟨⟨h1, ⟨?_, hq, ?_⟩, h3, h5, h6⟩, (c03_get_set_flag b5 b0 (by decide) _ _).1, ?_⟩
  · rw [g0, g1]; exact h4
  · rw [g7]; exact ho
  · simp [dataHeaderWire, keptHeader]

/-- A message reaches the station that it is for, and no other, with the flag for more. -/
theorem c100_answer (fcs : Bool) (buf : Bytes) (h : DataFrameHeader) (s : Source) (hh : SourceHeader h s) (to : Mac)
    (more : Bool) (m : Bytes) (hb : 3 + (dataHeaderWire h).length + m.length + (if fcs then 4 else 0) ≤ buf.length)
    (me ap : Mac) : ∃ b, sendKept fcs buf h to more m = .ok b ∧
      takeKept me ap fcs b = .ok (if to = me ∧ h.address_2 = ap then some (m, more) else none) := by
  obtain ⟨h1, h2, h3⟩ := kept_header h s hh to more
  have hs := slack_le
  obtain ⟨out, n, content, g1, g2, g3⟩ := frame_arrives (keptHeader h to more) h1.valid h1.consistent h1.data
    (bytesObj m) (· = m) _ (Emits.bytes m).writes fcs id [] [] (fun _ ha => by cases ha) buf
    (by rw [h3]; omega)
  subst g2
  refine ⟨out.take n, ?_, ?_⟩
  · simp only [sendKept, g1, Res.ok_bind]; rfl
  · have g3 : matchFrames (out.take n) (if fcs then some true else none) [armOf dataFrameKind readDataFrame id] =
      .ok (0, ⟨keptHeader h to more, some content⟩) := g3
    simp only [takeKept, g3, Option.map_some, h2]
    rfl

/-- What a station takes for a message is a data frame to it from its access point; nothing else panics but, with check
sequences, fewer than four bytes. -/
theorem c100_taken (me ap : Mac) (fcs : Bool) (bytes : Bytes) :
    (takeKept me ap fcs bytes = .panic ↔ fcs = true ∧ bytes.length < 4) ∧
    ∀ m more, takeKept me ap fcs bytes = .ok (some (m, more)) → ∃ (b0 b1 : Byte) (d : BitVec 16) (rest : Bytes),
      bytes = withFcs fcs (b0 :: b1 :: (toLE d ++ (me.val ++ (ap.val ++ rest)))) ∧ b0.toNat / 4 % 4 = 2 ∧
      more = b1.getLsbD 5 ∧ m <:+ rest := by
  obtain ⟨h1, h2⟩ := match_data fcs bytes
  unfold takeKept
  cases hm : matchFrames bytes (if fcs then some true else none) [armOf dataFrameKind readDataFrame id] with
  | panic => exact ⟨by simpa using h1.1 hm, by simp⟩
  | err e => exact ⟨by rw [← h1, hm]; simp, by simp⟩
  | ok x =>
    obtain ⟨i, f⟩ := x
    refine ⟨by rw [← h1, hm]; simp, fun m more h => ?_⟩
    obtain ⟨frame, n, k1, k2⟩ := h2 i f hm
    simp only [Res.ok.injEq] at h
    split at h
    · rename_i hc
      obtain ⟨b0, rest, hf, hb0, -, hp, -⟩ := c49_parse false frame f n k2
      have hf : frame = b0 :: f.header.fcf_flags.bits :: (dataHeaderWire f.header ++ rest) := hf
      rw [hp] at h
      split at h
      · simp only [Option.map_some, Option.some.injEq, Prod.mk.injEq] at h
        obtain ⟨rfl, rfl⟩ := h
        obtain ⟨-, -, -, -, -, b5, -⟩ := c03_FCFFlags
        refine ⟨b0, f.header.fcf_flags.bits, f.header.duration, _, ?_, hb0, ?_, List.suffix_append
          (f.header.address_3.val ++ (toLE f.header.sequence_control.bits ++ (optWire f.header.address_4 ++
            (optWire f.header.qos ++ optWire f.header.ht_control)))) rest⟩
        · rw [k1, hf, ← hc.1, ← hc.2]
          simp only [dataHeaderWire, List.append_assoc]
        · exact b5.2.1 _
      · cases h
    · cases h

/-! ## A network -/

omit [ScrollRule] [Crc32] in
private theorem fetch_nil (b : Mailboxes) (a k : Nat) (h : b.kept a = []) : b.fetch a k = b := by
  obtain ⟨kept, got⟩ := b
  simp only at h
  simp only [Mailboxes.fetch, h, List.drop_nil, List.take_nil, List.append_nil, Mailboxes.mk.injEq]
  constructor <;> funext y <;> split <;> simp_all

omit [ScrollRule] [Crc32] in
private theorem fetch_zero (b : Mailboxes) (a : Nat) : b.fetch a 0 = b := by
  obtain ⟨kept, got⟩ := b
  simp only [Mailboxes.fetch, List.drop_zero, List.take_zero, List.append_nil, Mailboxes.mk.injEq]
  constructor <;> funext y <;> split <;> simp_all

omit [ScrollRule] [Crc32] in
private theorem fetch_succ (b : Mailboxes) (a k : Nat) (m : Bytes) (rest : List Bytes) (h : b.kept a = m :: rest) :
    b.fetch a (k + 1) = Mailboxes.fetch ⟨fun y => if y = a then rest else b.kept y,
      fun y => if y = a then b.got y ++ [m] else b.got y⟩ a k := by
  simp only [Mailboxes.fetch, h, List.drop_succ_cons, List.take_succ_cons, if_true, Mailboxes.mk.injEq]
  constructor <;> funext y <;> split <;> simp_all

omit [ScrollRule] [Crc32] in
private theorem fetch_kept (b : Mailboxes) (a k y : Nat) : ∀ m ∈ (b.fetch a k).kept y, m ∈ b.kept y := by
  intro m hm
  simp only [Mailboxes.fetch] at hm
  split at hm
  · rename_i h
    subst h
    exact List.mem_of_mem_drop hm
  · exact hm

/-- A station that asks gets the messages that are kept for it, one for each question. -/
private theorem ask_fetches (c : SleepyCell) (hc : c.Fine) (buf : Bytes) (a : Nat) (h1 : 1 ≤ a) (h2 : a ≤ 2007)
    (bound : Nat) (hbuf : 16 + (dataHeaderWire c.data).length + bound + 4 ≤ buf.length) (k : Nat) (b : Mailboxes)
    (hb : ∀ m ∈ b.kept a, m.length ≤ bound) : c.ask buf a k b = .ok (b.fetch a k) := by
  obtain ⟨s, hs⟩ := hc.data
  induction k generalizing b with
  | zero => rw [SleepyCell.ask, fetch_zero]
  | succ k ih =>
    rw [SleepyCell.ask]
    have hx : (BitVec.ofNat 16 a).toNat % 2 ^ 14 = a := by simp; omega
    cases hn : AssociationID.newChecked (BitVec.ofNat 16 a) with
    | none =>
      have := (c04_refused _).1 hn
      omega
    | some id =>
      obtain ⟨poll, g1, g2⟩ := c100_poll c.fcs buf c.data.address_2 (c.station a) id _ hn (by omega) c.data.address_2
      rw [if_pos rfl, hx] at g2
      simp only [g1, g2, Res.ok_bind]
      cases hk : b.kept a with
      | nil => simp only [fetch_nil b a _ hk]
      | cons m rest =>
        have hm : m.length ≤ bound := hb m (by simp [hk])
        obtain ⟨frame, g3, g4⟩ := c100_answer c.fcs buf c.data s hs (c.station a) (!rest.isEmpty) m
          (by split <;> omega) (c.station a) c.data.address_2
        rw [if_pos ⟨rfl, rfl⟩] at g4
        simp only [g3, g4, Res.ok_bind]
        rw [fetch_succ b a k m rest hk]
        cases rest with
        | nil =>
          simp only [List.isEmpty_nil, Bool.not_true, Bool.false_eq_true, if_false]
          rw [fetch_nil]
          simp
        | cons m' rest =>
          simp only [List.isEmpty_cons, Bool.not_false, if_true]
          rw [ih]
          intro x hx
          simp only [if_true] at hx
          exact hb x (by rw [hk]; exact List.mem_cons_of_mem _ hx)

private theorem hear_fetches (c : SleepyCell) (hc : c.Fine) (buf beacon : Bytes) (w : Nat → Bool) (missed : Nat → Bool)
    (l : List AssociationID) (ht : told c.fcs beacon = .ok l)
    (hl : ∀ a, 1 ≤ a → a ≤ 2007 → (a ∈ l.map (fun i => i.aid.toNat) ↔ w a = true ∧ missed a = false))
    (bound : Nat) (hbuf : 16 + (dataHeaderWire c.data).length + bound + 4 ≤ buf.length)
    (awake : List (Nat × Nat)) (hr : ∀ x ∈ awake, 1 ≤ x.1 ∧ x.1 ≤ 2007) (b : Mailboxes)
    (hb : ∀ a, ∀ m ∈ b.kept a, m.length ≤ bound) (hw : ∀ a, w a = false → b.kept a = []) :
    c.hear buf beacon awake b = .ok ((awake.filter fun x => !missed x.1).foldl (fun b x => b.fetch x.1 x.2) b) := by
  induction awake generalizing b with
  | nil => rfl
  | cons x awake ih =>
    obtain ⟨a, k⟩ := x
    obtain ⟨h1, h2⟩ := hr (a, k) (by simp)
    have ih := ih fun x hx => hr x (by simp [hx])
    have hf : ∀ y, w y = false → (b.fetch a k).kept y = [] := by
      intro y hy
      refine List.eq_nil_iff_forall_not_mem.2 fun m hm => ?_
      have := fetch_kept b a k y m hm
      rw [hw y hy] at this
      cases this
    simp only [SleepyCell.hear, ht, Res.ok_bind]
    cases hm : missed a with
    | true =>
      rw [if_neg (fun h => by have := ((hl a h1 h2).1 h).2; rw [hm] at this; cases this), Res.ok_bind, ih b hb hw]
      simp [hm]
    | false =>
      have hfil : ((a, k) :: awake).filter (fun x => !missed x.1) = (a, k) :: awake.filter fun x => !missed x.1 := by
        simp [hm]
      rw [hfil, List.foldl_cons]
      cases hwa : w a with
      | true =>
        rw [if_pos ((hl a h1 h2).2 ⟨hwa, hm⟩), ask_fetches c hc buf a h1 h2 bound hbuf k b (hb a), Res.ok_bind,
          ih _ (fun y m hm => hb y m (fetch_kept b a k y m hm)) hf]
      | false =>
        rw [if_neg (fun h => by have := ((hl a h1 h2).1 h).1; rw [hwa] at this; cases this), Res.ok_bind, ih b hb hw,
          fetch_nil b a k (hw a hwa)]

omit [ScrollRule] [Crc32] in
private theorem posted (l : List (Nat × Bytes)) (b : Mailboxes) :
    l.foldl (fun b x => { b with kept := fun y => if y = x.1 then b.kept y ++ [x.2] else b.kept y }) b = b.post l := by
  induction l generalizing b with
  | nil => simp [Mailboxes.post]
  | cons x l ih =>
    rw [List.foldl_cons, ih]
    obtain ⟨a, m⟩ := x
    simp only [Mailboxes.post, Mailboxes.mk.injEq, and_true]
    funext y
    by_cases h : y = a
    · subst h; simp
    · have h' : ¬ a = y := fun e => h e.symm
      simp [h, h']

private theorem interval_exact (c : SleepyCell) (hc : c.Fine) (bound : Nat) (b : Mailboxes)
    (hb : ∀ a, ∀ m ∈ b.kept a, m.length ≤ bound) (i : BeaconInterval) (hi : ∀ x ∈ i.arrivals, x.2.length ≤ bound)
    (hr : ∀ x ∈ i.awake, 1 ≤ x.1 ∧ x.1 ≤ 2007) :
    (∀ a, ∀ m ∈ (b.after c.misses i).kept a, m.length ≤ bound) ∧
    ∃ size, ∀ buf : Bytes, size ≤ buf.length → c.interval buf b i = .ok (b.after c.misses i) := by
  have hp : ∀ a, ∀ m ∈ (b.post i.arrivals).kept a, m.length ≤ bound := by
    intro a m hm
    simp only [Mailboxes.post, List.mem_append, List.mem_map, List.mem_filter] at hm
    rcases hm with hm | ⟨x, ⟨hx, -⟩, rfl⟩
    · exact hb a m hm
    · exact hi x hx
  constructor
  · have : ∀ (l : List (Nat × Nat)) (b : Mailboxes), (∀ a, ∀ m ∈ b.kept a, m.length ≤ bound) →
        ∀ a, ∀ m ∈ (l.foldl (fun b x => b.fetch x.1 x.2) b).kept a, m.length ≤ bound := by
      intro l
      induction l with
      | nil => intro b hb; exact hb
      | cons x l ih => intro b hb; exact ih _ fun y m hm => hb y m (fetch_kept b x.1 x.2 y m hm)
    exact this _ _ hp
  · have hbm := hc.bitmap fun a => !((b.post i.arrivals).kept a).isEmpty
    obtain ⟨te, g1, size, g2⟩ := c77_bytes_partial c.beacon hc.beacon c.body c.before c.after hc.before hc.after c.count
      c.period hc.count (c.bitmap fun a => !((b.post i.arrivals).kept a).isEmpty).1
      (c.bitmap fun a => !((b.post i.arrivals).kept a).isEmpty).2 hbm.1 c.fcs
    refine ⟨max size (16 + (dataHeaderWire c.data).length + bound + 4), fun buf hbuf => ?_⟩
    obtain ⟨out, n, l, g3, g4, -, g5⟩ := g2 buf (by omega)
    simp only [SleepyCell.interval, posted, g1, g3, Res.ok_bind]
    refine hear_fetches c hc buf (out.take n) (fun a => !((b.post i.arrivals).kept a).isEmpty)
      (c.misses (b.post i.arrivals)) l g4 ?_ bound (by omega) i.awake hr _ hp ?_
    · intro a h1 h2
      rw [g5]
      show (_ ∧ _) ↔ _
      rw [hbm.2 a h1 h2]
      simp only [SleepyCell.misses, decide_eq_false_iff_not]
      exact and_congr_right fun _ => ⟨fun h e => h e.symm, fun h e => h e.symm⟩
    · intro a ha
      simpa using ha

omit [ScrollRule] [Crc32] in
/-- Nothing kept, nothing got. -/
def Spec.Mailboxes.empty : Mailboxes := ⟨fun _ => [], fun _ => []⟩

/-- Exactly what happens in a network with stations that sleep, however the access point makes the bitmap, whoever is awake
and when: everybody who is awake fetches messages, one for each question, except for the station of the first bit of the
bitmap. -/
theorem c100_exact (c : SleepyCell) (hc : c.Fine) (is : List BeaconInterval)
    (hr : ∀ i ∈ is, ∀ x ∈ i.awake, 1 ≤ x.1 ∧ x.1 ≤ 2007) :
    ∃ size, ∀ buf : Bytes, size ≤ buf.length →
      c.intervals buf .empty is = .ok (is.foldl (fun b i => b.after c.misses i) .empty) := by
  obtain ⟨bound, hbound⟩ : ∃ bound, ∀ i ∈ is, ∀ x ∈ i.arrivals, x.2.length ≤ bound := by
    clear hr
    induction is with
    | nil => exact ⟨0, by simp⟩
    | cons i is ih =>
      obtain ⟨n, hn⟩ := ih
      obtain ⟨k, hk⟩ : ∃ k, ∀ x ∈ i.arrivals, x.2.length ≤ k := by
        induction i.arrivals with
        | nil => exact ⟨0, by simp⟩
        | cons x l ih =>
          obtain ⟨k, hk⟩ := ih
          refine ⟨max k x.2.length, fun y hy => ?_⟩
          rcases List.mem_cons.1 hy with rfl | hy
          · omega
          · have := hk y hy; omega
      refine ⟨max n k, fun j hj x hx => ?_⟩
      rcases List.mem_cons.1 hj with rfl | hj
      · have := hk x hx; omega
      · have := hn j hj x hx; omega
  have main : ∀ (is : List BeaconInterval) (b : Mailboxes), (∀ i ∈ is, ∀ x ∈ i.awake, 1 ≤ x.1 ∧ x.1 ≤ 2007) →
      (∀ i ∈ is, ∀ x ∈ i.arrivals, x.2.length ≤ bound) → (∀ a, ∀ m ∈ b.kept a, m.length ≤ bound) →
      ∃ size, ∀ buf : Bytes, size ≤ buf.length → c.intervals buf b is = .ok (is.foldl (fun b i => b.after c.misses i) b) := by
    intro is
    induction is with
    | nil => intro b _ _ _; exact ⟨0, fun _ _ => rfl⟩
    | cons i is ih =>
      intro b hr ha hb
      obtain ⟨h1, n, h2⟩ := interval_exact c hc bound b hb i (ha i (by simp)) (hr i (by simp))
      obtain ⟨k, h3⟩ := ih (b.after c.misses i) (fun j hj => hr j (by simp [hj])) (fun j hj => ha j (by simp [hj])) h1
      refine ⟨max n k, fun buf hbuf => ?_⟩
      simp only [SleepyCell.intervals, h2 buf (by omega), Res.ok_bind, h3 buf (by omega), List.foldl_cons]
  exact main is .empty hr hbound (by simp [Mailboxes.empty])

/-! ## What follows -/

section
omit [ScrollRule] [Crc32]

private theorem fetch_conserved (b : Mailboxes) (a k y : Nat) :
    (b.fetch a k).got y ++ (b.fetch a k).kept y = b.got y ++ b.kept y := by
  simp only [Mailboxes.fetch]
  split
  · rename_i h
    subst h
    rw [List.append_assoc, List.take_append_drop]
  · rfl

private theorem fetches_conserved (l : List (Nat × Nat)) (b : Mailboxes) (y : Nat) :
    (l.foldl (fun b x => b.fetch x.1 x.2) b).got y ++ (l.foldl (fun b x => b.fetch x.1 x.2) b).kept y =
      b.got y ++ b.kept y := by
  induction l generalizing b with
  | nil => rfl
  | cons x l ih => rw [List.foldl_cons, ih, fetch_conserved]

private theorem fetches_other (l : List (Nat × Nat)) (b : Mailboxes) (y : Nat) (h : b.kept y = [] ∨ ∀ x ∈ l, x.1 ≠ y) :
    (l.foldl (fun b x => b.fetch x.1 x.2) b).got y = b.got y := by
  induction l generalizing b with
  | nil => rfl
  | cons x l ih =>
    rw [List.foldl_cons]
    rcases h with h | h
    · rw [ih _ (.inl ?_)]
      · by_cases hx : y = x.1
        · subst hx; rw [fetch_nil b _ _ h]
        · simp [Mailboxes.fetch, hx]
      · refine List.eq_nil_iff_forall_not_mem.2 fun m hm => ?_
        have := fetch_kept b x.1 x.2 y m hm
        rw [h] at this
        cases this
    · rw [ih _ (.inr fun z hz => h z (by simp [hz]))]
      have hx : ¬ y = x.1 := fun e => h x (by simp) e.symm
      simp [Mailboxes.fetch, hx]

private theorem fetches_empty (l : List (Nat × Nat)) (b : Mailboxes) (a k : Nat) (h : (a, k) ∈ l)
    (hk : (b.kept a).length ≤ k) : (l.foldl (fun b x => b.fetch x.1 x.2) b).kept a = [] := by
  have hle : ∀ (l : List (Nat × Nat)) (b : Mailboxes), (l.foldl (fun b x => b.fetch x.1 x.2) b).kept a <:+ b.kept a := by
    intro l
    induction l with
    | nil => intro b; exact List.suffix_refl _
    | cons x l ih =>
      intro b
      refine (ih _).trans ?_
      simp only [Mailboxes.fetch]
      split
      · rename_i e; subst e; exact List.drop_suffix _ _
      · exact List.suffix_refl _
  obtain ⟨l1, l2, rfl⟩ := List.append_of_mem h
  rw [List.foldl_append, List.foldl_cons]
  have h1 := hle l1 b
  have h2 := hle l2 ((l1.foldl (fun b x => b.fetch x.1 x.2) b).fetch a k)
  have h3 : ((l1.foldl (fun b x => b.fetch x.1 x.2) b).fetch a k).kept a = [] := by
    simp only [Mailboxes.fetch, if_true]
    exact List.drop_eq_nil_of_le (Nat.le_trans h1.length_le hk)
  rw [h3] at h2
  exact List.suffix_nil.1 h2

/-- The messages for a station, in the order in which they arrive. -/
def Spec.arrived (is : List BeaconInterval) (a : Nat) : List Bytes :=
  is.flatMap fun i => (i.arrivals.filter (·.1 = a)).map (·.2)

private theorem all_conserved (missed : Mailboxes → Nat → Bool) (is : List BeaconInterval) (b : Mailboxes) (a : Nat) :
    (is.foldl (fun b i => b.after missed i) b).got a ++ (is.foldl (fun b i => b.after missed i) b).kept a =
      b.got a ++ b.kept a ++ arrived is a := by
  induction is generalizing b with
  | nil => simp [arrived]
  | cons i is ih =>
    rw [List.foldl_cons, ih, Mailboxes.after, fetches_conserved]
    simp [Mailboxes.post, arrived]

end

/-- Whatever the bitmap: nothing panics, no message gets lost on the way, none is got twice, none by another station, and
the order is kept. -/
theorem c100_conserved (c : SleepyCell) (hc : c.Fine) (is : List BeaconInterval)
    (hr : ∀ i ∈ is, ∀ x ∈ i.awake, 1 ≤ x.1 ∧ x.1 ≤ 2007) :
    ∃ size, ∀ buf : Bytes, size ≤ buf.length → ∃ b, c.intervals buf .empty is = .ok b ∧
      ∀ a, b.got a ++ b.kept a = arrived is a := by
  obtain ⟨size, h⟩ := c100_exact c hc is hr
  refine ⟨size, fun buf hb => ⟨_, h buf hb, fun a => ?_⟩⟩
  rw [all_conserved]
  rfl

/-- An access point that sends its bitmaps from the very first byte misses nobody: everybody who is awake gets a message for
each question, and all of them if there are enough questions. -/
theorem c100_whole (c : SleepyCell) (hc : c.Fine) (h0 : ∀ w, (c.bitmap w).1.n1 = 0) (is : List BeaconInterval)
    (hr : ∀ i ∈ is, ∀ x ∈ i.awake, 1 ≤ x.1 ∧ x.1 ≤ 2007) :
    ∃ size, ∀ buf : Bytes, size ≤ buf.length →
      c.intervals buf .empty is = .ok (is.foldl (fun b i => b.after (fun _ _ => false) i) .empty) := by
  obtain ⟨size, h⟩ := c100_exact c hc is hr
  refine ⟨size, fun buf hb => ?_⟩
  rw [h buf hb]
  congr 1
  have : ∀ (is : List BeaconInterval) (b : Mailboxes), (∀ i ∈ is, ∀ x ∈ i.awake, 1 ≤ x.1 ∧ x.1 ≤ 2007) →
      is.foldl (fun b i => b.after c.misses i) b = is.foldl (fun b i => b.after (fun _ _ => false) i) b := by
    intro is
    induction is with
    | nil => intro b _; rfl
    | cons i is ih =>
      intro b hr
      rw [List.foldl_cons, List.foldl_cons, ← ih _ fun j hj => hr j (by simp [hj])]
      congr 1
      simp only [Mailboxes.after]
      congr 1
      refine List.filter_congr fun x hx => ?_
      have := hr i (by simp) x hx
      simp only [SleepyCell.misses, h0]
      have hne : ¬ 8 * 0 = x.1 := by omega
      simp [hne]
  exact this is .empty hr

/-- A station that is awake for a last beacon, and is not the one of the first bit, has got all its messages if it asks
often enough. -/
theorem c100_delivered_partial (c : SleepyCell) (hc : c.Fine) (is : List BeaconInterval) (i : BeaconInterval)
    (hr : ∀ j ∈ is ++ [i], ∀ x ∈ j.awake, 1 ≤ x.1 ∧ x.1 ≤ 2007) (a k : Nat) (ha : (a, k) ∈ i.awake)
    (hk : (arrived (is ++ [i]) a).length ≤ k) :
    ∃ size, ∀ buf : Bytes, size ≤ buf.length → ∃ b0 b, c.intervals buf .empty is = .ok b0 ∧
      c.intervals buf .empty (is ++ [i]) = .ok b ∧
      (8 * (c.bitmap fun y => !((b0.post i.arrivals).kept y).isEmpty).1.n1 ≠ a → b.got a = arrived (is ++ [i]) a) := by
  obtain ⟨size, h⟩ := c100_exact c hc is fun j hj => hr j (by simp [hj])
  obtain ⟨size', h'⟩ := c100_exact c hc (is ++ [i]) hr
  refine ⟨max size size', fun buf hb => ⟨_, _, h buf (by omega), h' buf (by omega), fun hne => ?_⟩⟩
  have hall := all_conserved c.misses (is ++ [i]) .empty a
  have hprev := all_conserved c.misses is .empty a
  rw [List.foldl_append] at hall ⊢
  simp only [List.foldl_cons, List.foldl_nil] at hall ⊢
  generalize is.foldl (fun b i => b.after c.misses i) Mailboxes.empty = b0 at *
  have hz : (b0.after c.misses i).kept a = [] := by
    refine fetches_empty _ _ a k (List.mem_filter.2 ⟨ha, ?_⟩) ?_
    · simp only [SleepyCell.misses, Bool.not_eq_true', decide_eq_false_iff_not]
      exact hne
    · refine Nat.le_trans ?_ hk
      have e1 : (Mailboxes.empty.got a ++ Mailboxes.empty.kept a ++ arrived is a) = arrived is a := rfl
      rw [e1] at hprev
      have := congrArg List.length hprev
      simp only [List.length_append] at this
      simp only [Mailboxes.post, arrived, List.flatMap_append, List.flatMap_cons, List.flatMap_nil, List.length_append,
        List.append_nil] at this ⊢
      omega
  rw [hz, List.append_nil] at hall
  exact hall

/-! ## Bitmaps -/

section
omit [ScrollRule] [Crc32]

/-- A byte with these bits. -/
def Spec.byteWith (f : Nat → Bool) : Byte :=
  (List.range 8).foldl (fun b j => if f j then b ||| 1#8 <<< j else b) 0

/-- The bytes of the bitmap from number `n` on. -/
def Spec.bitsFrom (n : Nat) (w : Nat → Bool) : Bytes :=
  (List.range (251 - n)).map fun i => byteWith fun j => w (8 * (n + i) + j)

/-- All of the bitmap. -/
def Spec.wholeBitmap (w : Nat → Bool) : TIMBitmapControl × Bytes := (⟨0⟩, bitsFrom 0 w)

/-- By the standard (9.4.2.5): the bitmap begins with the largest even byte before which there is nothing. -/
def Spec.standardBitmap (w : Nat → Bool) : TIMBitmapControl × Bytes :=
  let n := 2 * (((List.range 2008).find? fun a => 1 ≤ a && w a).getD 0 / 16)
  ((⟨0⟩ : TIMBitmapControl).withN1 (BitVec.ofNat 8 n), bitsFrom n w)

private theorem byteWith_bit (f : Nat → Bool) : ∀ j < 8, (byteWith f).getLsbD j = f j := by
  have key : ∀ x0 x1 x2 x3 x4 x5 x6 x7 : Bool, ∀ j < 8,
      ((List.range 8).foldl (fun b j => if [x0, x1, x2, x3, x4, x5, x6, x7].getD j false then b ||| 1#8 <<< j else b)
        (0 : Byte)).getLsbD j = [x0, x1, x2, x3, x4, x5, x6, x7].getD j false := by
    decide +kernel
  intro j hj
  have h := key (f 0) (f 1) (f 2) (f 3) (f 4) (f 5) (f 6) (f 7) j hj
  have e : byteWith f = (List.range 8).foldl (fun b j => if [f 0, f 1, f 2, f 3, f 4, f 5, f 6, f 7].getD j false then
      b ||| 1#8 <<< j else b) (0 : Byte) := rfl
  rw [e, h]
  match j, hj with
  | 0, _ | 1, _ | 2, _ | 3, _ | 4, _ | 5, _ | 6, _ | 7, _ => rfl

private theorem bitsFrom_bit (n : Nat) (w : Nat → Bool) (a : Nat) (h1 : 8 * n ≤ a) (h2 : a ≤ 2007) :
    bitAt (bitsFrom n w) (a - 8 * n) = w a := by
  have hlt : (a - 8 * n) / 8 < 251 - n := by omega
  simp only [bitAt, bitsFrom, List.getD_eq_getElem?_getD, List.getElem?_map, List.getElem?_range hlt, Option.map_some,
    Option.getD_some]
  rw [byteWith_bit _ _ (by omega)]
  congr 1
  omega

/-- Both announce exactly who has messages. -/
theorem c100_bitmaps : Announces wholeBitmap ∧ (∀ w, (wholeBitmap w).1.n1 = 0) ∧ Announces standardBitmap := by
  refine ⟨fun w => ⟨by simp [wholeBitmap, bitsFrom], fun a h1 h2 => ?_⟩, fun w => show (⟨0⟩ : TIMBitmapControl).n1 = 0 by decide, fun w => ⟨?_, fun a h1 h2 => ?_⟩⟩
  · have hn : (wholeBitmap w).1.n1 = 0 := show (⟨0⟩ : TIMBitmapControl).n1 = 0 by decide
    have hb := bitsFrom_bit 0 w a (by omega) h2
    simp only [Announced, hn]
    exact ⟨fun h => by rw [← hb]; exact h.2.2.2, fun h => ⟨h1, h2, by omega, by rw [← h]; exact hb⟩⟩
  · simp only [standardBitmap, bitsFrom, List.length_map, List.length_range]
    omega
  · cases hf : (List.range 2008).find? fun a => 1 ≤ a && w a with
    | none =>
      have hno := List.find?_eq_none.1 hf a (by simp; omega)
      have hwa : w a = false := by simpa [h1] using hno
      have hb := bitsFrom_bit 0 w a (by omega) h2
      have hn : (standardBitmap w).1.n1 = 0 := by
        simp only [standardBitmap, hf, Option.getD_none]
        decide
      have hm : (standardBitmap w).2 = bitsFrom 0 w := by simp only [standardBitmap, hf, Option.getD_none]
      simp only [Announced, hn, hm]
      rw [hb]
      simp [hwa]
    | some lo =>
      obtain ⟨hlo, l1, l2, hl, hbefore⟩ := List.find?_eq_some_iff_append.1 hf
      have hmem : lo < 2008 := by
        have : lo ∈ List.range 2008 := by rw [hl]; simp
        simpa using this
      have hn : (standardBitmap w).1.n1 = 2 * (lo / 16) := by
        simp only [standardBitmap, hf, Option.getD_some]
        rw [(n1_withN1 _ _ (by omega)).1]
        omega
      have hm : (standardBitmap w).2 = bitsFrom (2 * (lo / 16)) w := by simp only [standardBitmap, hf, Option.getD_some]
      simp only [Announced, hn, hm]
      by_cases hle : 8 * (2 * (lo / 16)) ≤ a
      · rw [bitsFrom_bit _ w a hle h2]
        exact ⟨fun h => h.2.2.2, fun h => ⟨h1, h2, hle, h⟩⟩
      · refine ⟨fun h => absurd h.2.2.1 hle, fun h => ?_⟩
        exfalso
        have hin : a ∈ l1 := by
          have ha : a ∈ List.range 2008 := by simp; omega
          rw [hl] at ha
          rcases List.mem_append.1 ha with ha | ha
          · exact ha
          · have hp : (List.range 2008).Pairwise (· < ·) := List.pairwise_lt_range
            rw [hl] at hp
            have hp := (List.pairwise_append.1 hp).2.1
            rcases List.mem_cons.1 ha with rfl | ha
            · omega
            · have := (List.pairwise_cons.1 hp).1 a ha
              omega
        have := hbefore a hin
        simp [h1, h] at this

private theorem standard_lowest (w : Nat → Bool) (a : Nat) (h1 : 1 ≤ a) (h2 : a ≤ 2007) (hd : a % 16 = 0) (hw : w a = true)
    (hl : ∀ y < a, 1 ≤ y → w y = false) : 8 * (standardBitmap w).1.n1 = a := by
  have hf : ((List.range 2008).find? fun a => 1 ≤ a && w a) = some a := by
    rw [List.find?_range_eq_some]
    refine ⟨by simp [h1, hw], by simp; omega, fun j hj => ?_⟩
    by_cases hj1 : 1 ≤ j
    · simp [hl j hj hj1]
    · simp [hj1]
  simp only [standardBitmap, hf, Option.getD_some]
  rw [(n1_withN1 _ _ (by omega)).1]
  omega

end

/-- Violation: in a network whose access point makes its bitmaps by the standard, a station whose number is a multiple of 16
gets none of its messages, as long as no station with a lower number has any. -/
theorem c100_standard_lost (c : SleepyCell) (hc : c.Fine) (hs : c.bitmap = standardBitmap) (is : List BeaconInterval)
    (hr : ∀ i ∈ is, ∀ x ∈ i.awake, 1 ≤ x.1 ∧ x.1 ≤ 2007) (a : Nat) (h1 : 1 ≤ a) (h2 : a ≤ 2007) (hd : a % 16 = 0)
    (hl : ∀ i ∈ is, ∀ x ∈ i.arrivals, a ≤ x.1) :
    ∃ size, ∀ buf : Bytes, size ≤ buf.length → ∃ b, c.intervals buf .empty is = .ok b ∧
      b.got a = [] ∧ b.kept a = arrived is a := by
  obtain ⟨size, h⟩ := c100_exact c hc is hr
  refine ⟨size, fun buf hb => ⟨_, h buf hb, ?_⟩⟩
  have hg : ∀ (is : List BeaconInterval) (b : Mailboxes), (∀ i ∈ is, ∀ x ∈ i.arrivals, a ≤ x.1) →
      (∀ y < a, b.kept y = []) → (is.foldl (fun b i => b.after c.misses i) b).got a = b.got a := by
    intro is
    induction is with
    | nil => intro b _ _; rfl
    | cons i is ih =>
      intro b hl hb
      have hpost : ∀ y < a, (b.post i.arrivals).kept y = [] := by
        intro y hy
        simp only [Mailboxes.post, hb y hy, List.nil_append, List.map_eq_nil_iff, List.filter_eq_nil_iff,
          decide_eq_true_eq]
        intro x hx e
        have := hl i (by simp) x hx
        omega
      rw [List.foldl_cons, ih _ (fun j hj => hl j (by simp [hj]))]
      · rw [Mailboxes.after, fetches_other]
        · rfl
        · by_cases he : (b.post i.arrivals).kept a = []
          · exact .inl he
          · right
            rintro x hx rfl
            have hm := (List.mem_filter.1 hx).2
            have hmiss : c.misses (b.post i.arrivals) x.1 = true := by
              simp only [SleepyCell.misses, hs, decide_eq_true_eq]
              exact standard_lowest _ x.1 h1 h2 hd (by simpa using he) fun y hy _ => by simp [hpost y hy]
            rw [hmiss] at hm
            cases hm
      · intro y hy
        have hc1 := fetches_conserved (i.awake.filter fun x => !c.misses (b.post i.arrivals) x.1) (b.post i.arrivals) y
        have hc2 := fetches_other (i.awake.filter fun x => !c.misses (b.post i.arrivals) x.1) (b.post i.arrivals) y
          (.inl (hpost y hy))
        rw [hc2, hpost y hy] at hc1
        exact List.append_cancel_left hc1
  have hgot := hg is .empty hl fun _ _ => rfl
  have hall := all_conserved c.misses is .empty a
  rw [hgot] at hall
  exact ⟨hgot, hall⟩

omit [Crc32] in
/-- Violation: the parser for control frames does not say who asks.  `transmitter_address` has nothing for a PS-Poll,
although `GenericFrame::address_2` has the station. -/
theorem c100_poller_lost (f : FCFFlags) (a : AssociationID) (ap me : Mac) :
    readControlFrame .PSPoll f (toLE a.intoBits ++ (ap.val ++ me.val)) =
      .ok (.Unknown .PSPoll f (toLE a.intoBits ++ (ap.val ++ me.val)), 14) ∧
    (ControlFrame.Unknown .PSPoll f (toLE a.intoBits ++ (ap.val ++ me.val))).receiverAddress = ap ∧
    (ControlFrame.Unknown .PSPoll f (toLE a.intoBits ++ (ap.val ++ me.val))).transmitterAddress = none ∧
    (GenericFrame.mk (0xa4 :: f.bits :: (toLE a.intoBits ++ (ap.val ++ me.val)))).address2 = .ok (some me) := by
  have hs := slack_le
  have h := c26_round_trip (.Unknown .PSPoll f (toLE a.intoBits ++ (ap.val ++ me.val)))
    ⟨by decide, by decide, by decide⟩
  refine ⟨?_, ?_, rfl, ?_⟩
  · have hl : (controlWire (.Unknown .PSPoll f (toLE a.intoBits ++ (ap.val ++ me.val)))).length = 14 := by
      simp [controlWire]
    rw [hl] at h
    exact h
  · obtain ⟨x, hx, hx'⟩ := pread_arr_ok 6 (by decide) 2 (toLE a.intoBits ++ (ap.val ++ me.val)) (by simp)
    have hx : pread readMac 2 (toLE a.intoBits ++ (ap.val ++ me.val)) = .ok x := hx
    simp only [ControlFrame.receiverAddress, hx]
    apply Subtype.ext
    rw [hx']
    simp only [Spec.slice]
    rw [List.drop_left' (by simp), List.take_left' (by simp)]
  · obtain ⟨b0, b1, r, g, hr, hg, -, htn, -, hv⟩ := generic_fcf_cons (0xa4 :: f.bits :: (toLE a.intoBits ++ (ap.val ++ me.val)))
      (by simp)
    simp only [List.cons.injEq] at hr
    obtain ⟨rfl, rfl, rfl⟩ := hr
    have ht : g.frameType = .Control .PSPoll := typeNumbers_inj _ _ hv psPoll_valid (by rw [htn]; rfl)
    rcases c24_address2 _ g hg with ⟨-, h2 | h2⟩ | ⟨x, h2, h3, -⟩
    · rw [ht] at h2; cases h2
    · simp at h2
    · rw [h2]
      have : x = me := by
        apply Subtype.ext
        rw [h3]
        simp only [Spec.slice, List.drop_succ_cons]
        rw [← List.append_assoc, List.drop_left' (by simp), List.take_of_length_le (by simp)]
      rw [this]

section
omit [ScrollRule] [Crc32]

/-- A network with the bitmaps of an access point. -/
def sleepyCell (bitmap : (Nat → Bool) → TIMBitmapControl × Bytes) : SleepyCell :=
  ⟨true, sourceHeader sourceA, ⟨⟨0⟩, 0, pieceMac 9, sourceA.1, sourceA.1, ⟨0x30⟩, none⟩, ⟨9, 100, ⟨1⟩, ()⟩, [], [], 0, 1,
    pieceMac, bitmap⟩

/-- Messages for the stations 16 and 17, which are awake for the second beacon; station 17 asks once only, and is awake
for the third beacon too. -/
def sleepyIntervals : List BeaconInterval :=
  [⟨[(17, [1]), (16, [2])], []⟩, ⟨[(17, [3])], [(16, 5), (17, 1)]⟩, ⟨[], [(17, 2), (5, 1)]⟩]

end

omit [Crc32] in
private theorem sleepyCell_fine (bitmap : (Nat → Bool) → TIMBitmapControl × Bytes) (h : Announces bitmap) :
    (sleepyCell bitmap).Fine := by
  have hd : SourceHeader (sourceHeader sourceA) sourceA :=
    ⟨⟨by decide, DataFrameSubtype.canonical_fromBits 0⟩, ⟨by decide, by decide, by decide⟩, by decide, rfl, rfl⟩
  have hb : HtConsistent ⟨⟨0⟩, 0, pieceMac 9, sourceA.1, sourceA.1, ⟨0x30⟩, none⟩ := by unfold HtConsistent; decide
  exact ⟨⟨_, hd⟩, hb, (fun p hp => by cases hp), (fun p hp => by cases hp), (show ¬ (1 : Byte) < 0 by decide), h⟩

/-- The theorems for this network. -/
example : ∃ size, ∀ buf : Bytes, size ≤ buf.length → ∃ b,
    (sleepyCell wholeBitmap).intervals buf .empty sleepyIntervals = .ok b ∧ b.got 16 = [[2]] ∧ b.got 17 = [[1], [3]] ∧
      b.kept 16 = [] ∧ b.kept 17 = [] := by
  obtain ⟨size, h⟩ := c100_whole _ (sleepyCell_fine _ c100_bitmaps.1) c100_bitmaps.2.1 sleepyIntervals (by decide)
  exact ⟨size, fun buf hb => ⟨_, h buf hb, by decide, by decide, by decide, by decide⟩⟩

example : ∃ size, ∀ buf : Bytes, size ≤ buf.length → ∃ b,
    (sleepyCell standardBitmap).intervals buf .empty sleepyIntervals = .ok b ∧ b.got 16 = [] ∧ b.kept 16 = [[2]] :=
  c100_standard_lost _ (sleepyCell_fine _ c100_bitmaps.2.2) rfl sleepyIntervals (by decide) 16 (by decide) (by decide) rfl
    (by decide)

omit [ScrollRule] [Crc32] in
/-- The programs at work on it. -/
example (s : Bool) :
    letI : ScrollRule := ⟨s⟩
    letI : Crc32 := ⟨fun bs => BitVec.ofNat 32 bs.length⟩
    let run (c : SleepyCell) : Res (List (List Bytes)) := do
      let b ← c.intervals (List.replicate 400 0) .empty sleepyIntervals
      pure [b.got 16, b.kept 16, b.got 17, b.kept 17, b.got 5]
    run (sleepyCell wholeBitmap) = .ok [[[2]], [], [[1], [3]], [], []] ∧
      run (sleepyCell standardBitmap) = .ok [[], [[2]], [[1], [3]], [], []] := by
  cases s <;> decide +kernel

end Verif
