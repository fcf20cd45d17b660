import Verif.Lemmas.EapolSerde
import Verif.Props.C68
import Verif.Props.C03
/-!
# C93: fragments of a message are put together again

A station may send a message in up to sixteen pieces, which share a sequence number, are counted by the fragment number and,
but for the last one, have the flag for more fragments.  A piece whose acknowledgement is lost is sent again, with the retry
flag.  The receiver drops what repeats the last piece from the same station and traffic stream, and joins the others
(10.3.2.14, 10.4 and 10.5 of the standard).  All of this hangs on fields of the crate's data frame header.
-/
namespace Verif

namespace Spec

/-- A station, and the traffic stream for frames with a QoS field. -/
abbrev Source := Mac × Option Nat

/-- A piece of a message as it is on the air: where it comes from, the numbers of the message and of the piece, whether
there are more, and whether it was sent before. -/
structure Piece where
  source : Source
  number : Nat
  index : Nat
  more : Bool
  again : Bool
  content : Bytes
  deriving DecidableEq, Repr

/-- What a receiver remembers of a source: the numbers of the last piece, and the message in progress, with its number, the
index that is next, and what there is so far. -/
structure Reassembly where
  last : Option (Nat × Nat)
  opened : Option (Nat × Nat × Bytes)
  deriving DecidableEq, Repr

/-- What comes before a piece in its message, if nothing is missing. -/
def Reassembly.before (s : Reassembly) (p : Piece) : Option Bytes :=
  if p.index = 0 then some [] else
  match s.opened with
  | some (n, i, c) => if n = p.number ∧ i = p.index then some c else none
  | none => none

/-- One piece; a message that became complete. -/
def Reassembly.step (s : Reassembly) (p : Piece) : Reassembly × Option Bytes :=
  if p.again = true ∧ s.last = some (p.number, p.index) then (s, none) else
  match s.before p with
  | none => (⟨some (p.number, p.index), none⟩, none)
  | some c =>
    if p.more then (⟨some (p.number, p.index), some (p.number, p.index + 1, c ++ p.content)⟩, none)
    else (⟨some (p.number, p.index), none⟩, some (c ++ p.content))

/-- A receiver: progress for each source, and the messages that are complete, newest first. -/
structure Joiner where
  progress : Source → Reassembly
  complete : List (Source × Bytes)

def Joiner.fresh : Joiner := ⟨fun _ => ⟨none, none⟩, []⟩

def Joiner.take (j : Joiner) (p : Piece) : Joiner :=
  let r := (j.progress p.source).step p
  ⟨fun s => if s = p.source then r.1 else j.progress s,
    (r.2.map fun m => (p.source, m)).toList ++ j.complete⟩

/-- A message as it is sent: its number, and its pieces, each with whether the first copy of it that is heard is a repeated
one (because the first was lost) and how many more copies are heard (because acknowledgements were lost). -/
structure Parcel where
  number : Nat
  parts : List (Bytes × Bool × Nat)

def Parcel.content (m : Parcel) : Bytes := m.parts.flatMap (·.1)

/-- The pieces from an index on. -/
def piecesFrom (s : Source) (number : Nat) : Nat → List (Bytes × Bool × Nat) → List Piece
  | _, [] => []
  | i, (c, first, copies) :: l =>
    ⟨s, number, i, !l.isEmpty, first, c⟩ :: (List.replicate copies ⟨s, number, i, !l.isEmpty, true, c⟩ ++
      piecesFrom s number (i + 1) l)

/-- The pieces of a message. -/
def Parcel.pieces (s : Source) (m : Parcel) : List Piece := piecesFrom s m.number 0 m.parts

/-- Neighbouring messages have different numbers. -/
def NumbersMove : List Parcel → Prop
  | a :: b :: l => a.number ≠ b.number ∧ NumbersMove (b :: l)
  | _ => True

variable [ScrollRule] [Crc32]

/-- What a received data frame is a piece of. -/
def pieceOf (h : DataFrameHeader) (c : Bytes) : Piece :=
  ⟨(h.address_2, h.qos.map fun q => (q.val.getD 0 0).toNat % 16), h.sequence_control.sequence_number.toNat,
    h.sequence_control.fragment_number.toNat, h.fcf_flags.more_fragments, h.fcf_flags.retry, c⟩

/-- The piece in received bytes, by the functions of the crate. -/
def heard (fcs : Bool) (bytes : Bytes) : Res (Option Piece) :=
  match matchFrames bytes (if fcs then some true else none) [armOf dataFrameKind readDataFrame id] with
  | .panic => .panic
  | .err _ => .ok none
  | .ok (_, f) => .ok (f.payload.map (pieceOf f.header))

/-- Received bytes. -/
def Joiner.receive (fcs : Bool) (j : Joiner) (bytes : Bytes) : Res Joiner := do
  match ← heard fcs bytes with
  | some p => pure (j.take p)
  | none => pure j

def Joiner.receiveAll (fcs : Bool) : Joiner → List Bytes → Res Joiner
  | j, [] => .ok j
  | j, b :: l => do
    let j' ← j.receive fcs b
    Joiner.receiveAll fcs j' l

/-- The header of a piece, made from a header for the source with the setters of the crate. -/
def pieceHeader (h : DataFrameHeader) (p : Piece) : DataFrameHeader :=
  { h with
    fcf_flags := (h.fcf_flags.with_more_fragments p.more).with_retry p.again
    sequence_control := ((SequenceControl.mk 0).with_sequence_number (BitVec.ofNat 12 p.number)).with_fragment_number
      (BitVec.ofNat 4 p.index) }

/-- What is sent for a piece. -/
def sendPiece (fcs : Bool) (buf : Bytes) (h : DataFrameHeader) (p : Piece) : Res Bytes := do
  let (out, n) ← writeDataFrame ⟨pieceHeader h p, some (bytesObj p.content)⟩ fcs buf
  pure (out.take n)

/-- Several, each with the header of its source. -/
def sendPieces (fcs : Bool) (buf : Bytes) (header : Source → DataFrameHeader) : List Piece → Res (List Bytes)
  | [] => .ok []
  | p :: l => do
    let b ← sendPiece fcs buf (header p.source) p
    let bs ← sendPieces fcs buf header l
    pure (b :: bs)

/-- A header for data from a source. -/
structure SourceHeader (h : DataFrameHeader) (s : Source) : Prop where
  valid : ValidData h
  consistent : HeaderConsistent h
  data : payloadSubtype h.subtype
  station : h.address_2 = s.1
  stream : h.qos.map (fun q => (q.val.getD 0 0).toNat % 16) = s.2

/-- The numbers of a piece are in range, and it fits into the buffer. -/
structure Piece.Fits (h : DataFrameHeader) (fcs : Bool) (buf : Bytes) (p : Piece) : Prop where
  number : p.number < 4096
  index : p.index < 16
  room : 3 + (dataHeaderWire h).length + p.content.length + (if fcs then 4 else 0) ≤ buf.length

end Spec

open Spec

/-! ## Joining -/

/-- A repeated piece changes nothing. -/
theorem joiner_step_again (s : Reassembly) (p : Piece) (ha : p.again = true) (hl : s.last = some (p.number, p.index)) :
    s.step p = (s, none) := by
  simp [Reassembly.step, ha, hl]

theorem joiner_step_last (s : Reassembly) (p : Piece) : (s.step p).1.last = some (p.number, p.index) := by
  unfold Reassembly.step
  split
  · rename_i h; exact h.2
  · split
    · rfl
    · split <;> rfl

/-- What a source's pieces come to, apart from everything else. -/
def Spec.Reassembly.run (s : Reassembly) : List Piece → Reassembly × List Bytes
  | [] => (s, [])
  | p :: l =>
    let r := s.step p
    let t := r.1.run l
    (t.1, r.2.toList ++ t.2)

theorem joiner_run_append (s : Reassembly) (l m : List Piece) :
    s.run (l ++ m) = (((s.run l).1.run m).1, (s.run l).2 ++ ((s.run l).1.run m).2) := by
  induction l generalizing s with
  | nil => simp [Reassembly.run]
  | cons p l ih => simp [Reassembly.run, ih]

private theorem run_copies (s : Reassembly) (p : Piece) (k : Nat) (ha : p.again = true)
    (hl : s.last = some (p.number, p.index)) : s.run (List.replicate k p) = (s, []) := by
  induction k with
  | zero => rfl
  | succ k ih => simp [List.replicate_succ, Reassembly.run, joiner_step_again s p ha hl, ih]

/-- A receiver that has joined the pieces before, `c`, joins the rest. -/
private theorem run_pieces (src : Source) (n : Nat) (l : List (Bytes × Bool × Nat)) (hl : l ≠ []) (i : Nat) (c : Bytes)
    (s : Reassembly) (hlast : s.last ≠ some (n, i))
    (hbefore : (i = 0 ∧ c = []) ∨ (0 < i ∧ s.opened = some (n, i, c))) :
    s.run (piecesFrom src n i l) = (⟨some (n, i + l.length - 1), none⟩, [c ++ l.flatMap (·.1)]) := by
  induction l generalizing i c s with
  | nil => exact absurd rfl hl
  | cons x l ih =>
    obtain ⟨d, first, k⟩ := x
    have hb : s.before ⟨src, n, i, !l.isEmpty, first, d⟩ = some c := by
      unfold Reassembly.before
      rcases hbefore with ⟨rfl, rfl⟩ | ⟨hi, ho⟩
      · simp
      · simp [Nat.ne_of_gt hi, ho]
    have hstep : s.step ⟨src, n, i, !l.isEmpty, first, d⟩ =
        if l.isEmpty then (⟨some (n, i), none⟩, some (c ++ d))
        else (⟨some (n, i), some (n, i + 1, c ++ d)⟩, none) := by
      unfold Reassembly.step
      rw [if_neg (fun h => hlast h.2), hb]
      cases l <;> simp
    simp only [piecesFrom, Reassembly.run]
    rw [joiner_run_append, hstep]
    cases l with
    | nil =>
      simp only [List.isEmpty_nil, if_true, piecesFrom, Reassembly.run]
      rw [run_copies _ _ k rfl rfl]
      simp
    | cons y l =>
      simp only [List.isEmpty_cons, Bool.false_eq_true, if_false]
      rw [run_copies _ _ k rfl rfl]
      have := ih (by simp) (i + 1) (c ++ d) ⟨some (n, i), some (n, i + 1, c ++ d)⟩ (by simp) (.inr ⟨by omega, rfl⟩)
      simp only [List.length_cons] at this ⊢
      rw [this]
      refine Prod.ext ?_ ?_
      · simp only [Reassembly.mk.injEq, Option.some.injEq, Prod.mk.injEq, true_and, and_true]
        omega
      · simp

/-- One message after the other. -/
theorem joiner_run_messages (src : Source) (l : List Parcel) (hp : ∀ m ∈ l, m.parts ≠ []) (hn : NumbersMove l)
    (s : Reassembly) (hs : ∀ m, l.head? = some m → ∀ i, s.last ≠ some (m.number, i)) :
    (s.run (l.flatMap (Parcel.pieces src))).2 = l.map Parcel.content := by
  induction l generalizing s with
  | nil => rfl
  | cons m l ih =>
    have h := run_pieces src m.number m.parts (hp m (by simp)) 0 [] s (hs m rfl 0) (.inl ⟨rfl, rfl⟩)
    rw [List.flatMap_cons, joiner_run_append, Parcel.pieces, h]
    simp only [List.map_cons, List.nil_append]
    rw [ih (fun m hm => hp m (by simp [hm])) ?_ _ ?_]
    · rfl
    · cases l with
      | nil => trivial
      | cons b l => exact hn.2
    · intro b hb i
      cases l with
      | nil => cases hb
      | cons b' l =>
        cases hb
        simp only [ne_eq, Option.some.injEq, Prod.mk.injEq, not_and]
        intro he
        exact absurd he hn.1

/-- What a receiver makes of the pieces of one source depends on no other piece. -/
theorem joiner_take_run (j : Joiner) (l : List Piece) (s : Source) :
    (l.foldl Joiner.take j).progress s = ((j.progress s).run (l.filter (·.source = s))).1 ∧
    (((l.foldl Joiner.take j).complete.filter (·.1 = s)).map (·.2)).reverse =
      ((j.complete.filter (·.1 = s)).map (·.2)).reverse ++ ((j.progress s).run (l.filter (·.source = s))).2 := by
  induction l generalizing j with
  | nil => simp [Reassembly.run]
  | cons p l ih =>
    rw [List.foldl_cons]
    obtain ⟨h1, h2⟩ := ih (j.take p)
    by_cases hs : p.source = s
    · subst hs
      rw [h1, h2, List.filter_cons_of_pos (by simp)]
      refine ⟨by simp [Joiner.take, Reassembly.run], ?_⟩
      simp only [Joiner.take, Reassembly.run, if_true]
      cases ((j.progress p.source).step p).2 <;> simp
    · rw [h1, h2, List.filter_cons_of_neg (by simpa using hs)]
      refine ⟨by simp [Joiner.take, Ne.symm hs], ?_⟩
      simp only [Joiner.take, if_neg (Ne.symm hs)]
      cases ((j.progress p.source).step p).2 <;> simp [hs]

/-! ## Through the crate -/

variable [ScrollRule] [Crc32]

omit [ScrollRule] [Crc32] in
theorem joiner_piece_header (h : DataFrameHeader) (s : Source) (hh : SourceHeader h s) (p : Piece)
    (hp : p.source = s) (hn : p.number < 4096) (hi : p.index < 16) :
    SourceHeader (pieceHeader h p) s ∧ pieceOf (pieceHeader h p) p.content = p ∧
    (dataHeaderWire (pieceHeader h p)).length = (dataHeaderWire h).length := by
  obtain ⟨h1, ⟨h4, hq, ho⟩, h3, h5, h6⟩ := hh
  obtain ⟨b0, b1, b2, b3, -, -, -, b7⟩ := c03_FCFFlags
  obtain ⟨f0, f1⟩ := c03_SequenceControl
  have g0 : (pieceHeader h p).fcf_flags.to_ds = h.fcf_flags.to_ds := by
    show FCFFlags.to_ds ((h.fcf_flags.with_more_fragments p.more).with_retry p.again) = _
    rw [(c03_get_set_flag b3 b0 (by decide) _ _).2, (c03_get_set_flag b2 b0 (by decide) _ _).2]
  have g1 : (pieceHeader h p).fcf_flags.from_ds = h.fcf_flags.from_ds := by
    show FCFFlags.from_ds ((h.fcf_flags.with_more_fragments p.more).with_retry p.again) = _
    rw [(c03_get_set_flag b3 b1 (by decide) _ _).2, (c03_get_set_flag b2 b1 (by decide) _ _).2]
  have g7 : (pieceHeader h p).fcf_flags.order = h.fcf_flags.order := by
    show FCFFlags.order ((h.fcf_flags.with_more_fragments p.more).with_retry p.again) = _
    rw [(c03_get_set_flag b3 b7 (by decide) _ _).2, (c03_get_set_flag b2 b7 (by decide) _ _).2]
  refine ⟨⟨h1, ⟨?_, hq, ?_⟩, h3, h5, h6⟩, ?_, ?_⟩
  · rw [g0, g1]; exact h4
  · rw [g7]; exact ho
  · obtain ⟨src, number, index, more, again, content⟩ := p
    simp only at hp hn hi
    subst hp
    simp only [pieceOf, pieceHeader]
    rw [(c03_get_set f0 f1 (by decide) _ _).1, (c03_get_set f0 f1 (by decide) _ _).2, (c03_get_set f1 f0 (by decide) _ _).1,
      (c03_get_set_flag b3 b2 (by decide) _ _).1, (c03_get_set_flag b3 b2 (by decide) _ _).2,
      (c03_get_set_flag b2 b3 (by decide) _ _).1, h5, h6, BitVec.toNat_ofNat, BitVec.toNat_ofNat,
      Nat.mod_eq_of_lt hn, Nat.mod_eq_of_lt hi]
  · simp [dataHeaderWire, pieceHeader]

/-- A piece that is sent is heard as that piece. -/
theorem c93_piece (h : DataFrameHeader) (p : Piece) (hh : SourceHeader h p.source) (fcs : Bool) (buf : Bytes)
    (hp : p.Fits h fcs buf) : ∃ b, sendPiece fcs buf h p = .ok b ∧ heard fcs b = .ok (some p) := by
  obtain ⟨hn, hi, hroom⟩ := hp
  obtain ⟨h1, h2, h3⟩ := joiner_piece_header h p.source hh p rfl hn hi
  have hs := slack_le
  obtain ⟨out, n, content, g1, g2, g3⟩ := frame_arrives (pieceHeader h p) h1.valid h1.consistent h1.data
    (bytesObj p.content) (· = p.content) _ (Emits.bytes p.content).writes fcs id [] [] (fun _ ha => by cases ha) buf
    (by rw [h3]; omega)
  subst g2
  refine ⟨out.take n, ?_, ?_⟩
  · simp only [sendPiece, g1, Res.ok_bind]; rfl
  · have g3 : matchFrames (out.take n) (if fcs then some true else none) [armOf dataFrameKind readDataFrame id] =
      .ok (0, ⟨pieceHeader h p, some p.content⟩) := g3
    simp only [heard, g3, Option.map_some, h2]

/-- Exactly what a receiver makes of pieces that were sent, in whatever order and from whatever sources. -/
theorem c93_exact (header : Source → DataFrameHeader) (fcs : Bool) (buf : Bytes) (l : List Piece)
    (hh : ∀ p ∈ l, SourceHeader (header p.source) p.source) (hl : ∀ p ∈ l, p.Fits (header p.source) fcs buf) :
    ∃ bs, sendPieces fcs buf header l = .ok bs ∧ ∀ j : Joiner, j.receiveAll fcs bs = .ok (l.foldl Joiner.take j) := by
  induction l with
  | nil => exact ⟨[], rfl, fun _ => rfl⟩
  | cons p l ih =>
    obtain ⟨b, h1, h2⟩ := c93_piece (header p.source) p (hh p (by simp)) fcs buf (hl p (by simp))
    obtain ⟨bs, h3, h4⟩ := ih (fun p hp => hh p (by simp [hp])) fun p hp => hl p (by simp [hp])
    refine ⟨b :: bs, ?_, fun j => ?_⟩
    · simp only [sendPieces, h1, h3, Res.ok_bind]; rfl
    · simp only [Joiner.receiveAll, Joiner.receive, h2, Res.ok_bind, List.foldl_cons]
      exact h4 _

/-- Every message arrives once, whole, and in order: for any number of sources whose pieces are mixed in any way, and for any
pattern of repeated pieces. -/
theorem c93_joined (header : Source → DataFrameHeader) (fcs : Bool) (buf : Bytes)
    (messages : Source → List Parcel) (hparts : ∀ s, ∀ m ∈ messages s, m.parts ≠ [])
    (hnum : ∀ s, NumbersMove (messages s)) (air : List Piece)
    (hair : ∀ s, air.filter (·.source = s) = (messages s).flatMap (Parcel.pieces s))
    (hh : ∀ p ∈ air, SourceHeader (header p.source) p.source) (hl : ∀ p ∈ air, p.Fits (header p.source) fcs buf) :
    ∃ bs j, sendPieces fcs buf header air = .ok bs ∧ Joiner.fresh.receiveAll fcs bs = .ok j ∧
      ∀ s, ((j.complete.filter (·.1 = s)).map (·.2)).reverse = (messages s).map Parcel.content := by
  obtain ⟨bs, h1, h2⟩ := c93_exact header fcs buf air hh hl
  refine ⟨bs, _, h1, h2 _, fun s => ?_⟩
  rw [(joiner_take_run _ air s).2, hair]
  simp only [Joiner.fresh, List.filter_nil, List.map_nil, List.reverse_nil, List.nil_append]
  exact joiner_run_messages s (messages s) (hparts s) (hnum s) _ (fun _ _ i => by simp)

/-! ## Arbitrary bytes -/

namespace Spec

/-- Consecutive pieces of one message, from the first on, each saying that there are more. -/
def Consecutive (s : Source) (number : Nat) (ps : List Piece) : Prop :=
  ∀ (i : Nat) (p : Piece), ps[i]? = some p → p.source = s ∧ p.number = number ∧ p.index = i ∧ p.more = true

/-- A complete message made of pieces: consecutive ones that say there are more, and one that says there are not. -/
def WholeOf (s : Source) (m : Bytes) (ps : List Piece) : Prop :=
  ∃ init last, ps = init ++ [last] ∧ Consecutive s last.number init ∧ last.source = s ∧
    last.index = init.length ∧ last.more = false ∧ m = ps.flatMap (·.content)

end Spec

private def Sound (j : Joiner) (l : List Piece) : Prop :=
  (∀ s n i c, (j.progress s).opened = some (n, i, c) →
    ∃ ps, List.Sublist ps l ∧ Consecutive s n ps ∧ ps.length = i ∧ c = ps.flatMap (·.content)) ∧
  ∀ x ∈ j.complete, ∃ ps, List.Sublist ps l ∧ WholeOf x.1 x.2 ps

omit [ScrollRule] [Crc32] in
private theorem take_sound (j : Joiner) (l : List Piece) (h : Sound j l) (p : Piece) : Sound (j.take p) (l ++ [p]) := by
  obtain ⟨ho, hc⟩ := h
  have hsub : ∀ ps, List.Sublist ps l → List.Sublist ps (l ++ [p]) := fun ps h => h.trans (List.sublist_append_left _ _)
  have hadd : ∀ ps, List.Sublist ps l → List.Sublist (ps ++ [p]) (l ++ [p]) := fun ps h => h.append (List.Sublist.refl _)
  have hbef : ∀ c, (j.progress p.source).before p = some c →
      ∃ ps, List.Sublist ps l ∧ Consecutive p.source p.number ps ∧ ps.length = p.index ∧ c = ps.flatMap (·.content) := by
    intro c hb
    unfold Reassembly.before at hb
    split at hb
    · rename_i h0
      cases hb
      exact ⟨[], List.nil_sublist _, (fun i q hq => by simp at hq), h0.symm, rfl⟩
    · split at hb
      · rename_i n i c' hopen
        split at hb
        · rename_i he
          cases hb
          obtain ⟨rfl, rfl⟩ := he
          exact ho _ _ _ _ hopen
        · cases hb
      · cases hb
  have key : (∀ n i c, ((j.progress p.source).step p).1.opened = some (n, i, c) →
      ∃ ps, List.Sublist ps (l ++ [p]) ∧ Consecutive p.source n ps ∧ ps.length = i ∧ c = ps.flatMap (·.content)) ∧
      ∀ m, ((j.progress p.source).step p).2 = some m → ∃ ps, List.Sublist ps (l ++ [p]) ∧ WholeOf p.source m ps := by
    unfold Reassembly.step
    split
    · refine ⟨fun n i c h => ?_, (fun m h => by cases h)⟩
      obtain ⟨ps, h1, h2⟩ := ho _ _ _ _ h
      exact ⟨ps, hsub _ h1, h2⟩
    · split
      · exact ⟨(fun n i c h => by cases h), (fun m h => by cases h)⟩
      · rename_i c hb
        obtain ⟨ps, h1, h2, h3, rfl⟩ := hbef c hb
        split
        · rename_i hm
          refine ⟨fun n i c h => ?_, (fun m h => by cases h)⟩
          cases h
          refine ⟨ps ++ [p], hadd _ h1, ?_, by simp [h3], by simp⟩
          intro i q hq
          rw [List.getElem?_append] at hq
          split at hq
          · exact h2 i q hq
          · rename_i hi
            cases hk : i - ps.length with
            | zero =>
              rw [hk] at hq
              cases hq
              exact ⟨rfl, rfl, by omega, hm⟩
            | succ k => rw [hk] at hq; simp at hq
        · rename_i hm
          refine ⟨(fun n i c h => by cases h), fun m h => ?_⟩
          cases h
          exact ⟨ps ++ [p], hadd _ h1, ps, p, rfl, h2, rfl, h3.symm, by simpa using hm, by simp⟩
  refine ⟨fun s n i c h => ?_, fun x hx => ?_⟩
  · simp only [Joiner.take] at h
    split at h
    · rename_i hs
      subst hs
      exact key.1 n i c h
    · obtain ⟨ps, h1, h2⟩ := ho _ _ _ _ h
      exact ⟨ps, hsub _ h1, h2⟩
  · simp only [Joiner.take, List.mem_append, Option.mem_toList, Option.map_eq_some_iff] at hx
    rcases hx with ⟨m, hm, rfl⟩ | hx
    · exact key.2 m hm
    · obtain ⟨ps, h1, h2⟩ := hc x hx
      exact ⟨ps, hsub _ h1, h2⟩

/-- Whatever bytes are received, a message that is complete is made of pieces that were heard, in this order, all from its
source and of one number, with none missing and none twice. -/
theorem c93_sound (fcs : Bool) (bytes : List Bytes) (j : Joiner) (hj : Joiner.fresh.receiveAll fcs bytes = .ok j)
    (x : Source × Bytes) (hx : x ∈ j.complete) :
    ∃ ps, List.Sublist (ps.map fun p => Res.ok (some p)) (bytes.map (heard fcs)) ∧ WholeOf x.1 x.2 ps := by
  have key : ∀ (bytes : List Bytes) (j0 j : Joiner) (l : List Piece), Sound j0 l → j0.receiveAll fcs bytes = .ok j →
      ∃ l', Sound j (l ++ l') ∧ List.Sublist (l'.map fun p => Res.ok (some p)) (bytes.map (heard fcs)) := by
    intro bytes
    induction bytes with
    | nil => intro j0 j l h hj; cases hj; exact ⟨[], by simpa using h, by simp⟩
    | cons b bs ih =>
      intro j0 j l h hj
      obtain ⟨j1, h1, hj⟩ := Res.bind_eq_ok hj
      obtain ⟨o, h2, h3⟩ := Res.bind_eq_ok h1
      cases o with
      | none =>
        cases h3
        obtain ⟨l', g1, g2⟩ := ih j0 j l h hj
        exact ⟨l', g1, by rw [List.map_cons]; exact g2.cons _⟩
      | some p =>
        cases h3
        obtain ⟨l', g1, g2⟩ := ih _ j (l ++ [p]) (take_sound j0 l h p) hj
        refine ⟨p :: l', by simpa using g1, ?_⟩
        rw [List.map_cons, List.map_cons, h2]
        exact g2.cons_cons _
  obtain ⟨l, h1, h2⟩ := key bytes .fresh j [] ⟨fun s n i c h => (by cases h), fun x hx => (by cases hx)⟩ hj
  obtain ⟨ps, h3, h4⟩ := h1.2 x hx
  exact ⟨ps, (h3.map _).trans (by simpa using h2), h4⟩

/-- What `match_frames!` makes of bytes with only an arm for data frames. -/
theorem match_data (fcs : Bool) (bytes : Bytes) :
    (matchFrames bytes (if fcs then some true else none) [armOf dataFrameKind readDataFrame id] = .panic ↔
      fcs = true ∧ bytes.length < 4) ∧
    ∀ i f, matchFrames bytes (if fcs then some true else none) [armOf dataFrameKind readDataFrame id] = .ok (i, f) →
      ∃ frame n, bytes = withFcs fcs frame ∧ readDataFrame false frame = .ok (f, n) := by
  have hsafe : ∀ inp, (armOf dataFrameKind readDataFrame (id : DataFrame Bytes → _)).2 false inp ≠ .panic := by
    intro inp h
    have hn := mt (c49_panics_iff false inp).1 (by simp)
    simp only [armOf] at h
    cases hr : readDataFrame false inp <;> simp_all [Res.map]
  have he : (if fcs then some true else none : Option Bool).isSome = fcs := by cases fcs <;> rfl
  rw [← c24_new_panics_iff]
  unfold matchFrames
  rw [he]
  cases hg : GenericFrame.new bytes fcs with
  | panic => simp
  | err e => simp
  | ok g =>
    obtain ⟨hb, hl⟩ := (c24_new bytes fcs g).1 hg
    obtain ⟨-, -, h1, h2⟩ := c25_control_data g.bytes hl
    simp only [Res.ok_bind, reduceCtorEq, iff_false]
    by_cases ht : IsType 2 g.bytes
    · have hA : tryArms g 0 [armOf dataFrameKind readDataFrame (id : DataFrame Bytes → _)] = _ :=
        c25_arms g hl [] dataFrameKind (armOf dataFrameKind readDataFrame (id : DataFrame Bytes → _)).2 [] 0
        (fun _ ha => by cases ha) (h1.2 ht)
        (fun a ha inp => by simp only [List.nil_append, List.mem_singleton] at ha; subst ha; exact hsafe inp)
      rw [hA]
      have hr' : (armOf dataFrameKind readDataFrame (id : DataFrame Bytes → _)).2 false g.bytes =
        (readDataFrame false g.bytes).map fun r => (r.1, r.2) := rfl
      rw [hr']
      have hn := mt (c49_panics_iff false g.bytes).1 (by simp)
      cases hr : readDataFrame false g.bytes with
      | panic => exact absurd hr hn
      | err e => exact ⟨(fun h => by cases h), (fun i f h => by cases h)⟩
      | ok x =>
        refine ⟨(fun h => by cases h), fun i f h => ?_⟩
        obtain ⟨f', n⟩ := x
        cases h
        exact ⟨g.bytes, n, hb, hr⟩
    · rw [c25_no_arm g hl [armOf dataFrameKind readDataFrame (id : DataFrame Bytes → _)] 0
        (fun a ha => by simp only [List.mem_singleton] at ha; subst ha; exact h2.2 ht)
        (fun a ha inp => by simp only [List.mem_singleton] at ha; subst ha; exact hsafe inp)]
      exact ⟨(fun h => by cases h), (fun i f h => by cases h)⟩

/-- What is heard as a piece: a data frame with its numbers and flags where the standard has them.  (`more` and `again` are
bits 2 and 3 of the flags; the sequence control field comes after the third address, with the fragment number in the low four
bits; then a fourth address if both of the bits for the distribution system are set; then the QoS field if the highest bit of
the subtype is set, with the traffic stream in its low four bits; then the HT control field.) -/
theorem c93_heard (fcs : Bool) (bytes : Bytes) (p : Piece) (hp : heard fcs bytes = .ok (some p)) :
    ∃ (b0 b1 lo hi : Byte) (duration : Arr 2) (a1 a3 : Mac) (four qos ht : Bytes),
      bytes = withFcs fcs (b0 :: b1 :: (duration.val ++ (a1.val ++ (p.source.1.val ++ (a3.val ++
        (lo :: hi :: (four ++ (qos ++ (ht ++ p.content))))))))) ∧ b0.toNat / 4 % 4 = 2 ∧ b0.getLsbD 6 = false ∧
      four.length = (if b1.getLsbD 0 ∧ b1.getLsbD 1 then 6 else 0) ∧ qos.length = (if b0.getLsbD 7 then 2 else 0) ∧
      ht.length = (if b1.getLsbD 7 then 4 else 0) ∧
      p.source.2 = (if b0.getLsbD 7 then some ((qos.getD 0 0).toNat % 16) else none) ∧
      p.index = lo.toNat % 16 ∧ p.number = lo.toNat / 16 + 16 * hi.toNat ∧
      p.more = b1.getLsbD 2 ∧ p.again = b1.getLsbD 3 := by
  unfold heard at hp
  split at hp
  · cases hp
  · cases hp
  · rename_i i f hm
    obtain ⟨frame, n, rfl, hr⟩ := (match_data fcs bytes).2 i f hm
    obtain ⟨b0, rest, hb, hb0, hb4, hpay, hcons, -, -⟩ := c49_parse false frame f n hr
    have hb : frame = b0 :: f.header.fcf_flags.bits :: (dataHeaderWire f.header ++ rest) := hb
    subst hb
    simp only [Res.ok.injEq] at hp
    rw [hpay] at hp
    split at hp
    · next hps =>
      simp only [Option.map_some, Option.some.injEq] at hp
      subst hp
      have h6 : b0.getLsbD 6 = false := by
        have h : b0.toNat / 64 % 2 = 0 := by unfold payloadSubtype at hps; omega
        rw [BitVec.getLsbD, Nat.testBit, Nat.shiftRight_eq_div_pow]
        simp [h]
      have h7 : b0.getLsbD 7 = true ↔ qosSubtype f.header.subtype := by
        have hlt := b0.isLt
        have h : b0.getLsbD 7 = true ↔ b0.toNat / 128 % 2 = 1 := by
          rw [BitVec.getLsbD, Nat.testBit, Nat.shiftRight_eq_div_pow]
          simp
        rw [h]
        unfold payloadSubtype at hps
        unfold qosSubtype
        omega
      have hopt : ∀ {n : Nat} (o : Option (Arr n)) (c : Bool), (o.isSome ↔ c = true) →
          (optWire o).length = if c then n else 0 := by
        intro n o c h
        cases o with
        | none => cases c with
          | false => rfl
          | true => exact absurd (h.2 rfl) (by simp)
        | some a => cases c with
          | false => exact absurd (h.1 rfl) (by simp)
          | true => exact a.2
      have hle : toLE f.header.sequence_control.bits = [f.header.sequence_control.bits.extractLsb' 0 8,
          f.header.sequence_control.bits.extractLsb' 8 8] := by
        simp only [toLE, leBytes, Nat.reduceDiv, List.cons.injEq, and_true]
        constructor <;> apply BitVec.eq_of_toNat_eq <;> simp [Nat.shiftRight_eq_div_pow]
      refine ⟨b0, f.header.fcf_flags.bits, f.header.sequence_control.bits.extractLsb' 0 8,
        f.header.sequence_control.bits.extractLsb' 8 8, ⟨toLE f.header.duration, by simp⟩, f.header.address_1,
        f.header.address_3, optWire f.header.address_4, optWire f.header.qos, optWire f.header.ht_control,
        ?_, hb0, h6, ?_, ?_, ?_, ?_, ?_, ?_, ?_, ?_⟩
      · simp [dataHeaderWire, hle, pieceOf]
      · have h := hopt f.header.address_4 (f.header.fcf_flags.to_ds && f.header.fcf_flags.from_ds)
          (by rw [hcons.address_4]; simp)
        rw [h, c03_FCFFlags.1.2.1 _, c03_FCFFlags.2.1.2.1 _]
        simp
      · exact hopt f.header.qos (b0.getLsbD 7) (by rw [hcons.qos, h7])
      · have h := hopt f.header.ht_control f.header.fcf_flags.order hcons.ht_control
        rw [h, c03_FCFFlags.2.2.2.2.2.2.2.2.1 _]
      · have hq := hcons.qos
        rw [← h7] at hq
        cases h : f.header.qos with
        | none => rw [h] at hq; simp at hq; simp [pieceOf, h, hq]
        | some q => rw [h] at hq; simp at hq; simp [pieceOf, h, hq, optWire]
      · simp only [pieceOf, SequenceControl.fragment_number, getField, BitVec.extractLsb'_toNat]
        simp [Nat.shiftRight_eq_div_pow]
      · simp only [pieceOf, SequenceControl.sequence_number, getField, BitVec.extractLsb'_toNat]
        simp [Nat.shiftRight_eq_div_pow]
        omega
      · exact c03_FCFFlags.2.2.1.2.1 _
      · exact c03_FCFFlags.2.2.2.1.2.1 _
    · cases hp

/-- Nothing that is received makes the receiver panic but, with check sequences, fewer bytes than such a sequence has. -/
theorem c93_panics_iff (fcs : Bool) (bytes : Bytes) (j : Joiner) :
    j.receive fcs bytes = .panic ↔ fcs = true ∧ bytes.length < 4 := by
  have hh : heard fcs bytes = .panic ↔ fcs = true ∧ bytes.length < 4 := by
    rw [← (match_data fcs bytes).1]
    unfold heard
    cases matchFrames bytes (if fcs then some true else none) [armOf dataFrameKind readDataFrame id] <;> simp
  unfold Joiner.receive
  cases h : heard fcs bytes with
  | panic => rw [h] at hh; simpa using hh.1 rfl
  | err e => rw [h] at hh; simpa using hh
  | ok o => rw [h] at hh; cases o <;> simpa using hh

/-! ## The builder -/

/-- Violation: the builder has methods for the flags of repeated and fragmented frames but none for the sequence number, so
all frames built have the same.  A frame that is heard only when it is repeated is taken for a copy of the one before, and
what is in it is lost. -/
theorem c93_built_lost (ops ops' : List (BuilderOp Bytes)) (f g : DataFrame Bytes) (hf : buildDataFrame ops = some f)
    (hg : buildDataFrame ops' = some g) (hcf : HeaderConsistent f.header) (hcg : HeaderConsistent g.header)
    (hpf : payloadSubtype f.header.subtype) (hpg : payloadSubtype g.header.subtype)
    (hs : f.header.address_2 = g.header.address_2) (hr : BuilderOp.retry ∈ ops') (a b : Bytes) (fcs : Bool) (j : Joiner) :
    ∃ j', j.receive fcs (withFcs fcs (dataFrameWire f.header a)) = .ok j' ∧
      j'.receive fcs (withFcs fcs (dataFrameWire g.header b)) = .ok j' := by
  have hear : ∀ (ops : List (BuilderOp Bytes)) (f : DataFrame Bytes), buildDataFrame ops = some f →
      HeaderConsistent f.header → payloadSubtype f.header.subtype → ∀ a,
      heard fcs (withFcs fcs (dataFrameWire f.header a)) = .ok (some (pieceOf f.header a)) := by
    intro ops f hf hcf hpf a
    obtain ⟨h1, h2⟩ := c65_data ⟨f.header, some a⟩ (c29_valid ops f hf) hcf ⟨fun _ => hpf, fun _ => rfl⟩ id [] []
      (fun _ ha => by cases ha)
    have hm : matchFrames (withFcs fcs (dataFrameWire f.header a)) (if fcs then some true else none)
        [armOf dataFrameKind readDataFrame id] = .ok (0, ⟨f.header, some a⟩) := by
      cases fcs
      · exact h1
      · exact h2 true
    simp only [heard, hm, Option.map_some]
  have hnum : ∀ (ops : List (BuilderOp Bytes)) (f : DataFrame Bytes), buildDataFrame ops = some f → ∀ a,
      (pieceOf f.header a).source = (f.header.address_2, none) ∧ (pieceOf f.header a).number = 0 ∧
      (pieceOf f.header a).index = 0 := by
    intro ops f hf a
    obtain ⟨c, hb, h⟩ := Option.bind_eq_some_iff.1 hf
    unfold DataFrameBuilder.build at h
    split at h
    · cases h
      exact ⟨rfl, (show (SequenceControl.mk 0).sequence_number.toNat = 0 by decide),
        (show (SequenceControl.mk 0).fragment_number.toNat = 0 by decide)⟩
    · cases h
  obtain ⟨f1, f2, f3⟩ := hnum ops f hf a
  obtain ⟨g1, g2, g3⟩ := hnum ops' g hg b
  have gr : (pieceOf g.header b).again = true := by
    show g.header.fcf_flags.retry = true
    exact (c29_flags ops' g hg 3).2 ⟨_, hr, by simp [flagBits]⟩
  refine ⟨j.take (pieceOf f.header a), ?_, ?_⟩
  · simp only [Joiner.receive, hear ops f hf hcf hpf a, Res.ok_bind]; rfl
  · simp only [Joiner.receive, hear ops' g hg hcg hpg b, Res.ok_bind]
    show Res.ok _ = Res.ok _
    congr 1
    have hsrc : (pieceOf g.header b).source = (pieceOf f.header a).source := by rw [f1, g1, hs]
    have hstep := joiner_step_again ((j.take (pieceOf f.header a)).progress (pieceOf g.header b).source) (pieceOf g.header b) gr (by
      rw [hsrc]
      simp only [Joiner.take, if_true]
      rw [joiner_step_last, f2, f3, g2, g3])
    generalize j.take (pieceOf f.header a) = j' at hstep
    rw [Joiner.take, hstep]
    simp only [Option.map_none, Option.toList_none, List.nil_append]
    obtain ⟨pr, co⟩ := j'
    congr 1
    funext s
    split
    · rename_i he; rw [he]
    · rfl

/-! ## Concrete cases -/

namespace Spec

/-- An address. -/
def pieceMac (n : Nat) : Mac := ⟨[BitVec.ofNat 8 n, 0, 0, 0, 0, 0], rfl⟩

/-- Two sources: a station without QoS and traffic stream 5 of another. -/
def sourceA : Source := (pieceMac 2, none)
def sourceB : Source := (pieceMac 3, some 5)

/-- Their headers. -/
def sourceHeader (s : Source) : DataFrameHeader :=
  match s.2 with
  | none => ⟨.Data, ⟨1⟩, 0, pieceMac 9, s.1, pieceMac 9, ⟨0⟩, none, none, none⟩
  | some t => ⟨.QoSData, ⟨1⟩, 0, pieceMac 9, s.1, pieceMac 9, ⟨0⟩, none, some ⟨[BitVec.ofNat 8 t, 0], rfl⟩, none⟩

/-- A message of three pieces, of which the second is heard three times, and one of a single piece, whose first copy is lost. -/
def messageOne : Parcel := ⟨4095, [([1, 2], false, 0), ([3], true, 2), ([4, 5], false, 1)]⟩
def messageTwo : Parcel := ⟨0, [([6], true, 1)]⟩

/-- The pieces of the first message, mixed with those of the other source, which has the same numbers. -/
def mixed : List Piece :=
  (messageOne.pieces sourceA).take 2 ++ messageTwo.pieces sourceB ++ (messageOne.pieces sourceA).drop 2 ++
    messageTwo.pieces sourceA

end Spec

omit [ScrollRule] [Crc32] in
set_option synthInstance.maxSize 1024 in
/-- Through the crate: both messages of the first source and that of the second. -/
example (s : Bool) :
    letI : ScrollRule := ⟨s⟩
    letI : Crc32 := ⟨fun _ => 0⟩
    (do
      let bs ← sendPieces true (List.replicate 60 0xee) sourceHeader mixed
      let j ← Joiner.fresh.receiveAll true bs
      pure (bs.length, j.complete)) =
      .ok (10, [(sourceA, [6]), (sourceA, [1, 2, 3, 4, 5]), (sourceB, [6])]) := by
  cases s <;> decide +kernel

/-- The same from `c93_joined`, whose hypotheses are met. -/
example : ∃ bs j, sendPieces true (List.replicate 60 0xee) sourceHeader mixed = .ok bs ∧
    Joiner.fresh.receiveAll true bs = .ok j ∧
    ((j.complete.filter (·.1 = sourceA)).map (·.2)).reverse = [[1, 2, 3, 4, 5], [6]] ∧
    ((j.complete.filter (·.1 = sourceB)).map (·.2)).reverse = [[6]] := by
  have hsource : ∀ p ∈ mixed, p.source = sourceA ∨ p.source = sourceB := by decide +kernel
  have hA : SourceHeader (sourceHeader sourceA) sourceA :=
    ⟨⟨by decide, DataFrameSubtype.canonical_fromBits 0⟩, ⟨by decide, by decide, by decide⟩, by decide, rfl, rfl⟩
  have hB : SourceHeader (sourceHeader sourceB) sourceB :=
    ⟨⟨by decide, DataFrameSubtype.canonical_fromBits 8⟩, ⟨by decide, by decide, by decide⟩, by decide, rfl, rfl⟩
  have hfit : ∀ p ∈ mixed, p.number < 4096 ∧ p.index < 16 ∧
      3 + (dataHeaderWire (sourceHeader p.source)).length + p.content.length + 4 ≤ 60 := by decide +kernel
  obtain ⟨bs, j, h1, h2, h3⟩ := c93_joined sourceHeader true (List.replicate 60 0xee)
    (fun s => if s = sourceA then [messageOne, messageTwo] else if s = sourceB then [messageTwo] else [])
    (by
      intro s m hm
      split at hm
      · simp only [List.mem_cons, List.not_mem_nil, or_false] at hm
        rcases hm with rfl | rfl <;> simp [messageOne, messageTwo]
      · split at hm
        · simp only [List.mem_cons, List.not_mem_nil, or_false] at hm
          subst hm; simp [messageTwo]
        · cases hm)
    (by
      intro s
      split
      · exact ⟨by decide, trivial⟩
      · split <;> trivial)
    mixed
    (by
      intro s
      split
      · next h => subst h; decide +kernel
      · next ha =>
        split
        · next h => subst h; decide +kernel
        · next hb =>
          simp only [List.flatMap_nil, List.filter_eq_nil_iff, decide_eq_true_eq]
          intro p hp h
          rcases hsource p hp with h' | h' <;> rw [h'] at h
          · exact ha h.symm
          · exact hb h.symm)
    (by intro p hp; rcases hsource p hp with h | h <;> rw [h] <;> assumption)
    (fun p hp => ⟨(hfit p hp).1, (hfit p hp).2.1, by simpa using (hfit p hp).2.2⟩)
  refine ⟨bs, j, h1, h2, ?_, ?_⟩
  · rw [h3]; decide +kernel
  · rw [h3]; decide +kernel

omit [ScrollRule] [Crc32] in
/-- Without the first piece, or with one missing in between, nothing is complete. -/
example : let l := messageOne.pieces sourceA
    ((l.drop 1).foldl Joiner.take .fresh).complete = [] ∧ ((l.take 1 ++ l.drop 4).foldl Joiner.take .fresh).complete = [] ∧
    (l.foldl Joiner.take .fresh).complete = [(sourceA, [1, 2, 3, 4, 5])] := by
  decide +kernel

omit [ScrollRule] [Crc32] in
set_option synthInstance.maxSize 1024 in
/-- Two frames of the builder, the second with the retry flag and other contents: the second is dropped. -/
example (s : Bool) :
    letI : ScrollRule := ⟨s⟩
    letI : Crc32 := ⟨fun _ => 0⟩
    let ops := fun (c : Bytes) => [.to_ds, .category .Data, .payload .Bytes c, .destination_address (pieceMac 1),
      .source_address (pieceMac 2), .bssid (pieceMac 3)]
    ((buildDataFrame (ops [7])).map fun f => (Joiner.fresh.receive false (dataFrameWire f.header [7])).map (·.complete)) =
      some (.ok [(sourceA, [7])]) ∧
    ((buildDataFrame (ops [7])).bind fun f => (buildDataFrame (.retry :: ops [8])).map fun g =>
      (Joiner.fresh.receiveAll false [dataFrameWire f.header [7], dataFrameWire g.header [8]]).map (·.complete)) =
      some (.ok [(sourceA, [7])]) := by
  cases s <;> exact ⟨by decide +kernel, by decide +kernel⟩

end Verif
