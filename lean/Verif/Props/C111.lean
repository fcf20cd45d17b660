import Verif.Props.C94
import Verif.Props.C110
/-!
# C111: nobody sends longer frames than the other side receives

A VHT station says in the VHT capabilities element (9.4.2.157.2) how long the frames are that it receives, at most: 3895, 7991 or
11454 octets, with the check sequence.  Who has messages for it puts as many of them into a frame as there is room for, in
their order.  The program is not in the crate; it is written here with the functions of the crate, once with room for the padding
and once with the lengths as the crate measures them.
-/
namespace Verif

namespace Spec

/-- The longest frame that a station receives, by its elements: bits 0 and 1 of octet 0. -/
def longestIn (raws : List RawElement) : Option Nat :=
  (saidIn 191 12 raws).bind fun p => match octetAt p 0 % 4 with
    | 0 => some 3895
    | 1 => some 7991
    | 2 => some 11454
    | _ => none

/-- The octets of a frame with one message, with padding and check sequence. -/
def aloneSize (h : DataFrameHeader) (p : Packet) : Nat :=
  2 + (dataHeaderWire h).length + (14 + p.content.length + padding (14 + p.content.length)) + 4

/-- A frame is within a limit, with the check sequence that somebody else may add. -/
def Within (limit : Nat) (fcs : Bool) (frame : Bytes) : Prop := frame.length + (if fcs then 0 else 4) ≤ limit

/-! ## The sender, with the functions of the crate -/

/-- Messages as subframes. -/
def asSubframes (ps : List Packet) : List (AMSDUSubframe Bytes) := ps.map fun p => ⟨p.destination, p.source, p.content⟩

/-- Whenever a message does not fit any more, a new frame begins. -/
def packFrom (size : List Packet → Nat) (limit : Nat) : List Packet → List Packet → List (List Packet)
  | cur, [] => [cur]
  | cur, p :: ps => if size (cur ++ [p]) ≤ limit then packFrom size limit (cur ++ [p]) ps
    else cur :: packFrom size limit [p] ps

def pack (size : List Packet → Nat) (limit : Nat) : List Packet → List (List Packet)
  | [] => []
  | p :: ps => packFrom size limit [p] ps

variable [ScrollRule]

/-- The length of a frame as the crate measures it, with a check sequence. -/
def measuredSize (h : DataFrameHeader) (ps : List Packet) : Nat :=
  measureDataFrame ⟨h, some (amsduPayload (asSubframes ps))⟩ true

/-- That with the padding, which the crate does not measure. -/
def trueSize (h : DataFrameHeader) (ps : List Packet) : Nat :=
  measuredSize h ps + (ps.map fun p => roundUp4 (14 + p.content.length) - (14 + p.content.length)).sum

/-- The limit, by the elements of a frame. -/
def limitIn (els : Bytes) : Res (Option Nat) := do
  match ← getFirstElement els vhtCapabilitiesKind with
  | none => pure none
  | some e => pure (e.vht_capabilities_info.maximumMpduLengthInBytes.map (·.toNat))

variable [Crc32]

/-- A frame with some messages. -/
def emitBatch (h : DataFrameHeader) (fcs : Bool) (buf : Bytes) (ps : List Packet) : Res Bytes :=
  emit fcs buf ⟨h, some (amsduPayload (asSubframes ps))⟩

/-- What does not fit alone is left out; everything else is packed and sent. -/
def sendPacked (size : List Packet → Nat) (h : DataFrameHeader) (limit : Nat) (fcs : Bool) (buf : Bytes) (ps : List Packet) :
    Res (List Bytes) :=
  (pack size limit (ps.filter fun p => decide (size [p] ≤ limit))).mapM (emitBatch h fcs buf)

/-- About a frame: whose it is, and the limit. -/
def limitHeard (fcs : Bool) (frame : Bytes) : Res (Option (Mac × Option Nat)) :=
  match matchFrames frame (if fcs then some true else none)
    [armOf MgmtKind.Beacon.frame (readMgmtFrame readBeaconLike) fun r => (r.1.bssid, r.2.elements),
      armOf MgmtKind.ProbeResponse.frame (readMgmtFrame readBeaconLike) fun r => (r.1.bssid, r.2.elements)] with
  | .panic => .panic
  | .err _ => .ok none
  | .ok (_, who, els) => do
    let x ← limitIn els
    pure (some (who, x))

end Spec

open Spec

/-! ## Packing -/

section Packing
variable (size : List Packet → Nat) (limit : Nat)

private theorem packFrom_spec (ps : List Packet) : ∀ cur, size cur ≤ limit →
    ∃ a r, ps = a ++ r ∧ packFrom size limit cur ps = (cur ++ a) :: pack size limit r ∧ size (cur ++ a) ≤ limit ∧
      ∀ q r', r = q :: r' → limit < size (cur ++ a ++ [q]) := by
  induction ps with
  | nil => exact fun cur hc => ⟨[], [], rfl, by simp [packFrom, pack], by simpa using hc, fun _ _ h => by cases h⟩
  | cons p ps ih =>
    intro cur hc
    rw [packFrom]
    by_cases h : size (cur ++ [p]) ≤ limit
    · rw [if_pos h]
      obtain ⟨a, r, h1, h2, h3, h4⟩ := ih _ h
      refine ⟨p :: a, r, by simp [h1], ?_, ?_, ?_⟩
      · rw [h2]; simp
      · simpa using h3
      · simpa using h4
    · rw [if_neg h]
      refine ⟨[], p :: ps, rfl, by simp [pack], by simpa using hc, ?_⟩
      rintro q r' hq
      cases hq
      simpa using h

/-- One after the other: what there is, within the limit, and full. -/
private theorem pack_spec (n : Nat) : ∀ ps : List Packet, ps.length ≤ n → (∀ p ∈ ps, size [p] ≤ limit) →
    (pack size limit ps).flatten = ps ∧ (∀ b ∈ pack size limit ps, b ≠ [] ∧ size b ≤ limit) ∧
    ∀ before a b after, pack size limit ps = before ++ a :: b :: after →
      ∃ q rest, b = q :: rest ∧ limit < size (a ++ [q]) := by
  induction n with
  | zero =>
    intro ps hn _
    have : ps = [] := List.length_eq_zero_iff.1 (by omega)
    subst this
    exact ⟨rfl, fun b hb => by simp [pack] at hb, fun before a b after h => by simp [pack] at h⟩
  | succ n ih =>
    intro ps hn hp
    cases ps with
    | nil => exact ⟨rfl, fun b hb => by simp [pack] at hb, fun before a b after h => by simp [pack] at h⟩
    | cons p ps =>
      obtain ⟨a, r, h1, h2, h3, h4⟩ := packFrom_spec size limit ps [p] (hp p (by simp))
      have hlen : r.length ≤ n := by
        have := congrArg List.length h1
        simp only [List.length_append, List.length_cons] at this hn
        omega
      obtain ⟨i1, i2, i3⟩ := ih r hlen fun q hq => hp q (by simp [h1, hq])
      rw [pack, h2]
      refine ⟨by rw [List.flatten_cons, i1, h1]; rfl, ?_, ?_⟩
      · intro b hb
        rcases List.mem_cons.1 hb with rfl | hb
        · exact ⟨by simp, h3⟩
        · exact i2 b hb
      · intro before x b after h
        cases before with
        | nil =>
          simp only [List.nil_append, List.cons.injEq] at h
          obtain ⟨rfl, h⟩ := h
          cases r with
          | nil => simp [pack] at h
          | cons q r =>
            have hb : b ∈ pack size limit (q :: r) := by rw [h]; simp
            have hne := (i2 b hb).1
            rw [h, List.flatten_cons] at i1
            cases b with
            | nil => exact absurd rfl hne
            | cons y b =>
              simp only [List.cons_append, List.cons.injEq] at i1
              obtain ⟨rfl, -⟩ := i1
              exact ⟨_, _, rfl, h4 _ _ rfl⟩
        | cons y before =>
          simp only [List.cons_append, List.cons.injEq] at h
          exact i3 _ _ _ _ h.2

/-- No division of a list in its order has fewer parts. -/
private theorem pack_fewest (hmono : ∀ a b c : List Packet, size b ≤ size (a ++ b ++ c)) (ds : List (List Packet)) :
    (∀ d ∈ ds, size d ≤ limit) → ∀ l pre, pre ++ l = ds.flatten → (∀ p ∈ l, size [p] ≤ limit) →
    (pack size limit l).length ≤ ds.length := by
  induction ds with
  | nil =>
    intro _ l pre h _
    have : l = [] := by
      have := congrArg List.length h
      simp only [List.length_append, List.flatten_nil, List.length_nil] at this
      exact List.length_eq_zero_iff.1 (by omega)
    subst this
    exact Nat.le_refl _
  | cons d ds ih =>
    intro hd l pre h hp
    have hd' : ∀ d ∈ ds, size d ≤ limit := fun x hx => hd x (by simp [hx])
    rw [List.flatten_cons] at h
    rcases List.append_eq_append_iff.1 h with ⟨t, e1, e2⟩ | ⟨t, e1, e2⟩
    · cases l with
      | nil => exact Nat.zero_le _
      | cons p l =>
        obtain ⟨a, r, h1, h2, h3, h4⟩ := packFrom_spec size limit l [p] (hp p (by simp))
        rw [pack, h2, List.length_cons, List.length_cons]
        refine Nat.succ_le_succ ?_
        -- the first part holds the rest of `d`
        have hsplit : ([p] ++ a) ++ r = t ++ ds.flatten := by
          rw [← e2, h1]; simp
        rcases List.append_eq_append_iff.1 hsplit with ⟨u, f1, f2⟩ | ⟨u, f1, f2⟩
        · cases u with
          | nil =>
            refine ih hd' r [] ?_ fun q hq => hp q (by simp [h1, hq])
            simpa using f2
          | cons q u =>
            have hlt := h4 q (u ++ ds.flatten) f2
            have h5 := hmono pre ([p] ++ a ++ [q]) u
            have : pre ++ ([p] ++ a ++ [q]) ++ u = d := by
              rw [e1, f1]; simp
            rw [this] at h5
            have := hd d (by simp)
            omega
        · exact ih hd' r u f2.symm fun q hq => hp q (by simp [h1, hq])
    · exact Nat.le_succ_of_le (ih hd' l t e2.symm hp)

end Packing

variable [ScrollRule]

/-! ## Sizes -/

private theorem measured_eq (h : DataFrameHeader) (ps : List Packet) :
    measuredSize h ps = 2 + (dataHeaderWire h).length + (ps.map fun p => 14 + p.content.length).sum + 4 := by
  have : measureAmsdu ((asSubframes ps).map toWrite) = (ps.map fun p => 14 + p.content.length).sum := by
    rw [measureAmsdu, asSubframes, List.map_map, List.map_map]
    rfl
  simp only [measuredSize, measureDataFrame, amsduPayload, this, c27_length, if_true]

omit [ScrollRule] in
private theorem padded_eq (ps : List Packet) :
    paddedSize (asSubframes ps) = (ps.map fun p => 14 + p.content.length).sum +
      (ps.map fun p => roundUp4 (14 + p.content.length) - (14 + p.content.length)).sum := by
  induction ps with
  | nil => rfl
  | cons p ps ih =>
    rw [asSubframes, List.map_cons, paddedSize_cons, ← asSubframes, ih]
    simp only [List.map_cons, List.sum_cons]
    have : roundUp4 (14 + p.content.length) - (14 + p.content.length) = padding (14 + p.content.length) := by
      simp only [roundUp4, padding]; omega
    omega

private theorem true_eq (h : DataFrameHeader) (ps : List Packet) :
    trueSize h ps = 2 + (dataHeaderWire h).length + paddedSize (asSubframes ps) + 4 := by
  rw [trueSize, measured_eq, padded_eq]
  omega

private theorem alone_eq (h : DataFrameHeader) (p : Packet) : trueSize h [p] = aloneSize h p := by
  rw [true_eq, asSubframes, List.map_cons, List.map_nil, paddedSize_cons, aloneSize]
  rfl

omit [ScrollRule] in
private theorem padded_append (a b : List Packet) :
    paddedSize (asSubframes (a ++ b)) = paddedSize (asSubframes a) + paddedSize (asSubframes b) := by
  simp [asSubframes, paddedSize]

private theorem true_mono (h : DataFrameHeader) (a b c : List Packet) : trueSize h b ≤ trueSize h (a ++ b ++ c) := by
  rw [true_eq, true_eq, padded_append, padded_append]
  omega

variable [Crc32]

omit [ScrollRule] [Crc32] in
private theorem subframes_length (ss : List (AMSDUSubframe Bytes)) (bs : Bytes) (h : SubframesOf ss bs) :
    bs.length = paddedSize ss := by
  induction h with
  | nil => rfl
  | cons pad hp h ih =>
    rw [paddedSize_cons]
    simp only [List.length_append, subframeBody_length, hp, ih]
    omega

omit [ScrollRule] [Crc32] in
private theorem header_le (h : DataFrameHeader) : (dataHeaderWire h).length ≤ 34 := by
  have h0 := c27_length h
  simp only [DataFrameHeader.lengthInBytes] at h0
  split at h0 <;> split at h0 <;> split at h0 <;> omega

/-- A frame with some messages: how long it is. -/
private theorem batch_written (h : DataFrameHeader) (hc : Carrier h) (ps : List Packet) (fcs : Bool) (buf : Bytes)
    (hb : roomFor ps ≤ buf.length) :
    ∃ f, emitBatch h fcs buf ps = .ok f ∧ f.length + (if fcs then 0 else 4) = trueSize h ps := by
  have hs := slack_le
  have hw := header_le h
  have hr : roomFor ps = 41 + paddedSize (asSubframes ps) := rfl
  obtain ⟨bs, ⟨content, hp, rfl⟩, -, hw'⟩ := frame_writes h hc.valid (amsduPayload (asSubframes ps)) _ _
    (amsdu_writes (asSubframes ps)) fcs buf (by split <;> omega)
  refine ⟨withFcs fcs (dataFrameWire h content), ?_, ?_⟩
  · simp only [emitBatch, emit, hw', Res.ok_bind, List.take_left]
    rfl
  · have hl := subframes_length _ _ hp
    have h2 : (frameStart (.Data h.subtype) h.fcf_flags).length = 2 := rfl
    rw [true_eq]
    cases fcs <;> simp [withFcs, dataFrameWire, h2, hl] <;> omega

/-- And what is in it. -/
private theorem batch_arrives (h : DataFrameHeader) (hc : Carrier h) (ha : CarriesAmsdu h) (ps : List Packet) (hps : ps ≠ [])
    (hl : ∀ p ∈ ps, p.content.length < 65536) (fcs : Bool) (buf : Bytes) (hb : roomFor ps ≤ buf.length) :
    ∃ f, emitBatch h fcs buf ps = .ok f ∧ packetsIn fcs f = .ok ps ∧
      f.length + (if fcs then 0 else 4) = trueSize h ps := by
  obtain ⟨f, h1, h2⟩ := batch_written h hc ps fcs buf hb
  refine ⟨f, h1, ?_, h2⟩
  have hp := c94_aggregate h hc ha ps hps hl fcs buf hb
  have h1 : emit fcs buf ⟨h, some (amsduPayload (ps.map fun p => ⟨p.destination, p.source, p.content⟩))⟩ = .ok f := h1
  simp only [Hop.pass, Hop.send, h1, Res.ok_bind, Res.pure_eq, List.mapM_cons, List.mapM_nil] at hp
  cases hq : packetsIn fcs f with
  | ok q =>
    rw [hq] at hp
    simp only [Res.ok_bind, List.flatten_cons, List.flatten_nil, List.append_nil, Res.ok.injEq] at hp
    rw [hp]
  | err e => rw [hq] at hp; cases hp
  | panic => rw [hq] at hp; cases hp

private theorem batches_arrive (h : DataFrameHeader) (hc : Carrier h) (ha : CarriesAmsdu h) (fcs : Bool) (buf : Bytes)
    (bs : List (List Packet)) (hb : ∀ b ∈ bs, b ≠ [] ∧ (∀ p ∈ b, p.content.length < 65536) ∧ roomFor b ≤ buf.length) :
    ∃ fs, bs.mapM (emitBatch h fcs buf) = .ok fs ∧ fs.mapM (packetsIn fcs) = .ok bs ∧ fs.length = bs.length ∧
      ∀ f ∈ fs, ∃ b ∈ bs, f.length + (if fcs then 0 else 4) = trueSize h b := by
  induction bs with
  | nil => exact ⟨[], rfl, rfl, rfl, fun f hf => by cases hf⟩
  | cons b bs ih =>
    obtain ⟨h1, h2, h3⟩ := hb b (by simp)
    obtain ⟨f, e1, e2, e3⟩ := batch_arrives h hc ha b h1 h2 fcs buf h3
    obtain ⟨fs, g1, g2, g3, g4⟩ := ih fun x hx => hb x (by simp [hx])
    refine ⟨f :: fs, ?_, ?_, by simp [g3], ?_⟩
    · simp only [List.mapM_cons, e1, g1, Res.ok_bind, Res.pure_eq]
    · simp only [List.mapM_cons, e2, g2, Res.ok_bind, Res.pure_eq]
    · intro x hx
      rcases List.mem_cons.1 hx with rfl | hx
      · exact ⟨b, by simp, e3⟩
      · obtain ⟨b', k1, k2⟩ := g4 x hx
        exact ⟨b', by simp [k1], k2⟩

private theorem pack_facts (h : DataFrameHeader) (limit : Nat) (ps : List Packet) (hl : ∀ p ∈ ps, p.content.length < 65536)
    (buf : Bytes) (hb : 41 + limit ≤ buf.length) :
    let ps' := ps.filter fun p => decide (aloneSize h p ≤ limit)
    sendPacked (trueSize h) h limit fcs buf ps = (pack (trueSize h) limit ps').mapM (emitBatch h fcs buf) ∧
    (∀ p ∈ ps', trueSize h [p] ≤ limit) ∧
    ∀ b ∈ pack (trueSize h) limit ps', b ≠ [] ∧ (∀ p ∈ b, p.content.length < 65536) ∧ roomFor b ≤ buf.length := by
  intro ps'
  have hp : ∀ p ∈ ps', trueSize h [p] ≤ limit := by
    intro p hp
    rw [alone_eq]
    simpa using (List.mem_filter.1 hp).2
  refine ⟨?_, hp, fun b hb' => ?_⟩
  · rw [sendPacked]
    simp only [alone_eq]
    rfl
  · obtain ⟨h1, h2, -⟩ := pack_spec (trueSize h) limit _ ps' (Nat.le_refl _) hp
    obtain ⟨h3, h4⟩ := h2 b hb'
    refine ⟨h3, fun p hpb => hl p ?_, ?_⟩
    · have : p ∈ ps' := by
        rw [← h1]
        exact List.mem_flatten.2 ⟨b, hb', hpb⟩
      exact (List.mem_filter.1 this).1
    · rw [true_eq] at h4
      have : roomFor b = 41 + paddedSize (asSubframes b) := rfl
      omega

/-- Everything that fits alone arrives, once and in its order, and no frame is longer than the limit.  Partial: the header must
agree with its flags and subtype (C27), and messages must fit the length field (C30). -/
theorem c111_packed_partial (h : DataFrameHeader) (hc : Carrier h) (ha : CarriesAmsdu h) (limit : Nat) (ps : List Packet)
    (hl : ∀ p ∈ ps, p.content.length < 65536) (fcs : Bool) (buf : Bytes) (hb : 41 + limit ≤ buf.length) :
    ∃ fs qs, sendPacked (trueSize h) h limit fcs buf ps = .ok fs ∧ fs.mapM (packetsIn fcs) = .ok qs ∧
      qs.flatten = ps.filter (fun p => decide (aloneSize h p ≤ limit)) ∧ ∀ f ∈ fs, Within limit fcs f := by
  obtain ⟨h1, h2, h3⟩ := pack_facts (fcs := fcs) h limit ps hl buf hb
  obtain ⟨h4, h5, -⟩ := pack_spec (trueSize h) limit _ _ (Nat.le_refl _) h2
  obtain ⟨fs, g1, g2, -, g4⟩ := batches_arrive h hc ha fcs buf _ h3
  refine ⟨fs, _, by rw [h1, g1], g2, h4, fun f hf => ?_⟩
  obtain ⟨b, k1, k2⟩ := g4 f hf
  rw [Within, k2]
  exact (h5 b k1).2

/-- Frames are full: with the first message of the next frame each would be too long.  Partial as before. -/
theorem c111_full_partial (h : DataFrameHeader) (hc : Carrier h) (ha : CarriesAmsdu h) (limit : Nat) (ps : List Packet)
    (hl : ∀ p ∈ ps, p.content.length < 65536) (fcs : Bool) (buf : Bytes) (hb : 41 + limit ≤ buf.length) (fs : List Bytes)
    (qs before after : List (List Packet)) (a b : List Packet) (hs : sendPacked (trueSize h) h limit fcs buf ps = .ok fs)
    (hq : fs.mapM (packetsIn fcs) = .ok qs) (hqs : qs = before ++ a :: b :: after) :
    ∃ q rest, b = q :: rest ∧ ∀ large : Bytes, roomFor (a ++ [q]) ≤ large.length →
      ∃ f, emitBatch h fcs large (a ++ [q]) = .ok f ∧ ¬ Within limit fcs f := by
  obtain ⟨h1, h2, h3⟩ := pack_facts (fcs := fcs) h limit ps hl buf hb
  obtain ⟨-, -, h6⟩ := pack_spec (trueSize h) limit _ _ (Nat.le_refl _) h2
  obtain ⟨fs', g1, g2, -, -⟩ := batches_arrive h hc ha fcs buf _ h3
  rw [h1, g1] at hs
  cases hs
  rw [g2] at hq
  cases hq
  obtain ⟨q, rest, e1, e2⟩ := h6 _ _ _ _ hqs
  refine ⟨q, rest, e1, fun large hlarge => ?_⟩
  obtain ⟨f, k1, k2⟩ := batch_written h hc (a ++ [q]) fcs large hlarge
  refine ⟨f, k1, ?_⟩
  rw [Within, k2]
  omega

/-- Nobody needs fewer frames for the same messages in the same order.  Partial as before. -/
theorem c111_fewest_partial (h : DataFrameHeader) (hc : Carrier h) (ha : CarriesAmsdu h) (limit : Nat) (ps : List Packet)
    (hl : ∀ p ∈ ps, p.content.length < 65536) (fcs : Bool) (buf : Bytes) (hb : 41 + limit ≤ buf.length) (fs : List Bytes)
    (hs : sendPacked (trueSize h) h limit fcs buf ps = .ok fs) (ds : List (List Packet))
    (hds : ds.flatten = ps.filter (fun p => decide (aloneSize h p ≤ limit)))
    (hw : ∀ d ∈ ds, ∃ large f, roomFor d ≤ large.length ∧ emitBatch h fcs large d = .ok f ∧ Within limit fcs f) :
    fs.length ≤ ds.length := by
  obtain ⟨h1, h2, h3⟩ := pack_facts (fcs := fcs) h limit ps hl buf hb
  obtain ⟨fs', g1, -, g3, -⟩ := batches_arrive h hc ha fcs buf _ h3
  rw [h1, g1] at hs
  cases hs
  rw [g3]
  refine pack_fewest (trueSize h) limit (true_mono h) ds ?_ _ [] (by rw [hds]; rfl) h2
  intro d hd
  obtain ⟨large, f, k1, k2, k3⟩ := hw d hd
  obtain ⟨f', k4, k5⟩ := batch_written h hc d fcs large k1
  rw [k2] at k4
  cases k4
  rw [Within, k5] at k3
  exact k3

/-! ## Lengths as the crate measures them -/

omit [ScrollRule] [Crc32] in
private theorem fits_whole (size : List Packet → Nat) (limit : Nat) (hmono : ∀ a b : List Packet, size a ≤ size (a ++ b))
    (ps cur : List Packet) (h : size (cur ++ ps) ≤ limit) : packFrom size limit cur ps = [cur ++ ps] := by
  induction ps generalizing cur with
  | nil => simp [packFrom]
  | cons p ps ih =>
    have h' : cur ++ p :: ps = cur ++ [p] ++ ps := by simp
    rw [packFrom, if_pos (Nat.le_trans (hmono _ ps) (by rwa [← h'])), ih _ (by rwa [← h']), ← h']

/-- Violation: the crate does not count the padding.  Messages that fit by its measure, and do not fit, are sent in one frame, which
is too long. -/
theorem c111_measured_wrong (h : DataFrameHeader) (hc : Carrier h) (limit : Nat) (ps : List Packet) (hps : ps ≠ [])
    (h1 : measuredSize h ps ≤ limit)
    (h2 : limit < 2 + (dataHeaderWire h).length + paddedSize (asSubframes ps) + 4) (fcs : Bool) (buf : Bytes)
    (hb : roomFor ps ≤ buf.length) :
    ∃ f, sendPacked (measuredSize h) h limit fcs buf ps = .ok [f] ∧ ¬ Within limit fcs f := by
  have hmono : ∀ a b : List Packet, measuredSize h a ≤ measuredSize h (a ++ b) := by
    intro a b
    rw [measured_eq, measured_eq, List.map_append, List.sum_append]
    omega
  have hall : ∀ p ∈ ps, measuredSize h [p] ≤ limit := by
    intro p hp
    obtain ⟨s, t, rfl⟩ := List.append_of_mem hp
    refine Nat.le_trans ?_ h1
    rw [measured_eq, measured_eq]
    simp only [List.map_append, List.map_cons, List.map_nil, List.sum_append, List.sum_cons, List.sum_nil]
    omega
  obtain ⟨f, k1, k2⟩ := batch_written h hc ps fcs buf hb
  refine ⟨f, ?_, ?_⟩
  · rw [sendPacked, List.filter_eq_self.2 fun p hp => by simpa using hall p hp]
    cases ps with
    | nil => exact absurd rfl hps
    | cons p ps =>
      rw [pack, fits_whole _ _ hmono ps [p] h1]
      simp only [List.singleton_append, List.mapM_cons, List.mapM_nil, k1, Res.ok_bind, Res.pure_eq]
  · rw [Within, k2, true_eq]
    omega

/-- Where no message needs padding the two senders are the same. -/
theorem c111_measured_partial (h : DataFrameHeader) (limit : Nat) (ps : List Packet)
    (hp : ∀ p ∈ ps, (14 + p.content.length) % 4 = 0) (fcs : Bool) (buf : Bytes) :
    sendPacked (measuredSize h) h limit fcs buf ps = sendPacked (trueSize h) h limit fcs buf ps := by
  have hsz : ∀ qs : List Packet, (∀ p ∈ qs, (14 + p.content.length) % 4 = 0) → trueSize h qs = measuredSize h qs := by
    intro qs hq
    rw [trueSize]
    suffices (qs.map fun p => roundUp4 (14 + p.content.length) - (14 + p.content.length)).sum = 0 by omega
    induction qs with
    | nil => rfl
    | cons q qs ih =>
      have h0 := hq q (by simp)
      rw [List.map_cons, List.sum_cons, ih fun p hp => hq p (by simp [hp])]
      simp only [roundUp4]
      omega
  have hpk : ∀ qs cur : List Packet, (∀ p ∈ cur ++ qs, (14 + p.content.length) % 4 = 0) →
      packFrom (measuredSize h) limit cur qs = packFrom (trueSize h) limit cur qs := by
    intro qs
    induction qs with
    | nil => intro cur _; rfl
    | cons q qs ih =>
      intro cur hq
      rw [packFrom, packFrom, hsz (cur ++ [q]) (fun p hp => hq p (by
        simp only [List.mem_append, List.mem_cons, List.not_mem_nil, or_false] at hp ⊢
        rcases hp with hp | hp
        · exact .inl hp
        · exact .inr (.inl hp))), ih _ (by simpa using hq), ih [q] (fun p hp => hq p (by
          simp only [List.singleton_append] at hp
          exact List.mem_append.2 (.inr hp)))]
  have hf : ps.filter (fun p => decide (measuredSize h [p] ≤ limit)) = ps.filter (fun p => decide (trueSize h [p] ≤ limit)) := by
    refine List.filter_congr fun p hp' => ?_
    rw [hsz [p] (by simpa using hp p hp')]
  rw [sendPacked, sendPacked, hf]
  congr 1
  have hfp : ∀ p ∈ ps.filter (fun p => decide (trueSize h [p] ≤ limit)), (14 + p.content.length) % 4 = 0 :=
    fun p hp' => hp p (List.mem_filter.1 hp').1
  generalize ps.filter (fun p => decide (trueSize h [p] ≤ limit)) = l at hfp
  cases l with
  | nil => rfl
  | cons p l => exact hpk l [p] hfp

/-! ## The limit -/

omit [Crc32] in
private theorem vht_safe (p : Bytes) : readVHTCapabilities p ≠ .panic := by
  intro h
  by_cases hp : p.length < 12
  · obtain ⟨e, he⟩ := c12_vht_capabilities.short p hp
    rw [he] at h; cases h
  · obtain ⟨a, r, hv, rfl⟩ := c12_vht_capabilities.onto p (by omega)
    rw [c12_vht_capabilities.read a r hv] at h; cases h

omit [Crc32] in
private def vhtFrom (p : Bytes) : VHTCapabilitiesElement :=
  match readVHTCapabilities p with
  | .ok (e, _) => e
  | _ => ⟨⟨0⟩, ⟨0⟩⟩

omit [Crc32] in
private theorem vht_parsed (p : Bytes) : parsed vhtCapabilitiesKind p = if 12 ≤ p.length then some (vhtFrom p) else none := by
  have hsl := slack_le
  by_cases hp : 12 ≤ p.length
  · obtain ⟨a, r, hv, rfl⟩ := c12_vht_capabilities.onto p hp
    rw [if_pos hp, parsed, if_neg (by omega)]
    simp only [vhtCapabilitiesKind, vhtFrom, c12_vht_capabilities.read a r hv]
  · rw [if_neg hp, parsed]
    obtain ⟨e, he⟩ := c12_vht_capabilities.short p (by omega)
    simp only [vhtCapabilitiesKind, he, ite_self]

omit [ScrollRule] [Crc32] in
private theorem info_limit (i : VHTCapabilitiesInfo) (r : Bytes) :
    i.maximumMpduLengthInBytes.map (·.toNat) = match octetAt (toLE i.bits ++ r) 0 % 4 with
      | 0 => some 3895
      | 1 => some 7991
      | 2 => some 11454
      | _ => none := by
  have h1 : octetAt (toLE i.bits ++ r) 0 % 4 = i.bits.toNat % 4 := by
    simp [octetAt, toLE, leBytes]
  have h2 : i.maximum_mpdu_length.toNat = i.bits.toNat % 4 := by
    simp [VHTCapabilitiesInfo.maximum_mpdu_length, getField]
  rw [VHTCapabilitiesInfo.maximumMpduLengthInBytes, h1, h2]
  have h4 : i.bits.toNat % 4 < 4 := Nat.mod_lt _ (by decide)
  generalize i.bits.toNat % 4 = c at h4
  match c, h4 with
  | 0, _ | 1, _ | 2, _ | 3, _ => rfl

omit [Crc32] in
/-- For all elements: the limit is that of the octets of the standard. -/
theorem c111_exact (els : Bytes) (raws : List RawElement) (h : ElementsOf els raws) : limitIn els = .ok (longestIn raws) := by
  have h1 := getFirst_said h 191 vhtCapabilitiesKind rfl vht_safe 12 _ vht_parsed
  simp only [BitVec.reduceToNat] at h1
  simp only [limitIn, h1, Res.ok_bind, longestIn]
  cases hs : saidIn 191 12 raws with
  | none => rfl
  | some p =>
    have hp : 12 ≤ p.length := by
      obtain ⟨r, -, hr⟩ := List.exists_of_findSome?_eq_some hs
      split at hr
      · rename_i hc
        cases hr
        exact hc.2
      · cases hr
    obtain ⟨a, r, hv, rfl⟩ := c12_vht_capabilities.onto p hp
    simp only [Option.map_some, Option.bind_some, vhtFrom, c12_vht_capabilities.read a r hv, Res.pure_eq]
    rw [info_limit _ (toLE a.supported_vht_mcs_and_nss_set.bits ++ r), List.append_assoc]

/-- For frames: a beacon or a probe response of the crate with any elements, and what the sender makes of it.  Partial: HT control
must agree with the order bit, and under the strict rule of `scroll` neither the name nor the last element is empty. -/
theorem c111_heard_partial (resp : Bool) (a : Surroundings) (name : Str) (fcs : Bool)
    (h : (OnAir.network resp a name).Fine fcs) :
    ∃ size, ∀ buf : Bytes, size ≤ buf.length → ∃ frame, announce resp a name fcs buf = .ok frame ∧
      limitHeard fcs frame = .ok (some (a.header.bssid, longestIn (a.elements name))) := by
  obtain ⟨ha, hn1, hn2⟩ := h
  have hn : SSIDLikeElement.new name = some ⟨name⟩ := (c10_new _ _).2 ⟨hn2, rfl⟩
  obtain ⟨x, hx⟩ := announced_item name _ hn
  obtain ⟨size, hA⟩ := announce_arrives resp a ha _ _ x hx (fun _ => hn1) fcs
  refine ⟨size, fun buf hb => ?_⟩
  obtain ⟨frame, els, h1, ⟨j, h2⟩, h3⟩ := hA buf hb
  refine ⟨frame, by rw [announce, hn]; exact h1, ?_⟩
  simp only [limitHeard, h2, c111_exact els _ h3, Res.ok_bind]
  rfl

/-- Nothing panics, unless a check sequence is expected in fewer than four bytes. -/
theorem c111_panics_iff (fcs : Bool) (frame : Bytes) :
    limitHeard fcs frame = .panic ↔ fcs = true ∧ frame.length < 4 := by
  rw [← (match_mgmt readBeaconLike readBeaconLike_safe (fun r => (r.1.bssid, r.2.elements)) [.Beacon, .ProbeResponse]
    (by decide) fcs frame).1]
  simp only [List.map_cons, List.map_nil]
  unfold limitHeard
  split
  · rename_i hr
    simp [hr]
  · rename_i hr
    simp [hr]
  · rename_i els hr
    obtain ⟨raws, hraws⟩ := elementsOf_exists els
    rw [hr, c111_exact _ _ hraws]
    simp [pure]

/-- Whatever is received, a limit is that in a beacon or probe response of the station itself. -/
theorem c111_heard_only (fcs : Bool) (frame : Bytes) (who : Mac) (limit : Nat)
    (h : limitHeard fcs frame = .ok (some (who, some limit))) :
    ∃ (h : ManagementFrameHeader) (b0 : Byte) (fixed els : Bytes) (raws : List RawElement),
      frame = withFcs fcs (b0 :: h.fcf_flags.bits :: (mgmtHeaderWire h ++ (fixed ++ els))) ∧
      (b0.toNat / 4 % 4, b0.toNat / 16) ∈ [(0, 8), (0, 5)] ∧ HtConsistent h ∧ h.bssid = who ∧ fixed.length = 12 ∧
      ElementsOf els raws ∧ longestIn raws = some limit := by
  have hm := (match_mgmt readBeaconLike readBeaconLike_safe (fun r => (r.1.bssid, r.2.elements)) [.Beacon, .ProbeResponse]
    (by decide) fcs frame).2.2
  simp only [List.map_cons, List.map_nil] at hm
  unfold limitHeard at h
  split at h
  · cases h
  · cases h
  · rename_i j bs els hr
    obtain ⟨inner, hin, k, hk, hkind, ⟨hd, body⟩, n, hread, hx⟩ := hm _ _ hr
    simp only [Prod.mk.injEq] at hx
    obtain ⟨rfl, rfl⟩ := hx
    have hbr : Bounded readBeaconLike := by
      intro inp b k h
      obtain ⟨_, _, _, _, h, _⟩ := c22_beacon.parse inp b k h
      omega
    obtain ⟨b0, rest, m, h1, h2, h3, h4, -⟩ := c23_parse _ hbr false inner hd body n hread
    obtain ⟨fx, h5, h6, -⟩ := c22_beacon.parse _ _ _ h4
    obtain ⟨raws, hraws⟩ := elementsOf_exists body.elements
    rw [c111_exact _ _ hraws, Res.ok_bind] at h
    simp only [pure, Res.ok.injEq, Option.some.injEq, Prod.mk.injEq] at h
    refine ⟨hd, b0, fx, body.elements, raws, ?_, ?_, h3, h.1, h6, hraws, h.2⟩
    · rw [hin, h1, h5]
      rfl
    · obtain ⟨c0, c1, r', hc, hk1, hk2, -⟩ := hkind
      rw [h1] at hc
      simp only [withFcs, Bool.false_eq_true, if_false, List.cons.injEq] at hc
      obtain ⟨rfl, -⟩ := hc
      rw [hk1, hk2]
      simp only [List.mem_cons, List.not_mem_nil, or_false] at hk
      rcases hk with rfl | rfl <;> simp [kindNumber]

omit [ScrollRule] [Crc32] in
/-- A station that says one of the three lengths with the crate's setter is given frames of that length; one that says another
length says none. -/
theorem c111_said (raws : List RawElement) (info : VHTCapabilitiesInfo) (len : BitVec 16) (rest : Bytes)
    (h : saidIn 191 12 raws = some (toLE (info.withMaximumMpduLengthInBytes len).bits ++ rest)) :
    longestIn raws = if len = 3895 ∨ len = 7991 ∨ len = 11454 then some len.toNat else none := by
  rw [longestIn, h, Option.bind_some, ← info_limit, c15_mpdu_length]
  split <;> rfl

/-! ## Concrete cases -/

/-- Two messages: by the crate's measure they make a frame of 3895 octets, and it has 3898. -/
example (c d : Bytes) (h1 : c.length = 1917) (h2 : d.length = 1920) (fcs : Bool) (buf : Bytes) (hb : 41 + 3868 ≤ buf.length) :
    ∃ f, sendPacked (measuredSize wholesale) wholesale 3895 fcs buf
      [⟨pieceMac 1, pieceMac 2, c⟩, ⟨pieceMac 3, pieceMac 4, d⟩] = .ok [f] ∧
      ¬ Within 3895 fcs f := by
  refine c111_measured_wrong wholesale ⟨⟨by decide, DataFrameSubtype.canonical_fromBits 8⟩, ⟨by decide, by decide, by decide⟩,
    by decide, by decide⟩ 3895 _ (by simp) ?_ ?_ fcs buf ?_
  · rw [measured_eq, show (dataHeaderWire wholesale).length = 24 by decide]
    simp [h1, h2]
  · rw [show (dataHeaderWire wholesale).length = 24 by decide]
    simp [asSubframes, paddedSize, padding, h1, h2]
  · simpa [roomFor, paddedSize, padding, h1, h2] using hb

/-- Three messages with a limit of 66 octets, by running it: two frames, and the third message does not fit at all. -/
example (s : Bool) :
    letI : ScrollRule := ⟨s⟩
    letI : Crc32 := ⟨fun _ => 0⟩
    (do
      let fs ← sendPacked (trueSize wholesale) wholesale 66 true (List.replicate 107 0)
        [⟨pieceMac 1, pieceMac 2, [1, 2, 3]⟩, ⟨pieceMac 1, pieceMac 2, List.replicate 60 0⟩, ⟨pieceMac 1, pieceMac 2, [4]⟩,
          ⟨pieceMac 1, pieceMac 3, [5, 6]⟩]
      let qs ← fs.mapM (packetsIn true)
      pure (fs.map List.length, qs.map (List.map Packet.content))) = .ok ([66, 46], [[[1, 2, 3], [4]], [[5, 6]]]) := by
  cases s <;> decide +kernel

/-- The same with the crate's measure: a limit of 64, and a frame of 66. -/
example (s : Bool) :
    letI : ScrollRule := ⟨s⟩
    letI : Crc32 := ⟨fun _ => 0⟩
    (do
      let fs ← sendPacked (measuredSize wholesale) wholesale 64 true (List.replicate 107 0)
        [⟨pieceMac 1, pieceMac 2, [1, 2, 3]⟩, ⟨pieceMac 1, pieceMac 2, [4]⟩]
      pure (fs.map List.length)) = .ok [66] := by
  cases s <;> decide +kernel

end Verif
