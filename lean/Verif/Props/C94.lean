import Verif.Props.C93
/-!
# C94: the distribution system

A message from one station to another may take several steps: to an access point, on to others, and down to the station it
is for.  Each step puts it into a data frame of its own, alone or together with others in an A-MSDU; the addresses of the two
stations move between the fields of the header, as table 9-30 has it.  Whoever passes a message on knows only what the crate
told about the frame received.
-/
namespace Verif

namespace Spec

/-- A message between two stations. -/
structure Packet where
  destination : Mac
  source : Mac
  content : Bytes
  deriving DecidableEq, Repr

/-- A step of the way, between two stations of an independent network, up to an access point, down from one, or across to
another one. -/
inductive Link where
  | direct (bssid : Mac)
  | up (bssid : Mac)
  | down (bssid : Mac)
  | across (receiver transmitter : Mac)
  deriving DecidableEq, Repr

/-- The calls of the builder for a message.  (For `down` the destination comes last; see `c94_documented_wrong`.) -/
def Link.program (p : Packet) : Link → List (BuilderOp Obj)
  | .direct b => [.neither_to_nor_from_ds, .category .Data, .payload .Bytes (bytesObj p.content),
      .destination_address p.destination, .source_address p.source, .bssid b]
  | .up b => [.to_ds, .category .Data, .payload .Bytes (bytesObj p.content),
      .destination_address p.destination, .source_address p.source, .bssid b]
  | .down b => [.from_ds, .category .Data, .payload .Bytes (bytesObj p.content), .source_address p.source, .bssid b,
      .destination_address p.destination]
  | .across r t => [.to_and_from_ds, .category .Data, .payload .Bytes (bytesObj p.content), .receiver_address r,
      .transmitter_address t, .destination_address p.destination, .source_address p.source]

/-- The station the frame of a step is for. -/
def Link.receiver (p : Packet) : Link → Mac
  | .direct _ => p.destination
  | .up b => b
  | .down _ => p.destination
  | .across r _ => r

/-- A frame as it is sent. -/
def emit [ScrollRule] [Crc32] (fcs : Bool) (buf : Bytes) (f : DataFrame Obj) : Res Bytes := do
  let (out, n) ← writeDataFrame f fcs buf
  pure (out.take n)

/-- Ways to send messages: by the builder, each in a frame; each in a frame with some header in which the addresses are
replaced by the crate's accessors; or all of them in one frame.  (A program for the builder that does not compile, and an
address that can not be set, count as a panic.) -/
inductive Hop where
  | built (l : Link)
  | patched (h : DataFrameHeader)
  | aggregate (h : DataFrameHeader)
  deriving DecidableEq

def Hop.send [ScrollRule] [Crc32] (fcs : Bool) (buf : Bytes) (ps : List Packet) : Hop → Res (List Bytes)
  | .built l => ps.mapM fun p => match buildDataFrame (l.program p) with
    | some f => emit fcs buf f
    | none => .panic
  | .patched h => ps.mapM fun p => match (h.setDestinationAddress p.destination).bind (·.setSourceAddress p.source) with
    | some h' => emit fcs buf ⟨h', some (bytesObj p.content)⟩
    | none => .panic
  | .aggregate h => do
    let b ← emit fcs buf ⟨h, some (amsduPayload (ps.map fun p => ⟨p.destination, p.source, p.content⟩))⟩
    pure [b]

/-- The messages in received bytes, by the functions of the crate. -/
def packetsIn [ScrollRule] [Crc32] (fcs : Bool) (bytes : Bytes) : Res (List Packet) :=
  match matchFrames bytes (if fcs then some true else none) [armOf dataFrameKind readDataFrame id] with
  | .panic => .panic
  | .err _ => .ok []
  | .ok (_, f) => match potentiallyWrappedPayload f none with
    | .panic => .panic
    | .ok (some (.Unwrapped (.Single c))) => match f.header.destinationAddress, f.header.sourceAddress with
      | some d, some s => .ok [⟨d, s, c⟩]
      | _, _ => .ok []
    | .ok (some (.Unwrapped (.AMSDU it))) =>
      (it.collect (bytes.length + 1)).map fun ss => ss.map fun s => ⟨s.destination_address, s.source_address, s.payload⟩
    | _ => .ok []

/-- One step: everything is sent, and what is received is taken apart. -/
def Hop.pass [ScrollRule] [Crc32] (fcs : Bool) (buf : Bytes) (ps : List Packet) (h : Hop) : Res (List Packet) := do
  let bs ← h.send fcs buf ps
  let qs ← bs.mapM (packetsIn fcs)
  pure qs.flatten

/-- The whole way. -/
def route [ScrollRule] [Crc32] (fcs : Bool) (buf : Bytes) : List Hop → List Packet → Res (List Packet)
  | [], ps => .ok ps
  | h :: hs, ps => do
    let qs ← h.pass fcs buf ps
    route fcs buf hs qs

/-- A header that a frame may have: it agrees with its flags and subtype, is for data, and nothing is encrypted. -/
structure Carrier (h : DataFrameHeader) : Prop where
  valid : ValidData h
  consistent : HeaderConsistent h
  data : payloadSubtype h.subtype
  plain : h.fcf_flags.protected_ = false

def Hop.Proper : Hop → Prop
  | .built _ => True
  | .patched h => Carrier h ∧ ¬ CarriesAmsdu h
  | .aggregate h => Carrier h ∧ CarriesAmsdu h

/-- The room that messages need in a buffer, with the longest header there is. -/
def roomFor (ps : List Packet) : Nat :=
  41 + paddedSize (ps.map fun p => (⟨p.destination, p.source, p.content⟩ : AMSDUSubframe Bytes))

end Spec

open Spec

variable [ScrollRule] [Crc32]

omit [ScrollRule] [Crc32] in
private theorem wire_length (h : DataFrameHeader) : (dataHeaderWire h).length ≤ 34 := by
  have ho : ∀ {n : Nat} (o : Option (Arr n)), (optWire o).length ≤ n := by
    intro n o
    cases o with
    | none => exact Nat.zero_le _
    | some a => exact Nat.le_of_eq a.2
  have h1 := h.address_1.2
  have h2 := h.address_2.2
  have h3 := h.address_3.2
  have h4 := ho h.address_4
  have h5 := ho h.qos
  have h6 := ho h.ht_control
  simp only [dataHeaderWire, List.length_append, toLE_length, h1, h2, h3]
  omega

/-- A message alone in a frame: it arrives with the addresses that the table of roles says. -/
theorem c94_single (h : DataFrameHeader) (hc : Carrier h) (ha : ¬ CarriesAmsdu h) (content : Bytes)
    (hne : slack ≤ content.length) (fcs : Bool) (buf : Bytes) (hb : 41 + content.length ≤ buf.length) :
    ∃ b, emit fcs buf ⟨h, some (bytesObj content)⟩ = .ok b ∧
      ∃ d s, (rolesOf h).1.bind (field h) = some d ∧ (rolesOf h).2.1.bind (field h) = some s ∧
        packetsIn fcs b = .ok [⟨d, s, content⟩] := by
  have hs := slack_le
  have hw := wire_length h
  obtain ⟨out, n, c, g1, g2, g3⟩ := frame_arrives h hc.valid hc.consistent hc.data
    (bytesObj content) (· = content) _ (Emits.bytes content).writes fcs id [] [] (fun _ ha => by cases ha) buf
    (by split <;> omega)
  subst g2
  have g3 : matchFrames (out.take n) (if fcs then some true else none) [armOf dataFrameKind readDataFrame id] =
      .ok (0, ⟨h, some c⟩) := g3
  have hA : h.isAmsdu = false := by
    cases hh : h.isAmsdu with
    | false => rfl
    | true => exact absurd ((c28_amsdu h).1 hh) ha
  have hroles : ∃ d s, h.destinationAddress = some d ∧ h.sourceAddress = some s := by
    have h4 := hc.consistent.address_4
    rw [c28_destination, c28_source]
    unfold rolesOf
    rw [hA]
    cases ht : h.fcf_flags.to_ds <;> cases hf : h.fcf_flags.from_ds <;> rw [ht, hf] at h4
    · exact ⟨_, _, rfl, rfl⟩
    · exact ⟨_, _, rfl, rfl⟩
    · exact ⟨_, _, rfl, rfl⟩
    · obtain ⟨a, h5⟩ := Option.isSome_iff_exists.1 (h4.2 ⟨rfl, rfl⟩)
      exact ⟨_, a, rfl, h5⟩
  obtain ⟨d, s, h1, h2⟩ := hroles
  refine ⟨out.take n, ?_, d, s, ?_, ?_, ?_⟩
  · simp only [emit, g1, Res.ok_bind]; rfl
  · rw [← c28_destination, h1]
  · rw [← c28_source, h2]
  · unfold packetsIn
    rw [g3]
    simp only [c32_unprotected ⟨h, some c⟩ none c rfl hc.plain, if_pos hne, hA, h1, h2]
    rfl

omit [ScrollRule] [Crc32] in
private theorem subframes_count (ss : List (AMSDUSubframe Bytes)) (bs : Bytes) (h : SubframesOf ss bs) :
    ss.length ≤ bs.length := by
  induction h with
  | nil => exact Nat.le_refl _
  | cons pad hp h ih =>
    simp only [List.length_cons, List.length_append, subframeBody_length]
    omega

/-- Several messages in a frame. -/
theorem c94_aggregate (h : DataFrameHeader) (hc : Carrier h) (ha : CarriesAmsdu h) (ps : List Packet) (hps : ps ≠ [])
    (hl : ∀ p ∈ ps, p.content.length < 65536) (fcs : Bool) (buf : Bytes) (hb : roomFor ps ≤ buf.length) :
    (Hop.aggregate h).pass fcs buf ps = .ok ps := by
  have hw := wire_length h
  have hs := slack_le
  unfold roomFor at hb
  obtain ⟨out, n, c, g1, g2, g3⟩ := frame_arrives h hc.valid hc.consistent hc.data
    (amsduPayload (ps.map fun p => ⟨p.destination, p.source, p.content⟩)) _ _ (amsdu_writes _) fcs id [] []
    (fun _ ha => by cases ha) buf (by split <;> omega)
  have g3 : matchFrames (out.take n) (if fcs then some true else none) [armOf dataFrameKind readDataFrame id] =
      .ok (0, ⟨h, some c⟩) := g3
  have hlen : c.length ≤ (out.take n).length := by
    obtain ⟨frame, k, h1, h2⟩ := (match_data fcs _).2 0 _ g3
    obtain ⟨b0, rest, h3, -, -, h4, -⟩ := c49_parse false frame _ k h2
    rw [if_pos hc.data] at h4
    cases h4
    have h3 : frame = _ := h3
    have : frame.length ≤ (withFcs fcs frame).length := by
      cases fcs
      · exact Nat.le_refl _
      · simp [withFcs]
    rw [h1]
    refine Nat.le_trans ?_ this
    rw [h3]
    show c.length ≤ (b0 :: _ :: (dataHeaderWire h ++ c)).length
    simp only [List.length_cons, List.length_append]
    omega
  have hcc := subframes_count _ _ g2
  have hnil : slack ≤ c.length := by
    refine Nat.le_trans hs (Nat.le_trans ?_ hcc)
    rw [List.length_map]
    exact List.length_pos_iff.2 hps
  have hcol := c30_iterate _ c g2 (by
    intro s hs
    obtain ⟨p, hp, rfl⟩ := List.mem_map.1 hs
    exact hl p hp) ((out.take n).length + 1) (by omega)
  have hp : packetsIn fcs (out.take n) = .ok ps := by
    unfold packetsIn
    rw [g3]
    simp only [c32_unprotected ⟨h, some c⟩ none c rfl hc.plain, if_pos hnil, if_pos ((c28_amsdu h).2 ha), hcol, Res.map,
      List.map_map]
    congr 1
    exact List.map_id ps
  simp only [Hop.pass, Hop.send, emit, g1, Res.ok_bind, Res.pure_eq, List.mapM_cons, List.mapM_nil, hp]
  simp

omit [ScrollRule] [Crc32] in
private theorem built_frame (l : Link) (p : Packet) : ∃ h, buildDataFrame (l.program p) = some ⟨h, some (bytesObj p.content)⟩ ∧
    Carrier h ∧ ¬ CarriesAmsdu h ∧ (rolesOf h).1.bind (field h) = some p.destination ∧
    (rolesOf h).2.1.bind (field h) = some p.source ∧ h.address_1 = l.receiver p := by
  have hq : ∀ h : DataFrameHeader, h.qos = none → ¬ CarriesAmsdu h := by
    rintro h hq ⟨-, q, h1, -⟩
    rw [hq] at h1
    cases h1
  have hv : ∀ h : DataFrameHeader, h.subtype = .Data → ValidData h ∧ payloadSubtype h.subtype := by
    intro h hs
    unfold ValidData
    rw [hs]
    exact ⟨⟨by decide, DataFrameSubtype.canonical_fromBits 0⟩, by decide⟩
  have hr : ∀ h : DataFrameHeader, h.qos = none → h.isAmsdu = false := by
    intro h h'
    cases hh : h.isAmsdu with
    | false => rfl
    | true => exact absurd ((c28_amsdu h).1 hh) (hq h h')
  cases l with
  | direct b =>
    have ht : (FCFFlags.mk 0).to_ds = false := by decide
    have hf : (FCFFlags.mk 0).from_ds = false := by decide
    refine ⟨⟨.Data, ⟨0⟩, 0, p.destination, p.source, b, ⟨0⟩, none, none, none⟩, rfl, ⟨(hv _ rfl).1, ⟨?_, ?_, ?_⟩, (hv _ rfl).2,
      (show (FCFFlags.mk 0).protected_ = false by decide)⟩, hq _ rfl, ?_, ?_, rfl⟩
    · exact (show (false = true) ↔ ((FCFFlags.mk 0).to_ds = true ∧ (FCFFlags.mk 0).from_ds = true) by decide)
    · exact (show (false = true) ↔ qosSubtype .Data by decide)
    · exact (show (false = true) ↔ ((FCFFlags.mk 0).order = true) by decide)
    · simp only [rolesOf, hr, ht, hf]; rfl
    · simp only [rolesOf, hr, ht, hf]; rfl
  | up b =>
    have ht : (FCFFlags.mk 1).to_ds = true := by decide
    have hf : (FCFFlags.mk 1).from_ds = false := by decide
    refine ⟨⟨.Data, ⟨1⟩, 0, b, p.source, p.destination, ⟨0⟩, none, none, none⟩, rfl, ⟨(hv _ rfl).1, ⟨?_, ?_, ?_⟩, (hv _ rfl).2,
      (show (FCFFlags.mk 1).protected_ = false by decide)⟩, hq _ rfl, ?_, ?_, rfl⟩
    · exact (show (false = true) ↔ ((FCFFlags.mk 1).to_ds = true ∧ (FCFFlags.mk 1).from_ds = true) by decide)
    · exact (show (false = true) ↔ qosSubtype .Data by decide)
    · exact (show (false = true) ↔ ((FCFFlags.mk 1).order = true) by decide)
    · simp only [rolesOf, hr, ht, hf]; rfl
    · simp only [rolesOf, hr, ht, hf]; rfl
  | down b =>
    have ht : (FCFFlags.mk 2).to_ds = false := by decide
    have hf : (FCFFlags.mk 2).from_ds = true := by decide
    refine ⟨⟨.Data, ⟨2⟩, 0, p.destination, b, p.source, ⟨0⟩, none, none, none⟩, rfl, ⟨(hv _ rfl).1, ⟨?_, ?_, ?_⟩, (hv _ rfl).2,
      (show (FCFFlags.mk 2).protected_ = false by decide)⟩, hq _ rfl, ?_, ?_, rfl⟩
    · exact (show (false = true) ↔ ((FCFFlags.mk 2).to_ds = true ∧ (FCFFlags.mk 2).from_ds = true) by decide)
    · exact (show (false = true) ↔ qosSubtype .Data by decide)
    · exact (show (false = true) ↔ ((FCFFlags.mk 2).order = true) by decide)
    · simp only [rolesOf, hr, ht, hf]; rfl
    · simp only [rolesOf, hr, ht, hf]; rfl
  | across r t =>
    have ht : (FCFFlags.mk 3).to_ds = true := by decide
    have hf : (FCFFlags.mk 3).from_ds = true := by decide
    refine ⟨⟨.Data, ⟨3⟩, 0, r, t, p.destination, ⟨0⟩, some p.source, none, none⟩, rfl, ⟨(hv _ rfl).1, ⟨?_, ?_, ?_⟩, (hv _ rfl).2,
      (show (FCFFlags.mk 3).protected_ = false by decide)⟩, hq _ rfl, ?_, ?_, rfl⟩
    · exact (show (true = true) ↔ ((FCFFlags.mk 3).to_ds = true ∧ (FCFFlags.mk 3).from_ds = true) by decide)
    · exact (show (false = true) ↔ qosSubtype .Data by decide)
    · exact (show (false = true) ↔ ((FCFFlags.mk 3).order = true) by decide)
    · simp only [rolesOf, hr, ht, hf]; rfl
    · simp only [rolesOf, hr, ht, hf]; rfl

/-- What the builder makes for a step goes to its receiver, and arrives as the message. -/
theorem c94_built (l : Link) (p : Packet) (hne : slack ≤ p.content.length) (fcs : Bool) (buf : Bytes)
    (hb : 41 + p.content.length ≤ buf.length) :
    ∃ f b, buildDataFrame (l.program p) = some f ∧ f.header.receiverAddress = l.receiver p ∧ emit fcs buf f = .ok b ∧
      packetsIn fcs b = .ok [p] := by
  obtain ⟨h, h1, h2, h3, h4, h5, h6⟩ := built_frame l p
  obtain ⟨b, g1, d, s, g2, g3, g4⟩ := c94_single h h2 h3 p.content hne fcs buf hb
  rw [h4] at g2; cases g2
  rw [h5] at g3; cases g3
  exact ⟨_, b, h1, h6, g1, g4⟩

omit [ScrollRule] [Crc32] in
private theorem patched_frame (h : DataFrameHeader) (hc : Carrier h) (ha : ¬ CarriesAmsdu h) (d s : Mac) :
    ∃ h', (h.setDestinationAddress d).bind (·.setSourceAddress s) = some h' ∧ Carrier h' ∧ ¬ CarriesAmsdu h' ∧
      (rolesOf h').1.bind (field h') = some d ∧ (rolesOf h').2.1.bind (field h') = some s := by
  have keep : ∀ (h h' : DataFrameHeader) (a : Mac) (f : AddressField), put h a f = some h' → Carrier h → ¬ CarriesAmsdu h →
      Carrier h' ∧ ¬ CarriesAmsdu h' := by
    intro h h' a f hp hc ha
    cases f with
    | one => cases hp; exact ⟨⟨hc.valid, ⟨hc.consistent.1, hc.consistent.2, hc.consistent.3⟩, hc.data, hc.plain⟩, ha⟩
    | two => cases hp; exact ⟨⟨hc.valid, ⟨hc.consistent.1, hc.consistent.2, hc.consistent.3⟩, hc.data, hc.plain⟩, ha⟩
    | three => cases hp; exact ⟨⟨hc.valid, ⟨hc.consistent.1, hc.consistent.2, hc.consistent.3⟩, hc.data, hc.plain⟩, ha⟩
    | four =>
      simp only [put] at hp
      split at hp
      · next h4 =>
        cases hp
        exact ⟨⟨hc.valid, ⟨by simpa [h4] using hc.consistent.1, hc.consistent.2, hc.consistent.3⟩, hc.data, hc.plain⟩, ha⟩
      · cases hp
  have hA : h.isAmsdu = false := by
    cases hh : h.isAmsdu with
    | false => rfl
    | true => exact absurd ((c28_amsdu h).1 hh) ha
  have h4 := hc.consistent.address_4
  have hroles : ∃ fd fs, (rolesOf h).1 = some fd ∧ (rolesOf h).2.1 = some fs ∧ fd ≠ fs ∧ fd ≠ .four ∧
      (fs = .four → h.address_4.isSome) := by
    unfold rolesOf
    rw [hA]
    cases ht : h.fcf_flags.to_ds <;> cases hf : h.fcf_flags.from_ds <;> rw [ht, hf] at h4
    · exact ⟨_, _, rfl, rfl, by decide, by decide, (fun e => by cases e)⟩
    · exact ⟨_, _, rfl, rfl, by decide, by decide, (fun e => by cases e)⟩
    · exact ⟨_, _, rfl, rfl, by decide, by decide, (fun e => by cases e)⟩
    · exact ⟨_, _, rfl, rfl, by decide, by decide, fun _ => h4.2 ⟨rfl, rfl⟩⟩
  obtain ⟨fd, fs, r1, r2, r3, r4, r5⟩ := hroles
  obtain ⟨h1, p1⟩ : ∃ h1, put h d fd = some h1 := by
    cases fd with
    | four => exact absurd rfl r4
    | _ => exact ⟨_, rfl⟩
  obtain ⟨q1, q2, q3⟩ := c28_put_roles h h1 d fd p1
  have q4 : fs = .four → h1.address_4.isSome := by
    intro e
    have := q3 .four (Ne.symm r4)
    have e4 : h1.address_4 = h.address_4 := this
    rw [e4]
    exact r5 e
  obtain ⟨h2, p2⟩ : ∃ h2, put h1 s fs = some h2 := by
    cases fs with
    | four => exact ⟨_, by simp only [put, if_pos (q4 rfl)]; rfl⟩
    | _ => exact ⟨_, rfl⟩
  obtain ⟨u1, u2, u3⟩ := c28_put_roles h1 h2 s fs p2
  obtain ⟨k1, k2⟩ := keep h h1 d fd p1 hc ha
  obtain ⟨k3, k4⟩ := keep h1 h2 s fs p2 k1 k2
  refine ⟨h2, ?_, k3, k4, ?_, ?_⟩
  · rw [(c28_set_destination h d).1, r1]
    show (put h d fd).bind _ = _
    rw [p1]
    show h1.setSourceAddress s = _
    rw [(c28_set_source h1 s).1, q1, r2]
    exact p2
  · rw [u1, q1, r1]
    show field h2 fd = _
    rw [u3 fd r3, q2]
  · rw [u1, q1, r2]
    exact u2

/-- A header in which the two addresses are replaced. -/
theorem c94_patched (h : DataFrameHeader) (hc : Carrier h) (ha : ¬ CarriesAmsdu h) (p : Packet)
    (hne : slack ≤ p.content.length) (fcs : Bool) (buf : Bytes) (hb : 41 + p.content.length ≤ buf.length) :
    ∃ h' b, (h.setDestinationAddress p.destination).bind (·.setSourceAddress p.source) = some h' ∧
      emit fcs buf ⟨h', some (bytesObj p.content)⟩ = .ok b ∧ packetsIn fcs b = .ok [p] := by
  obtain ⟨h', h1, h2, h3, h4, h5⟩ := patched_frame h hc ha p.destination p.source
  obtain ⟨b, g1, d, s, g2, g3, g4⟩ := c94_single h' h2 h3 p.content hne fcs buf hb
  rw [h4] at g2; cases g2
  rw [h5] at g3; cases g3
  exact ⟨h', b, h1, g1, g4⟩

/-- Messages that are sent one by one. -/
private theorem pass_each (send : Packet → Res Bytes) (fcs : Bool) (ps : List Packet)
    (h : ∀ p ∈ ps, ∃ b, send p = .ok b ∧ packetsIn fcs b = .ok [p]) :
    ∃ bs qs, ps.mapM send = .ok bs ∧ bs.mapM (packetsIn fcs) = .ok qs ∧ qs.flatten = ps := by
  induction ps with
  | nil => exact ⟨[], [], rfl, rfl, rfl⟩
  | cons p ps ih =>
    obtain ⟨b, h1, h2⟩ := h p (by simp)
    obtain ⟨bs, qs, h3, h4, h5⟩ := ih fun p hp => h p (by simp [hp])
    refine ⟨b :: bs, [p] :: qs, ?_, ?_, by simp [h5]⟩
    · simp only [List.mapM_cons, h1, h3, Res.ok_bind, Res.pure_eq]
    · simp only [List.mapM_cons, h2, h4, Res.ok_bind, Res.pure_eq]

/-- One step loses, changes and exchanges nothing. -/
theorem c94_pass (hop : Hop) (hh : hop.Proper) (ps : List Packet) (hps : ps ≠ [])
    (hl : ∀ p ∈ ps, slack ≤ p.content.length ∧ p.content.length < 65536) (fcs : Bool) (buf : Bytes)
    (hb : roomFor ps ≤ buf.length) : hop.pass fcs buf ps = .ok ps := by
  have hroom : ∀ p ∈ ps, 41 + p.content.length ≤ buf.length := by
    intro p hp
    have : ∀ ps : List Packet, p ∈ ps → 41 + p.content.length ≤ roomFor ps := by
      intro ps hp
      induction ps with
      | nil => cases hp
      | cons q ps ih =>
        unfold roomFor at ih ⊢
        rw [List.map_cons, paddedSize_cons]
        rcases List.mem_cons.1 hp with rfl | hp
        · simp only; omega
        · have := ih hp
          omega
    exact Nat.le_trans (this ps hp) hb
  cases hop with
  | built l =>
    obtain ⟨bs, qs, h1, h2, h3⟩ := pass_each (fun p => match buildDataFrame (l.program p) with
      | some f => emit fcs buf f
      | none => .panic) fcs ps (fun p hp => by
        obtain ⟨f, b, g1, -, g2, g3⟩ := c94_built l p (hl p hp).1 fcs buf (hroom p hp)
        exact ⟨b, by simp only [g1, g2], g3⟩)
    simp only [Hop.pass, Hop.send, h1, h2, Res.ok_bind, Res.pure_eq, h3]
  | patched h =>
    obtain ⟨bs, qs, h1, h2, h3⟩ := pass_each (fun p =>
      match (h.setDestinationAddress p.destination).bind (·.setSourceAddress p.source) with
      | some h' => emit fcs buf ⟨h', some (bytesObj p.content)⟩
      | none => .panic) fcs ps (fun p hp => by
        obtain ⟨h', b, g1, g2, g3⟩ := c94_patched h hh.1 hh.2 p (hl p hp).1 fcs buf (hroom p hp)
        exact ⟨b, by simp only [g1, g2], g3⟩)
    simp only [Hop.pass, Hop.send, h1, h2, Res.ok_bind, Res.pure_eq, h3]
  | aggregate h => exact c94_aggregate h hh.1 hh.2 ps hps (fun p hp => (hl p hp).2) fcs buf hb

/-- Nor does any way, however many steps it has and of whatever kinds they are. -/
theorem c94_route_partial (hops : List Hop) (hh : ∀ h ∈ hops, h.Proper) (ps : List Packet) (hps : ps ≠ [])
    (hl : ∀ p ∈ ps, slack ≤ p.content.length ∧ p.content.length < 65536) (fcs : Bool) (buf : Bytes)
    (hb : roomFor ps ≤ buf.length) : route fcs buf hops ps = .ok ps := by
  induction hops with
  | nil => rfl
  | cons h hs ih =>
    simp only [route, c94_pass h (hh h (by simp)) ps hps hl fcs buf hb, Res.ok_bind]
    exact ih fun h hp => hh h (by simp [hp])

/-! ## Arbitrary bytes -/

omit [Crc32] in
private theorem collect_parses (fuel : Nat) : ∀ (c : Bytes) (ss : List (AMSDUSubframe Bytes)),
    (SubframeIter.fromBytes c).collect fuel = .ok ss → ∃ bs rest, c = bs ++ rest ∧ SubframesOf ss bs := by
  induction fuel with
  | zero => intro c ss h; cases h; exact ⟨[], c, rfl, .nil⟩
  | succ k ih =>
    intro c ss h
    simp only [SubframeIter.collect] at h
    rcases c30_next c with hn | ⟨s, rest, h1, -, h3⟩
    · rw [hn] at h
      cases h
      exact ⟨[], c, rfl, .nil⟩
    · rw [h3] at h
      split at h
      · next hp =>
        have h : ((SubframeIter.fromBytes (rest.drop (padding (14 + s.payload.length)))).collect k >>= fun r =>
          Res.ok (s :: r)) = .ok ss := h
        obtain ⟨r, g1, g2⟩ := Res.bind_eq_ok h
        cases g2
        obtain ⟨bs, rest', g3, g4⟩ := ih _ _ g1
        refine ⟨subframeBody s ++ (rest.take (padding (14 + s.payload.length)) ++ bs), rest', ?_,
          .cons _ (by simp; omega) g4⟩
        rw [h1]
        simp only [List.append_assoc, ← g3, List.take_append_drop]
      · cases h

/-- Whatever bytes are received: the messages taken from them are those that the standard says are there.  A frame that
carries no A-MSDU has one message, with the two addresses of the table of roles; from an A-MSDU come its subframes. -/
theorem c94_taken (fcs : Bool) (bytes : Bytes) (ps : List Packet) (hp : packetsIn fcs bytes = .ok ps) (hne : ps ≠ []) :
    ∃ (b0 : Byte) (h : DataFrameHeader) (c : Bytes),
      bytes = withFcs fcs (b0 :: h.fcf_flags.bits :: (dataHeaderWire h ++ c)) ∧ b0.toNat / 4 % 4 = 2 ∧
      b0.toNat / 16 = h.subtype.intoBits.toNat ∧ Carrier h ∧
      (¬ CarriesAmsdu h → ∃ d s, (rolesOf h).1.bind (field h) = some d ∧ (rolesOf h).2.1.bind (field h) = some s ∧
        ps = [⟨d, s, c⟩]) ∧
      (CarriesAmsdu h → ∃ bs rest, c = bs ++ rest ∧
        SubframesOf (ps.map fun p => ⟨p.destination, p.source, p.content⟩) bs) := by
  unfold packetsIn at hp
  split at hp
  · cases hp
  · cases hp; exact absurd rfl hne
  · rename_i i f hm
    obtain ⟨frame, n, rfl, hr⟩ := (match_data fcs bytes).2 i f hm
    obtain ⟨b0, rest, hb, hb0, hb4, hpay, hcons, hval, -⟩ := c49_parse false frame f n hr
    have hb : frame = b0 :: f.header.fcf_flags.bits :: (dataHeaderWire f.header ++ rest) := hb
    by_cases hprot : f.header.fcf_flags.protected_ = true
    · rw [c32_none f none (.inr ⟨hprot, rfl⟩)] at hp
      cases hp; exact absurd rfl hne
    · have hprot : f.header.fcf_flags.protected_ = false := by simpa using hprot
      by_cases hps : payloadSubtype f.header.subtype
      · rw [if_pos hps] at hpay
        rw [c32_unprotected f none rest hpay hprot] at hp
        refine ⟨b0, f.header, rest, by rw [hb], hb0, hb4, ⟨hval, hcons, hps, hprot⟩, ?_, ?_⟩
        · intro ha
          have hA : f.header.isAmsdu = false := by
            cases hh : f.header.isAmsdu with
            | false => rfl
            | true => exact absurd ((c28_amsdu _).1 hh) ha
          rw [hA] at hp
          by_cases hs : slack ≤ rest.length
          · rw [if_pos hs] at hp
            simp only [Bool.false_eq_true, if_false] at hp
            rw [← c28_destination, ← c28_source]
            split at hp
            · next d s hd hs => cases hp; exact ⟨d, s, hd, hs, rfl⟩
            · cases hp; exact absurd rfl hne
          · rw [if_neg hs] at hp
            cases hp; exact absurd rfl hne
        · intro ha
          rw [(c28_amsdu _).2 ha] at hp
          by_cases hs : slack ≤ rest.length
          · rw [if_pos hs] at hp
            simp only [if_true] at hp
            cases hc : (SubframeIter.fromBytes rest).collect ((withFcs fcs frame).length + 1) with
            | panic => rw [hc] at hp; cases hp
            | err e => rw [hc] at hp; cases hp
            | ok ss =>
              rw [hc] at hp
              cases hp
              obtain ⟨bs, r, h1, h2⟩ := collect_parses _ _ _ hc
              refine ⟨bs, r, h1, ?_⟩
              rw [List.map_map]
              have : ss.map ((fun p : Packet => (⟨p.destination, p.source, p.content⟩ : AMSDUSubframe Bytes)) ∘
                fun s => ⟨s.destination_address, s.source_address, s.payload⟩) = ss := List.map_id ss
              rw [this]
              exact h2
          · rw [if_neg hs] at hp
            cases hp; exact absurd rfl hne
      · rw [if_neg hps] at hpay
        rw [c32_none f none (.inl hpay)] at hp
        cases hp; exact absurd rfl hne

/-! ## Where it fails -/

omit [Crc32] in
private theorem collect_last (ss : List (AMSDUSubframe Bytes)) (bs : Bytes) (h : SubframesOf ss bs)
    (hf : ∀ s ∈ ss, PayloadFits s) (c : Bytes) (k : Nat) (hc : (SubframeIter.fromBytes c).collect k = .panic) :
    (SubframeIter.fromBytes (bs ++ c)).collect (ss.length + k) = .panic := by
  induction h with
  | nil => simpa using hc
  | cons pad hp h ih =>
    rename_i s ss bs
    have ih := ih fun s hs => hf s (by simp [hs])
    have e : (s :: ss).length + k = (ss.length + k) + 1 := by simp; omega
    have e2 : subframeBody s ++ (pad ++ bs) ++ c = subframeBody s ++ (pad ++ (bs ++ c)) := by simp
    rw [e, e2]
    simp only [SubframeIter.collect, next_cons s (hf s (by simp)) pad (bs ++ c) hp]
    show (do let r ← SubframeIter.collect (ss.length + k) (.fromBytes (bs ++ c)); pure (s :: r)) = _
    rw [ih]
    rfl

/-- Violation: an access point that takes messages from an A-MSDU made by the standard, where the last subframe is not padded,
panics, unless the length of that one happens to be a multiple of four. -/
theorem c94_standard_panics (h : DataFrameHeader) (hc : Carrier h) (ha : CarriesAmsdu h) (ss : List (AMSDUSubframe Bytes))
    (hf : ∀ s ∈ ss, PayloadFits s) (bs : Bytes) (hs : SubframesOf ss bs) (s : AMSDUSubframe Bytes) (hfs : PayloadFits s)
    (hne : s.payload ≠ []) (hl : (14 + s.payload.length) % 4 ≠ 0) (fcs : Bool) :
    packetsIn fcs (withFcs fcs (dataFrameWire h (bs ++ subframeBody s))) = .panic := by
  obtain ⟨h1, h2⟩ := c65_data ⟨h, some (bs ++ subframeBody s)⟩ hc.valid hc.consistent ⟨fun _ => hc.data, fun _ => rfl⟩ id [] []
    (fun _ ha => by cases ha)
  have hm : matchFrames (withFcs fcs (dataFrameWire h (bs ++ subframeBody s))) (if fcs then some true else none)
      [armOf dataFrameKind readDataFrame id] = .ok (0, ⟨h, some (bs ++ subframeBody s)⟩) := by
    cases fcs
    · exact h1
    · exact h2 true
  have hlen : ss.length ≤ (withFcs fcs (dataFrameWire h (bs ++ subframeBody s))).length := by
    have h3 : (dataFrameWire h (bs ++ subframeBody s)).length ≤
        (withFcs fcs (dataFrameWire h (bs ++ subframeBody s))).length := by
      cases fcs
      · exact Nat.le_refl _
      · simp [withFcs]
    have h4 := subframes_count _ _ hs
    refine Nat.le_trans ?_ h3
    simp only [dataFrameWire, List.length_append]
    omega
  have hslack : slack ≤ (bs ++ subframeBody s).length := by
    have := slack_le
    simp only [List.length_append, subframeBody_length]
    omega
  obtain ⟨k, hk⟩ := Nat.le.dest hlen
  have hcol := collect_last ss bs hs hf (subframeBody s) (k + 1) (c30_unpadded_panics s hfs hne hl k)
  rw [← Nat.add_assoc, hk] at hcol
  unfold packetsIn
  rw [hm]
  simp only [c32_unprotected ⟨h, some (bs ++ subframeBody s)⟩ none _ rfl hc.plain, if_pos hslack, if_pos ((c28_amsdu h).2 ha),
    hcol]
  rfl

/-- Violation: with the order of calls that the documentation of the builder has for a frame from the distribution system, the
station is told that the message comes from the access point. -/
theorem c94_documented_wrong (p : Packet) (b : Mac) (hne : slack ≤ p.content.length) (fcs : Bool) (buf : Bytes)
    (hb : 41 + p.content.length ≤ buf.length) :
    ∃ f bytes, buildDataFrame [.from_ds, .category .Data, .payload .Bytes (bytesObj p.content),
        .destination_address p.destination, .source_address p.source, .bssid b] = some f ∧ emit fcs buf f = .ok bytes ∧
      packetsIn fcs bytes = .ok [⟨p.destination, b, p.content⟩] := by
  obtain ⟨f, b', h1, -, h2, h3⟩ := c94_built (.down p.source) ⟨p.destination, b, p.content⟩ hne fcs buf hb
  refine ⟨f, b', ?_, h2, h3⟩
  rw [← h1]
  rfl

/-- Violation: under the strict offset rule of scroll a message without content gets lost. -/
theorem c94_empty_lost (hstrict : slack = 1) (h : DataFrameHeader) (hc : Carrier h) (fcs : Bool) :
    packetsIn fcs (withFcs fcs (dataFrameWire h [])) = .ok [] := by
  obtain ⟨h1, h2⟩ := c65_data ⟨h, some []⟩ hc.valid hc.consistent ⟨fun _ => hc.data, fun _ => rfl⟩ id [] []
    (fun _ ha => by cases ha)
  have hm : matchFrames (withFcs fcs (dataFrameWire h [])) (if fcs then some true else none)
      [armOf dataFrameKind readDataFrame id] = .ok (0, ⟨h, some []⟩) := by
    cases fcs
    · exact h1
    · exact h2 true
  unfold packetsIn
  rw [hm]
  simp only [c32_unprotected ⟨h, some []⟩ none [] rfl hc.plain]
  rw [if_neg (by rw [hstrict]; simp)]

/-! ## Concrete cases -/

namespace Spec

/-- Two messages from different stations. -/
def onTheWay : List Packet := [⟨pieceMac 1, pieceMac 2, [10, 11, 12]⟩, ⟨pieceMac 3, pieceMac 4, [20]⟩]

/-- A header for a frame with an A-MSDU to the access point 9, and one for a QoS frame across. -/
def wholesale : DataFrameHeader :=
  ⟨.QoSData, ⟨1⟩, 0, pieceMac 9, pieceMac 2, pieceMac 9, ⟨0⟩, none, some ⟨[0x80, 0], rfl⟩, none⟩
def crossing : DataFrameHeader :=
  ⟨.QoSData, ⟨3⟩, 0, pieceMac 8, pieceMac 9, pieceMac 0, ⟨0⟩, some (pieceMac 0), some ⟨[5, 0], rfl⟩, none⟩

/-- Up, across twice, down. -/
def journey : List Hop :=
  [.aggregate wholesale, .patched crossing, .built (.across (pieceMac 7) (pieceMac 8)), .built (.down (pieceMac 7))]

end Spec

omit [ScrollRule] [Crc32] in
private theorem journey_proper : ∀ h ∈ journey, h.Proper := by
  intro h hh
  simp only [journey, List.mem_cons, List.not_mem_nil, or_false] at hh
  rcases hh with rfl | rfl | rfl | rfl
  · exact ⟨⟨⟨by decide, DataFrameSubtype.canonical_fromBits 8⟩, ⟨by decide, by decide, by decide⟩, by decide, by decide⟩,
      (c28_amsdu _).1 (by decide)⟩
  · exact ⟨⟨⟨by decide, DataFrameSubtype.canonical_fromBits 8⟩, ⟨by decide, by decide, by decide⟩, by decide, by decide⟩,
      fun h => absurd ((c28_amsdu _).2 h) (by decide)⟩
  · trivial
  · trivial

/-- By the theorem … -/
example : route true (List.replicate 90 0xee) journey onTheWay = .ok onTheWay := by
  have hs := slack_le
  refine c94_route_partial journey journey_proper onTheWay (by decide) ?_ true _ (by decide)
  intro p hp
  simp only [onTheWay, List.mem_cons, List.not_mem_nil, or_false] at hp
  rcases hp with rfl | rfl <;> simp <;> omega

omit [ScrollRule] [Crc32] in
/-- … and by running it, with the frames of the first and the last step. -/
example (s : Bool) :
    letI : ScrollRule := ⟨s⟩
    letI : Crc32 := ⟨fun _ => 0⟩
    (do
      let a ← (journey.getD 0 (.built (.up (pieceMac 0)))).send false (List.replicate 90 0xee) onTheWay
      let b ← (journey.getD 3 (.built (.up (pieceMac 0)))).send false (List.replicate 90 0xee) onTheWay
      let c ← route false (List.replicate 90 0xee) journey onTheWay
      pure (a.map List.length, b, decide (c = onTheWay))) =
    .ok ([26 + 20 + 16],
      [[8, 2, 0, 0, 1, 0, 0, 0, 0, 0, 7, 0, 0, 0, 0, 0, 2, 0, 0, 0, 0, 0, 0, 0, 10, 11, 12],
       [8, 2, 0, 0, 3, 0, 0, 0, 0, 0, 7, 0, 0, 0, 0, 0, 4, 0, 0, 0, 0, 0, 0, 0, 20]], true) := by
  cases s <;> decide +kernel

omit [ScrollRule] [Crc32] in
/-- An aggregate of the standard, with one padded subframe and one without padding at the end. -/
example (s : Bool) :
    letI : ScrollRule := ⟨s⟩
    letI : Crc32 := ⟨fun _ => 0⟩
    packetsIn false (dataFrameWire wholesale (subframeBody ⟨pieceMac 1, pieceMac 2, [1, 2, 3]⟩ ++ ([0, 0, 0] ++
      subframeBody ⟨pieceMac 1, pieceMac 2, [4]⟩))) = .panic ∧
    packetsIn false (dataFrameWire wholesale (subframeBody ⟨pieceMac 1, pieceMac 2, [1, 2, 3]⟩ ++ ([0, 0, 0] ++
      subframeBody ⟨pieceMac 1, pieceMac 2, [4, 5]⟩))) =
        .ok [⟨pieceMac 1, pieceMac 2, [1, 2, 3]⟩, ⟨pieceMac 1, pieceMac 2, [4, 5]⟩] := by
  cases s <;> exact ⟨by decide +kernel, by decide +kernel⟩

end Verif
