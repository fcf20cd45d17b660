import Verif.Lemmas.EapolSerde
import Verif.Props.C54
import Verif.Props.C65
import Verif.Props.C77
/-!
# C91: mesh stations agree on their peering

Two mesh stations open a peering (14.3 and 14.4 of the standard): each sends an open frame with a link ID of its own, answers
the open frame of the other with a confirm frame that has both link IDs, and takes the peering to be established when it has
got both.  The stations are not in the crate; they are written here with the functions of the crate.  Timers and the
holding state after a close are left out: frames may be repeated at any time, and a closed end ignores what it gets.
-/
namespace Verif

namespace Spec

/-! ## The protocol -/

/-- The messages: the sender's link ID, then that of the station it is sent to. -/
inductive PeerMsg where
  | opens (me : BitVec 16)
  | confirms (me you : BitVec 16)
  | closes (me : BitVec 16) (you : Option (BitVec 16)) (reason : IEEE80211Reason)
  deriving DecidableEq, Repr

/-- One end of a peering: its link ID, that of the other end once it is known, and whether the other's open and confirm
have come, or the peering is closed. -/
structure Peering where
  me : BitVec 16
  you : Option (BitVec 16)
  opened : Bool
  confirmed : Bool
  closed : Bool
  deriving DecidableEq, Repr

namespace Peering

/-- Before anything is sent. -/
def fresh (me : BitVec 16) : Peering := ⟨me, none, false, false, false⟩

/-- Both frames have come, and the peering is not closed. -/
def established (p : Peering) : Bool := p.opened && p.confirmed && !p.closed

/-- The link ID is that of the other end, as far as it is known. -/
def knows (p : Peering) (x : BitVec 16) : Bool := p.you.all (· == x)

/-- A message that has come, and the answer to it.  Messages of other peerings are ignored. -/
def take (p : Peering) : PeerMsg → Peering × Option PeerMsg
  | .opens x =>
    if !p.closed && p.knows x then ({ p with you := some x, opened := true }, some (.confirms p.me x)) else (p, none)
  | .confirms x y =>
    if !p.closed && p.knows x && y == p.me then ({ p with you := some x, confirmed := true }, none) else (p, none)
  | .closes x y _ =>
    if !p.closed && p.knows x && y.all (· == p.me) then
      ({ p with you := some x, closed := true }, some (.closes p.me (some x) .MeshCloseRcvd))
    else (p, none)

end Peering

/-- Two ends, and what each of them has sent so far, oldest first; `μ` is what a message is sent as. -/
structure PeerWorld (μ : Type) where
  a : Peering
  b : Peering
  fromA : List μ
  fromB : List μ

/-- What can happen: an end sends an open frame; something that was sent is delivered, at any time, once more or never; an
end closes the peering.  (`true` is the end `a`.) -/
inductive PeerMove where
  | opens (who : Bool)
  | deliver (to : Bool) (i : Nat)
  | closes (who : Bool) (reason : IEEE80211Reason)

namespace PeerWorld

variable {μ : Type}

/-- Before anything is sent. -/
def start (x y : BitVec 16) : PeerWorld μ := ⟨.fresh x, .fresh y, [], []⟩

def this (w : PeerWorld μ) (who : Bool) : Peering := if who then w.a else w.b

def sentBy (w : PeerWorld μ) (who : Bool) : List μ := if who then w.fromA else w.fromB

/-- An end changes and perhaps sends something. -/
def update (w : PeerWorld μ) (who : Bool) (p : Peering) (m : Option μ) : PeerWorld μ :=
  if who then { w with a := p, fromA := w.fromA ++ m.toList } else { w with b := p, fromB := w.fromB ++ m.toList }

/-- One move, with a way to send a message and to understand what was sent. -/
def move (send : Bool → PeerMsg → Res μ) (got : Bool → μ → Res (Option PeerMsg)) (w : PeerWorld μ) :
    PeerMove → Res (PeerWorld μ)
  | .opens who => do
    if (w.this who).closed then pure w
    else
      let m ← send who (.opens (w.this who).me)
      pure (w.update who (w.this who) (some m))
  | .deliver to i =>
    match (w.sentBy !to)[i]? with
    | none => pure w
    | some m => do
      match ← got to m with
      | none => pure w
      | some msg =>
        match (w.this to).take msg with
        | (p, none) => pure (w.update to p none)
        | (p, some answer) => do
          let m ← send to answer
          pure (w.update to p (some m))
  | .closes who reason => do
    if (w.this who).closed then pure w
    else
      let m ← send who (.closes (w.this who).me (w.this who).you reason)
      pure (w.update who { w.this who with closed := true } (some m))

/-- Several moves. -/
def run (send : Bool → PeerMsg → Res μ) (got : Bool → μ → Res (Option PeerMsg)) :
    PeerWorld μ → List PeerMove → Res (PeerWorld μ)
  | w, [] => .ok w
  | w, m :: l => do
    let w' ← w.move send got m
    run send got w' l

/-- The protocol itself, where what is sent is the message. -/
def ideal : PeerWorld PeerMsg → List PeerMove → Res (PeerWorld PeerMsg) := run (fun _ m => .ok m) fun _ m => .ok (some m)

end PeerWorld

/-! ## Sending and receiving with the crate -/

/-- What a station puts around the messages. -/
structure PeerStation where
  header : ManagementFrameHeader
  capabilities : CapabilitiesInformation
  aid : AssociationID
  protocol : MeshPeeringProtocolIdentifier
  pmk : Option (Arr 16)
  before : List (ChainItem × RawElement)
  after : List (ChainItem × RawElement)
  fcs : Bool

namespace PeerStation

variable [ScrollRule] [Crc32]

/-- The elements, with the mesh peering management element among others. -/
def elements (s : PeerStation) (e : MeshPeeringManagement) : Obj :=
  (chainAround (s.before.map Prod.fst) (s.after.map Prod.fst) (.typed (meshPeeringElem e))).obj

/-- A message as it is sent, by the functions of the crate. -/
def send (s : PeerStation) (buf : Bytes) : PeerMsg → Res Bytes
  | .opens me => do
    let e ← MeshPeeringManagement.newOpen s.protocol me s.pmk
    let (out, n) ← writeMgmtFrame MgmtKind.MeshPeeringOpen.SUBTYPE s.header
      (writeMeshPeeringOpen ⟨s.capabilities, s.elements e⟩) s.fcs buf
    pure (out.take n)
  | .confirms me you => do
    let e ← MeshPeeringManagement.newConfirm s.protocol me you s.pmk
    let (out, n) ← writeMgmtFrame MgmtKind.MeshPeeringConfirm.SUBTYPE s.header
      (writeMeshPeeringConfirm ⟨s.capabilities, s.aid, s.elements e⟩) s.fcs buf
    pure (out.take n)
  | .closes me you reason => do
    let e ← MeshPeeringManagement.newClose s.protocol me you reason s.pmk
    let (out, n) ← writeMgmtFrame MgmtKind.MeshPeeringClose.SUBTYPE s.header
      (writeMeshPeeringClose ⟨s.elements e⟩) s.fcs buf
    pure (out.take n)

/-- The element of a frame as its kind (first, second, third arm) says. -/
def understand (arm : Nat) (e : MeshPeeringManagement) : Res (Option ParsedMeshPeeringManagement) :=
  match arm with
  | 0 => e.parseAsOpen
  | 1 => e.parseAsConfirm
  | _ => e.parseAsClose

/-- The message that an element stands for. -/
def messageOf (arm : Nat) (q : ParsedMeshPeeringManagement) : Option PeerMsg :=
  match arm, q.peer_link_id, q.reason_code with
  | 0, _, _ => some (.opens q.local_link_id)
  | 1, some you, _ => some (.confirms q.local_link_id you)
  | 2, you, some r => some (.closes q.local_link_id you r)
  | _, _, _ => none

/-- The arms of `match_frames!` in a station: the header and the elements. -/
def arms : List (FrameKind × (Bool → Reader (ManagementFrameHeader × Bytes))) :=
  [armOf MgmtKind.MeshPeeringOpen.frame (readMgmtFrame readMeshPeeringOpen) fun r => (r.1, r.2.elements),
   armOf MgmtKind.MeshPeeringConfirm.frame (readMgmtFrame readMeshPeeringConfirm) fun r => (r.1, r.2.elements),
   armOf MgmtKind.MeshPeeringClose.frame (readMgmtFrame readMeshPeeringClose) fun r => (r.1, r.2.elements)]

/-- What a station makes of received bytes, by the functions of the crate: a message, if it is a frame from the other station
to this one with an element of the right protocol and PMK; whatever else is ignored. -/
def got (s : PeerStation) (bytes : Bytes) : Res (Option PeerMsg) :=
  match matchFrames bytes (if s.fcs then some true else none) arms with
  | .panic => .panic
  | .err _ => .ok none
  | .ok (arm, h, els) =>
    if h.transmitter_address = s.header.receiver_address ∧ h.receiver_address = s.header.transmitter_address then do
      match ← getFirstElement els meshPeeringKind with
      | none => pure none
      | some e =>
        match ← understand arm e with
        | none => pure none
        | some q =>
          pure (if q.mesh_peering_protocol_identifier = s.protocol ∧ q.pmk = s.pmk then messageOf arm q else none)
    else .ok none

/-- A station with a header as C21 wants it, an association ID, a protocol that has a name or a number without, and other
elements that can be written, none of them a mesh peering management element before the station's own. -/
structure Ready (s : PeerStation) : Prop where
  header : HtConsistent s.header
  aid : IsAid s.aid
  protocol : s.protocol.Canonical
  items : ∀ p ∈ s.before ++ s.after, ∃ x, ItemOf p.1 p.2 x
  before : ∀ p ∈ s.before, p.2.tlv_type ≠ 117
  last : ∀ p, s.after.getLast? = some p → slack ≤ p.2.slice.length

/-- A buffer of this size is enough for every message. -/
def room (s : PeerStation) : Nat :=
  67 + ((s.before.map Prod.snd).flatMap tlv).length + ((s.after.map Prod.snd).flatMap tlv).length

/-- Two stations that have each other's address, the same protocol and PMK, and the same idea of check sequences. -/
structure Faces (s t : PeerStation) : Prop where
  to : s.header.receiver_address = t.header.transmitter_address
  back : t.header.receiver_address = s.header.transmitter_address
  protocol : s.protocol = t.protocol
  pmk : s.pmk = t.pmk
  fcs : s.fcs = t.fcs

end PeerStation

/-- The reason is one that the crate can return. -/
def PeerMsg.Canonical : PeerMsg → Prop
  | .closes _ _ r => r.Canonical
  | _ => True

/-- The reasons for closing are such. -/
def PeerMove.Canonical : PeerMove → Prop
  | .closes _ r => r.Canonical
  | _ => True

/-- The two stations run the protocol with the crate. -/
def PeerWorld.real [ScrollRule] [Crc32] (s t : PeerStation) (buf : Bytes) :
    PeerWorld Bytes → List PeerMove → Res (PeerWorld Bytes) :=
  PeerWorld.run (fun who m => if who then s.send buf m else t.send buf m)
    fun who bytes => if who then s.got bytes else t.got bytes

end Spec

open Spec

variable [ScrollRule] [Crc32]

/-! ## One message -/

omit [Crc32] in
private theorem chain_extra {c : Chain} {l : List RawElement} {x : Nat} (h : ChainOf c l x) : x ≤ slack := by
  induction h with
  | last h => exact h.extra_le
  | link _ _ ih => exact ih

omit [Crc32] in
/-- Elements around another one, written one after the other. -/
theorem chainAround_of (before after : List (ChainItem × RawElement))
    (h : ∀ p ∈ before ++ after, ∃ x, ItemOf p.1 p.2 x) (i : ChainItem) (r : RawElement) (x : Nat) (hi : ItemOf i r x) :
    ∃ y, ChainOf (chainAround (before.map Prod.fst) (after.map Prod.fst) i)
      (before.map Prod.snd ++ r :: after.map Prod.snd) y := by
  cases before with
  | nil => exact c06_element_chain hi after fun p hp => h p (by simpa using hp)
  | cons p ps =>
    obtain ⟨z, hz⟩ := h p (by simp)
    have := c06_element_chain hz (ps ++ (i, r) :: after) (by
      intro q hq
      rcases List.mem_append.1 hq with hq | hq
      · exact h q (by simp [hq])
      · rcases List.mem_cons.1 hq with rfl | hq
        · exact ⟨x, hi⟩
        · exact h q (by simp [hq]))
    simpa [chainAround] using this

/-- Any of the three bodies. -/
private theorem body_arrives {k : MgmtKind} {β : Type → Type} {read : Reader (β Bytes)}
    {write : β Obj → Writer} {get : (ε : Type) → β ε → ε} {set : (ε δ : Type) → β ε → δ → β δ}
    {fixed : (ε : Type) → β ε → Bytes} {valid : β Bytes → Prop} {n : Nat}
    {same : Bytes → Bytes → Prop} (hn : n ≤ 6) (hB : BodyOf read write get set fixed valid n (fun m => n + max m slack) same)
    (hm : ∀ (b : β Obj) (e : Bytes), MarkedAs k (fixed _ b ++ e)) (s : PeerStation) (hs : s.Ready) (e : MeshPeeringManagement)
    (t : Bytes) (he : HoldsTail e t) (hp : e.mesh_peering_protocol_identifier = s.protocol) (b : β Obj)
    (hb : get _ b = s.elements e) (hv : ∀ els, valid (set _ _ b els))
    (block : ManagementFrameHeader × β Bytes → ManagementFrameHeader × Bytes) (hblock : ∀ r, block r = (r.1, get _ r.2))
    (pre post : List (FrameKind × (Bool → Reader (ManagementFrameHeader × Bytes)))) (hpre : ∀ a ∈ pre, OtherThan k a.1)
    (buf : Bytes) (hbuf : s.room ≤ buf.length) :
    ∃ out n els, writeMgmtFrame k.SUBTYPE s.header (write b) s.fcs buf = .ok (out, n) ∧
      matchFrames (out.take n) (if s.fcs then some true else none)
        (pre ++ armOf k.frame (readMgmtFrame read) block :: post) = .ok (pre.length, s.header, els) ∧
      getFirstElement els meshPeeringKind = .ok (some e) := by
  have hsl := slack_le
  have ht := c54_mesh_peering e t he (hp ▸ hs.protocol)
  obtain ⟨x, hx⟩ := ht.item
  obtain ⟨y, hch⟩ := chainAround_of s.before s.after hs.items _ _ x hx
  have hem := hch.emits
  have hy := chain_extra hch
  have hlast : ∀ r, (s.before.map Prod.snd ++ (⟨ElementName.meshPeering.number,
      toLE e.mesh_peering_protocol_identifier.intoBits ++ toLE e.local_link_id ++ t⟩ : RawElement) ::
        s.after.map Prod.snd).getLast? = some r → slack ≤ r.slice.length := by
    intro r hr
    rw [List.getLast?_append, List.getLast?_cons] at hr
    cases hg : (s.after.map Prod.snd).getLast? with
    | none =>
      rw [hg] at hr
      simp at hr
      subst hr
      simp; omega
    | some r' =>
      rw [hg] at hr
      simp at hr
      subst hr
      rw [List.getLast?_map] at hg
      obtain ⟨p, hp, rfl⟩ := Option.map_eq_some_iff.1 hg
      exact hs.last p hp
  have hels := elementsOf_flatMap _ hch.len_le hlast
  generalize hE : (s.before.map Prod.snd ++ (⟨ElementName.meshPeering.number,
      toLE e.mesh_peering_protocol_identifier.intoBits ++ toLE e.local_link_id ++ t⟩ : RawElement) ::
        s.after.map Prod.snd).flatMap tlv = els at hem hels
  have hlen : els.length + 41 ≤ s.room ∧ 2 ≤ els.length := by
    have := he.1
    rw [← hE]
    simp only [List.flatMap_append, List.flatMap_cons, List.length_append, PeerStation.room, tlv_length, toLE_length]
    omega
  have hw := hB.writes b els _ (by rw [hb]; exact hem)
  have hW := c23_write k.SUBTYPE (c23_subtypes.1 k) s.header (write b) _ _ hw s.fcs
  have hr := hB.reads (set _ _ b els) (hv els) (by rw [hB.get_set]; omega)
  rw [hB.get_set, hB.fixed_set] at hr
  have hf : (fixed _ b).length = n := by rw [← hB.fixed_set b els]; exact hB.size _
  obtain ⟨h1, h2⟩ := c65_mgmt k s.header hs.header _ (hm b _) (by simp only [List.length_append]; omega) read _ _ hr block
    pre post hpre
  rw [hblock, hB.get_set] at h1 h2
  have hh : (mgmtHeaderWire s.header).length ≤ 26 := by
    simp only [mgmtHeaderWire, List.length_append, toLE_length, Arr.length_val]
    cases s.header.ht_control <;> simp [optWire]
  refine ⟨_, _, els, hW.ok buf ?_, ?_, ?_⟩
  · simp only [mgmtFrameWire, List.length_append, hf, frameStart_length]
    split <;> omega
  · rw [List.take_left]
    cases h : s.fcs
    · rw [h] at *; exact h1
    · exact h2 true
  · exact ht.found els _ _ hels (by
      intro r hr
      obtain ⟨p, hp, rfl⟩ := List.mem_map.1 hr
      exact hs.before p hp)

/-- A message that one of two such stations sends is understood by the other as that message. -/
theorem c91_message_partial (s t : PeerStation) (hs : s.Ready) (hf : s.Faces t) (buf : Bytes) (hb : s.room ≤ buf.length)
    (m : PeerMsg) (hm : m.Canonical) : ∃ bytes, s.send buf m = .ok bytes ∧ t.got bytes = .ok (some m) := by
  have hfaces : s.header.transmitter_address = t.header.receiver_address ∧
      s.header.receiver_address = t.header.transmitter_address := ⟨hf.back.symm, hf.to⟩
  cases m with
  | opens me =>
    obtain ⟨e, he, hp, hl, ht⟩ := c19_new_open s.protocol me s.pmk
    obtain ⟨out, n, els, h1, h2, h3⟩ := body_arrives (k := .MeshPeeringOpen) (by decide) c22_mesh_peering_open
      (fun _ _ _ => ⟨_, _, rfl, rfl, rfl⟩) s hs e _ ht hp ⟨s.capabilities, s.elements e⟩ rfl (fun _ => trivial)
      (fun r => (r.1, r.2.elements)) (fun _ => rfl) [] _ (by simp) buf hb
    have h4 := (c19_as_open e _ ht ⟨s.protocol, me, none, none, s.pmk⟩).2 ⟨hp.symm, hl.symm, rfl, rfl, rfl⟩
    refine ⟨out.take n, by simp only [PeerStation.send, he, h1, Res.ok_bind]; rfl, ?_⟩
    rw [hf.fcs] at h2
    have h2 : matchFrames (out.take n) (if t.fcs then some true else none) PeerStation.arms = _ := h2
    simp only [PeerStation.got, h2, List.length_nil, if_pos hfaces, h3, Res.ok_bind, PeerStation.understand, h4,
      PeerStation.messageOf, hf.protocol, hf.pmk, and_self, if_true]
    rfl
  | confirms me you =>
    obtain ⟨e, he, hp, hl, ht⟩ := c19_new_confirm s.protocol me you s.pmk
    obtain ⟨out, n, els, h1, h2, h3⟩ := body_arrives (k := .MeshPeeringConfirm) (by decide) c22_mesh_peering_confirm
      (fun _ _ _ => ⟨_, _, rfl, rfl, rfl⟩) s hs e _ ht hp ⟨s.capabilities, s.aid, s.elements e⟩ rfl (fun _ => hs.aid)
      (fun r => (r.1, r.2.elements)) (fun _ => rfl)
      [armOf MgmtKind.MeshPeeringOpen.frame (readMgmtFrame readMeshPeeringOpen) fun r => (r.1, r.2.elements)] _
      (fun a ha => by
        obtain rfl := List.mem_singleton.1 ha
        exact .inr (.inr ⟨.MeshPeeringOpen, .inr (by decide), rfl⟩)) buf hb
    have h4 := (c19_as_confirm e _ ht ⟨s.protocol, me, some you, none, s.pmk⟩).2 ⟨hp.symm, hl.symm, rfl, rfl, rfl⟩
    refine ⟨out.take n, by simp only [PeerStation.send, he, h1, Res.ok_bind]; rfl, ?_⟩
    rw [hf.fcs] at h2
    have h2 : matchFrames (out.take n) (if t.fcs then some true else none) PeerStation.arms = _ := h2
    simp only [PeerStation.got, h2, List.length_singleton, if_pos hfaces, h3, Res.ok_bind, PeerStation.understand, h4,
      PeerStation.messageOf, hf.protocol, hf.pmk, and_self, if_true]
    rfl
  | closes me you r =>
    obtain ⟨e, he, hp, hl, ht⟩ := c19_new_close s.protocol me you r s.pmk
    obtain ⟨out, n, els, h1, h2, h3⟩ := body_arrives (k := .MeshPeeringClose) (by decide) c22_mesh_peering_close
      (fun _ _ _ => ⟨_, _, rfl, rfl, rfl⟩) s hs e _ ht hp ⟨s.elements e⟩ rfl (fun _ => trivial)
      (fun r => (r.1, r.2.elements)) (fun _ => rfl)
      [armOf MgmtKind.MeshPeeringOpen.frame (readMgmtFrame readMeshPeeringOpen) fun r => (r.1, r.2.elements),
        armOf MgmtKind.MeshPeeringConfirm.frame (readMgmtFrame readMeshPeeringConfirm) fun r => (r.1, r.2.elements)] _
      (fun a ha => by
        rcases List.mem_cons.1 ha with rfl | ha
        · exact .inr (.inr ⟨.MeshPeeringOpen, .inr (by decide), rfl⟩)
        · obtain rfl := List.mem_singleton.1 ha
          exact .inr (.inr ⟨.MeshPeeringConfirm, .inr (by decide), rfl⟩)) buf hb
    have h4 := (c19_as_close e _ ht ⟨s.protocol, me, you, some r, s.pmk⟩).2
      ⟨hp.symm, hl.symm, ⟨r, hm, rfl⟩, rfl⟩
    refine ⟨out.take n, by simp only [PeerStation.send, he, h1, Res.ok_bind]; rfl, ?_⟩
    rw [hf.fcs] at h2
    have h2 : matchFrames (out.take n) (if t.fcs then some true else none) PeerStation.arms = _ := h2
    simp only [PeerStation.got, h2, List.length_cons, List.length_nil, if_pos hfaces, h3, Res.ok_bind,
      PeerStation.understand, h4, PeerStation.messageOf, hf.protocol, hf.pmk, and_self, if_true]
    rfl

/-! ## The exchange -/

/-- The same ends, and everything that was sent is understood as what it should be. -/
private structure Rel (got : Bool → Bytes → Res (Option PeerMsg)) (w : PeerWorld Bytes) (v : PeerWorld PeerMsg) : Prop where
  a : w.a = v.a
  b : w.b = v.b
  fromA : w.fromA.map (got false) = v.fromA.map fun m => .ok (some m)
  fromB : w.fromB.map (got true) = v.fromB.map fun m => .ok (some m)

omit [ScrollRule] [Crc32] in
private theorem rel_update {got : Bool → Bytes → Res (Option PeerMsg)} {w : PeerWorld Bytes} {v : PeerWorld PeerMsg}
    (h : Rel got w v) (who : Bool) (p : Peering) (m : PeerMsg) (bytes : Bytes) (hg : got (!who) bytes = .ok (some m)) :
    Rel got (w.update who p (some bytes)) (v.update who p (some m)) := by
  obtain ⟨h1, h2, h3, h4⟩ := h
  cases who
  · exact ⟨h1, rfl, h3, by simp [PeerWorld.update, h4, show got true bytes = _ from hg]⟩
  · exact ⟨rfl, h2, by simp [PeerWorld.update, h3, show got false bytes = _ from hg], h4⟩

omit [ScrollRule] [Crc32] in
private theorem rel_update_none {got : Bool → Bytes → Res (Option PeerMsg)} {w : PeerWorld Bytes} {v : PeerWorld PeerMsg}
    (h : Rel got w v) (who : Bool) (p : Peering) :
    Rel got (w.update who p none) (v.update who p none) := by
  obtain ⟨h1, h2, h3, h4⟩ := h
  cases who
  · exact ⟨h1, rfl, h3, by simp [PeerWorld.update, h4]⟩
  · exact ⟨rfl, h2, by simp [PeerWorld.update, h3], h4⟩

omit [ScrollRule] [Crc32] in
private theorem take_canonical {p q : Peering} {m answer : PeerMsg} (h : p.take m = (q, some answer)) : answer.Canonical := by
  cases m <;> simp only [Peering.take] at h <;> split at h <;> simp at h <;> obtain ⟨-, rfl⟩ := h
  · trivial
  · exact IEEE80211Reason.canonical_fromBits 55

omit [ScrollRule] [Crc32] in
private theorem move_rel (send : Bool → PeerMsg → Res Bytes) (got : Bool → Bytes → Res (Option PeerMsg))
    (hok : ∀ who m, m.Canonical → ∃ bytes, send who m = .ok bytes ∧ got (!who) bytes = .ok (some m))
    (w : PeerWorld Bytes) (v : PeerWorld PeerMsg) (h : Rel got w v) (m : PeerMove) (hm : m.Canonical) :
    ∃ w' v', w.move send got m = .ok w' ∧ v.move (fun _ m => .ok m) (fun _ m => .ok (some m)) m = .ok v' ∧ Rel got w' v' := by
  have hthis : ∀ who, w.this who = v.this who := by
    intro who
    simp only [PeerWorld.this, h.a, h.b]
  cases m with
  | opens who =>
    simp only [PeerWorld.move, hthis]
    split
    · exact ⟨w, v, rfl, rfl, h⟩
    · obtain ⟨bytes, h1, h2⟩ := hok who (.opens (v.this who).me) trivial
      exact ⟨_, _, by rw [h1]; rfl, rfl, rel_update h who _ _ _ h2⟩
  | closes who r =>
    simp only [PeerWorld.move, hthis]
    split
    · exact ⟨w, v, rfl, rfl, h⟩
    · obtain ⟨bytes, h1, h2⟩ := hok who (.closes (v.this who).me (v.this who).you r) hm
      exact ⟨_, _, by rw [h1]; rfl, rfl, rel_update h who _ _ _ h2⟩
  | deliver to i =>
    have hsent : (w.sentBy !to).map (got to) = (v.sentBy !to).map fun m => .ok (some m) := by
      cases to
      · exact h.fromA
      · exact h.fromB
    have hi := congrArg (·[i]?) hsent
    simp only [List.getElem?_map] at hi
    simp only [PeerWorld.move, hthis]
    cases hv : (v.sentBy !to)[i]? with
    | none =>
      rw [hv] at hi
      cases hw : (w.sentBy !to)[i]? with
      | none => exact ⟨w, v, rfl, rfl, h⟩
      | some x => rw [hw] at hi; cases hi
    | some msg =>
      rw [hv] at hi
      cases hw : (w.sentBy !to)[i]? with
      | none => rw [hw] at hi; cases hi
      | some bytes =>
        rw [hw] at hi
        simp only [Option.map_some, Option.some.injEq] at hi
        simp only [hi, Res.ok_bind]
        rcases ht : (v.this to).take msg with ⟨p, answer⟩
        cases answer with
        | none => exact ⟨_, _, rfl, rfl, rel_update_none h to p⟩
        | some answer =>
          obtain ⟨out, h1, h2⟩ := hok to answer (take_canonical ht)
          exact ⟨w.update to p (some out), _, by simp only [h1, Res.ok_bind]; rfl, rfl, rel_update h to _ _ _ h2⟩

/-- Whatever happens, two stations that use the crate do exactly what the protocol says: frames are never refused or
misunderstood, and nothing panics. -/
theorem c91_exact_partial (s t : PeerStation) (hs : s.Ready) (ht : t.Ready) (hf : s.Faces t) (buf : Bytes)
    (hb : s.room ≤ buf.length ∧ t.room ≤ buf.length) (x y : BitVec 16) (l : List PeerMove) (hl : ∀ m ∈ l, m.Canonical) :
    ∃ w v, PeerWorld.real s t buf (.start x y) l = .ok w ∧ PeerWorld.ideal (.start x y) l = .ok v ∧ w.a = v.a ∧ w.b = v.b ∧
      w.fromA.map t.got = v.fromA.map (fun m => .ok (some m)) ∧ w.fromB.map s.got = v.fromB.map fun m => .ok (some m) := by
  have hf' : t.Faces s := ⟨hf.back, hf.to, hf.protocol.symm, hf.pmk.symm, hf.fcs.symm⟩
  have hok : ∀ who (m : PeerMsg), m.Canonical → ∃ bytes, (if who then s.send buf m else t.send buf m) = .ok bytes ∧
      (if !who then s.got bytes else t.got bytes) = .ok (some m) := by
    intro who m hm
    cases who
    · exact c91_message_partial t s ht hf' buf hb.2 m hm
    · exact c91_message_partial s t hs hf buf hb.1 m hm
  have key : ∀ (l : List PeerMove) (w : PeerWorld Bytes) (v : PeerWorld PeerMsg),
      Rel (fun who bytes => if who then s.got bytes else t.got bytes) w v → (∀ m ∈ l, m.Canonical) →
      ∃ w' v', PeerWorld.real s t buf w l = .ok w' ∧ PeerWorld.ideal v l = .ok v' ∧
        Rel (fun who bytes => if who then s.got bytes else t.got bytes) w' v' := by
    intro l
    induction l with
    | nil => exact fun w v h _ => ⟨w, v, rfl, rfl, h⟩
    | cons m l ih =>
      intro w v h hl
      obtain ⟨w', v', h1, h2, h3⟩ := move_rel _ _ hok w v h m (hl m (by simp))
      obtain ⟨w'', v'', h4, h5, h6⟩ := ih w' v' h3 fun m hm => hl m (by simp [hm])
      refine ⟨w'', v'', ?_, ?_, h6⟩
      · rw [PeerWorld.real, PeerWorld.run, h1]; exact h4
      · rw [PeerWorld.ideal, PeerWorld.run, h2]; exact h5
  obtain ⟨w, v, h1, h2, h3⟩ := key l (.start x y) (.start x y) ⟨rfl, rfl, rfl, rfl⟩ hl
  exact ⟨w, v, h1, h2, h3.a, h3.b, h3.fromA, h3.fromB⟩

/-! ## Agreement -/

/-- What an honest station with link ID `x` and state `p` has sent to one with link ID `y`. -/
private def Honest (x y : BitVec 16) (p : Peering) : PeerMsg → Prop
  | .opens z => z = x
  | .confirms z u => z = x ∧ u = y ∧ p.opened = true
  | .closes z u _ => z = x ∧ u.all (· == y) = true

/-- One end. -/
private structure Half (p q : Peering) (x y : BitVec 16) (sent : List PeerMsg) : Prop where
  me : p.me = x
  you : p.you = none ∨ p.you = some y
  opened : p.opened = true → p.you = some y
  confirmed : p.confirmed = true → p.you = some y ∧ q.opened = true
  sent : ∀ m ∈ sent, Honest x y p m

omit [ScrollRule] [Crc32] in
private theorem half_take {p q p' : Peering} {x y : BitVec 16} {sp sq : List PeerMsg} {m : PeerMsg} {answer : Option PeerMsg}
    (hp : Half p q x y sp) (hq : Half q p y x sq) (hm : m ∈ sq) (ht : p.take m = (p', answer)) :
    Half p' q x y (sp ++ answer.toList) ∧ Half q p' y x sq := by
  have hh := hq.sent m hm
  have hknows : p.knows y = true := by
    rcases hp.you with h | h <;> simp [Peering.knows, h]
  have hsame : Half p q x y (sp ++ (none : Option PeerMsg).toList) ∧ Half q p y x sq := by
    simpa using ⟨hp, hq⟩
  cases m with
  | opens z =>
    obtain rfl : z = y := hh
    simp only [Peering.take, hknows, Bool.and_true] at ht
    split at ht <;> simp only [Prod.mk.injEq] at ht <;> obtain ⟨rfl, rfl⟩ := ht
    · refine ⟨⟨hp.me, .inr rfl, fun _ => rfl, fun h => ⟨rfl, (hp.confirmed h).2⟩, ?_⟩,
        ⟨hq.me, hq.you, hq.opened, fun h => ⟨(hq.confirmed h).1, rfl⟩, hq.sent⟩⟩
      intro m hm
      simp only [Option.toList_some, List.mem_append, List.mem_singleton] at hm
      rcases hm with hm | rfl
      · have := hp.sent m hm
        cases m with
        | opens z => exact this
        | confirms z u => exact ⟨this.1, this.2.1, rfl⟩
        | closes z u r => exact this
      · exact ⟨hp.me, rfl, rfl⟩
    · exact hsame
  | confirms z u =>
    obtain ⟨rfl, rfl, ho⟩ := hh
    simp only [Peering.take, hknows, Bool.and_true] at ht
    split at ht <;> simp only [Prod.mk.injEq] at ht <;> obtain ⟨rfl, rfl⟩ := ht
    · refine ⟨⟨hp.me, .inr rfl, fun _ => rfl, fun _ => ⟨rfl, ho⟩, ?_⟩,
        ⟨hq.me, hq.you, hq.opened, hq.confirmed, hq.sent⟩⟩
      intro m hm
      simp only [Option.toList_none, List.append_nil] at hm
      have := hp.sent m hm
      cases m <;> exact this
    · exact hsame
  | closes z u r =>
    obtain ⟨rfl, hu⟩ := hh
    simp only [Peering.take, hknows, Bool.and_true] at ht
    split at ht <;> simp only [Prod.mk.injEq] at ht <;> obtain ⟨rfl, rfl⟩ := ht
    · refine ⟨⟨hp.me, .inr rfl, fun _ => rfl, fun h => ⟨rfl, (hp.confirmed h).2⟩, ?_⟩,
        ⟨hq.me, hq.you, hq.opened, hq.confirmed, hq.sent⟩⟩
      intro m hm
      simp only [Option.toList_some, List.mem_append, List.mem_singleton] at hm
      rcases hm with hm | rfl
      · have := hp.sent m hm
        cases m <;> exact this
      · exact ⟨hp.me, by simp⟩
    · exact hsame

omit [ScrollRule] [Crc32] in
/-- An end sends something without having received anything. -/
private theorem half_send {p q : Peering} {x y : BitVec 16} {sp sq : List PeerMsg} (m : PeerMsg) (c : Bool)
    (hp : Half p q x y sp) (hq : Half q p y x sq) (hm : Honest x y p m) :
    Half { p with closed := c } q x y (sp ++ [m]) ∧ Half q { p with closed := c } y x sq := by
  refine ⟨⟨hp.me, hp.you, hp.opened, hp.confirmed, ?_⟩, ⟨hq.me, hq.you, hq.opened, hq.confirmed, hq.sent⟩⟩
  intro m' hm'
  rcases List.mem_append.1 hm' with h | h
  · have := hp.sent m' h
    cases m' <;> exact this
  · obtain rfl := List.mem_singleton.1 h
    cases m' <;> exact hm

private def Inv (x y : BitVec 16) (w : PeerWorld PeerMsg) : Prop :=
  Half w.a w.b x y w.fromA ∧ Half w.b w.a y x w.fromB

omit [ScrollRule] [Crc32] in
private theorem inv_move {x y : BitVec 16} {w w' : PeerWorld PeerMsg} (h : Inv x y w) (m : PeerMove)
    (hr : w.move (fun _ m => .ok m) (fun _ m => .ok (some m)) m = .ok w') : Inv x y w' := by
  obtain ⟨ha, hb⟩ := h
  have hyou : ∀ {p q : Peering} {x y : BitVec 16} {s : List PeerMsg}, Half p q x y s → p.you.all (· == y) = true := by
    intro p q x y s h
    rcases h.you with h | h <;> simp [h]
  cases m with
  | opens who =>
    cases who
    · simp only [PeerWorld.move, PeerWorld.this, Bool.false_eq_true, if_false] at hr
      split at hr <;> cases hr
      · exact ⟨ha, hb⟩
      · exact (half_send (.opens w.b.me) w.b.closed hb ha hb.me).symm
    · simp only [PeerWorld.move, PeerWorld.this, if_true] at hr
      split at hr <;> cases hr
      · exact ⟨ha, hb⟩
      · exact half_send (.opens w.a.me) w.a.closed ha hb ha.me
  | closes who r =>
    cases who
    · simp only [PeerWorld.move, PeerWorld.this, Bool.false_eq_true, if_false] at hr
      split at hr <;> cases hr
      · exact ⟨ha, hb⟩
      · exact (half_send (.closes w.b.me w.b.you r) true hb ha ⟨hb.me, hyou hb⟩).symm
    · simp only [PeerWorld.move, PeerWorld.this, if_true] at hr
      split at hr <;> cases hr
      · exact ⟨ha, hb⟩
      · exact half_send (.closes w.a.me w.a.you r) true ha hb ⟨ha.me, hyou ha⟩
  | deliver to i =>
    cases to
    · simp only [PeerWorld.move, PeerWorld.this, PeerWorld.sentBy, Bool.not_false, if_true, Bool.false_eq_true, if_false,
        Res.ok_bind] at hr
      split at hr
      · cases hr; exact ⟨ha, hb⟩
      · rename_i m hm
        split at hr
        · rename_i p hp
          cases hr
          exact (half_take hb ha (List.mem_of_getElem? hm) hp).symm
        · rename_i p answer hp
          cases hr
          exact (half_take hb ha (List.mem_of_getElem? hm) hp).symm
    · simp only [PeerWorld.move, PeerWorld.this, PeerWorld.sentBy, Bool.not_true, if_true, Bool.false_eq_true, if_false,
        Res.ok_bind] at hr
      split at hr
      · cases hr; exact ⟨ha, hb⟩
      · rename_i m hm
        split at hr
        · rename_i p hp
          cases hr
          exact half_take ha hb (List.mem_of_getElem? hm) hp
        · rename_i p answer hp
          cases hr
          exact half_take ha hb (List.mem_of_getElem? hm) hp

omit [ScrollRule] [Crc32] in
private theorem inv_run {x y : BitVec 16} (l : List PeerMove) {w w' : PeerWorld PeerMsg} (h : Inv x y w)
    (hr : PeerWorld.ideal w l = .ok w') : Inv x y w' := by
  induction l generalizing w with
  | nil => cases hr; exact h
  | cons m l ih =>
    obtain ⟨v, h1, h2⟩ := Res.bind_eq_ok hr
    exact ih (inv_move h m h1) h2

omit [ScrollRule] [Crc32] in
private theorem inv_start (x y : BitVec 16) : Inv x y (.start x y) := by
  constructor <;> exact ⟨rfl, .inl rfl, (fun h => by cases h), (fun h => by cases h), (fun m hm => by cases hm)⟩

/-- Agreement: whatever is lost, repeated or delivered in another order, a station that takes the peering to be established
has the other's link ID, and the other has its own and has taken its open frame. -/
theorem c91_agreement_partial (s t : PeerStation) (hs : s.Ready) (ht : t.Ready) (hf : s.Faces t) (buf : Bytes)
    (hb : s.room ≤ buf.length ∧ t.room ≤ buf.length) (x y : BitVec 16) (l : List PeerMove) (hl : ∀ m ∈ l, m.Canonical) :
    ∃ w, PeerWorld.real s t buf (.start x y) l = .ok w ∧ w.a.me = x ∧ w.b.me = y ∧
      (w.a.established = true → w.a.you = some y ∧ w.b.you = some x ∧ w.b.opened = true) ∧
      (w.b.established = true → w.b.you = some x ∧ w.a.you = some y ∧ w.a.opened = true) := by
  obtain ⟨w, v, h1, h2, h3, h4, -, -⟩ := c91_exact_partial s t hs ht hf buf hb x y l hl
  obtain ⟨ha, hb⟩ := inv_run l (inv_start x y) h2
  rw [← h3, ← h4] at ha hb
  refine ⟨w, h1, ha.me, hb.me, fun h => ?_, fun h => ?_⟩
  · simp only [Peering.established, Bool.and_eq_true] at h
    obtain ⟨h5, h6⟩ := ha.confirmed h.1.2
    exact ⟨h5, hb.opened h6, h6⟩
  · simp only [Peering.established, Bool.and_eq_true] at h
    obtain ⟨h5, h6⟩ := hb.confirmed h.1.2
    exact ⟨h5, ha.opened h6, h6⟩

/-! ## Progress -/

omit [ScrollRule] [Crc32] in
private theorem ideal_append (l l' : List PeerMove) (w v : PeerWorld PeerMsg) (h : PeerWorld.ideal w l = .ok v) :
    PeerWorld.ideal w (l ++ l') = PeerWorld.ideal v l' := by
  induction l generalizing w with
  | nil => cases h; rfl
  | cons m l ih =>
    obtain ⟨u, h1, h2⟩ := Res.bind_eq_ok h
    have h1 : w.move _ _ m = _ := h1
    rw [List.cons_append, PeerWorld.ideal, PeerWorld.run, h1]
    exact ih u h2

omit [ScrollRule] [Crc32] in
private theorem ideal_establishes {x y : BitVec 16} {w : PeerWorld PeerMsg} (h : Inv x y w) (ha : w.a.closed = false)
    (hb : w.b.closed = false) : ∃ v, PeerWorld.ideal w [.opens true, .deliver false w.fromA.length,
      .deliver true w.fromB.length, .opens false, .deliver true (w.fromB.length + 1),
      .deliver false (w.fromA.length + 1)] = .ok v ∧ v.a.established = true ∧ v.b.established = true := by
  obtain ⟨⟨ame, ayou, ao, ac, acl⟩, ⟨bme, byou, bo, bc, bcl⟩, fa, fb⟩ := w
  obtain ⟨h1, h2⟩ := h
  have h3 := h1.me
  have h4 := h2.me
  have h5 := h1.you
  have h6 := h2.you
  simp only at ha hb h3 h4 h5 h6
  subst ha hb h3 h4
  have h5 : ayou.all (· == bme) = true := by rcases h5 with rfl | rfl <;> simp
  have h6 : byou.all (· == ame) = true := by rcases h6 with rfl | rfl <;> simp
  refine ⟨⟨⟨ame, some bme, true, true, false⟩, ⟨bme, some ame, true, true, false⟩, fa ++ [.opens ame] ++ [.confirms ame bme],
    fb ++ [.confirms bme ame] ++ [.opens bme]⟩, ?_, rfl, rfl⟩
  simp [PeerWorld.ideal, PeerWorld.run, PeerWorld.move, PeerWorld.this, PeerWorld.sentBy, PeerWorld.update, Peering.take,
    Peering.knows, h5, h6]

/-- Progress: whatever happened before, as long as neither station has closed the peering, one frame of each kind from each
of them is enough to establish it. -/
theorem c91_establishes_partial (s t : PeerStation) (hs : s.Ready) (ht : t.Ready) (hf : s.Faces t) (buf : Bytes)
    (hb : s.room ≤ buf.length ∧ t.room ≤ buf.length) (x y : BitVec 16) (l : List PeerMove) (hl : ∀ m ∈ l, m.Canonical) :
    ∃ w, PeerWorld.real s t buf (.start x y) l = .ok w ∧ (w.a.closed = false → w.b.closed = false →
      ∃ w', PeerWorld.real s t buf (.start x y) (l ++ [.opens true, .deliver false w.fromA.length,
        .deliver true w.fromB.length, .opens false, .deliver true (w.fromB.length + 1),
        .deliver false (w.fromA.length + 1)]) = .ok w' ∧ w'.a.established = true ∧ w'.b.established = true) := by
  obtain ⟨w, v, h1, h2, h3, h4, h5, h6⟩ := c91_exact_partial s t hs ht hf buf hb x y l hl
  refine ⟨w, h1, fun ha hb' => ?_⟩
  have hA := congrArg List.length h5
  have hB := congrArg List.length h6
  simp only [List.length_map] at hA hB
  rw [h3] at ha
  rw [h4] at hb'
  rw [hA, hB]
  obtain ⟨u, h7, h8, h9⟩ := ideal_establishes (inv_run l (inv_start x y) h2) ha hb'
  obtain ⟨w', v', h10, h11, h12, h13, -, -⟩ := c91_exact_partial s t hs ht hf buf hb x y
    (l ++ [.opens true, .deliver false v.fromA.length, .deliver true v.fromB.length, .opens false,
      .deliver true (v.fromB.length + 1), .deliver false (v.fromA.length + 1)]) (by
    intro m hm
    rcases List.mem_append.1 hm with hm | hm
    · exact hl m hm
    · simp only [List.mem_cons, List.not_mem_nil, or_false] at hm
      rcases hm with rfl | rfl | rfl | rfl | rfl | rfl <;> trivial)
  rw [ideal_append l _ _ _ h2, h7] at h11
  cases h11
  exact ⟨w', h10, by rw [h12]; exact h8, by rw [h13]; exact h9⟩

/-- Closing: when a station closes the peering, and the frame is delivered, neither of them takes it to be established. -/
theorem c91_close_partial (s t : PeerStation) (hs : s.Ready) (ht : t.Ready) (hf : s.Faces t) (buf : Bytes)
    (hb : s.room ≤ buf.length ∧ t.room ≤ buf.length) (x y : BitVec 16) (l : List PeerMove) (hl : ∀ m ∈ l, m.Canonical)
    (r : IEEE80211Reason) (hr : r.Canonical) :
    ∃ w, PeerWorld.real s t buf (.start x y) l = .ok w ∧ (w.a.closed = false →
      ∃ w', PeerWorld.real s t buf (.start x y) (l ++ [.closes true r, .deliver false w.fromA.length]) = .ok w' ∧
        w'.a.established = false ∧ w'.b.established = false ∧ w'.b.closed = true) := by
  obtain ⟨w, v, h1, h2, h3, h4, h5, h6⟩ := c91_exact_partial s t hs ht hf buf hb x y l hl
  refine ⟨w, h1, fun ha => ?_⟩
  have hA := congrArg List.length h5
  simp only [List.length_map] at hA
  rw [h3] at ha
  rw [hA]
  obtain ⟨w', v', h10, h11, h12, h13, -, -⟩ := c91_exact_partial s t hs ht hf buf hb x y
    (l ++ [.closes true r, .deliver false v.fromA.length]) (by
    intro m hm
    rcases List.mem_append.1 hm with hm | hm
    · exact hl m hm
    · simp only [List.mem_cons, List.not_mem_nil, or_false] at hm
      rcases hm with rfl | rfl
      · exact hr
      · trivial)
  rw [ideal_append l _ _ _ h2] at h11
  have hI := inv_run l (inv_start x y) h2
  refine ⟨w', h10, ?_⟩
  rw [h12, h13]
  clear h1 h2 h3 h4 h5 h6 h10 h12 h13 hA w w'
  obtain ⟨⟨ame, ayou, ao, ac, acl⟩, ⟨bme, byou, bo, bc, bcl⟩, fa, fb⟩ := v
  obtain ⟨h1, h2⟩ := hI
  have h3 := h1.me
  have h4 := h2.me
  have h5 := h1.you
  have h6 := h2.you
  simp only at ha h3 h4 h5 h6
  subst ha h3 h4
  have h5 : ayou.all (· == bme) = true := by rcases h5 with rfl | rfl <;> simp
  have h6 : byou.all (· == ame) = true := by rcases h6 with rfl | rfl <;> simp
  cases bcl <;>
  simp [PeerWorld.ideal, PeerWorld.run, PeerWorld.move, PeerWorld.this, PeerWorld.sentBy, PeerWorld.update, Peering.take,
    Peering.knows, h5, h6] at h11 <;> subst h11 <;> simp [Peering.established]

/-! ## Frames of others -/

/-- Violation: anyone can stop a mesh station.  An open frame with the address of the other station, and in it an element
with the number of the mesh peering management element and more than twenty-four octets, makes the station panic. -/
theorem c91_station_panics (t : PeerStation) (h : ManagementFrameHeader) (hc : HtConsistent h)
    (hf : h.transmitter_address = t.header.receiver_address ∧ h.receiver_address = t.header.transmitter_address)
    (caps : BitVec 16) (p rest : Bytes) (hp : 24 < p.length ∧ p.length ≤ 255) :
    t.got (withFcs t.fcs (mgmtFrameWire MgmtKind.MeshPeeringOpen.SUBTYPE h
      (15 :: 1 :: (toLE caps ++ (tlv ⟨117, p⟩ ++ rest))))) = .panic := by
  have hsl := slack_le
  have hr := c22_mesh_peering_open.reads ⟨⟨caps⟩, tlv ⟨117, p⟩ ++ rest⟩ trivial (by simp [tlv_length]; omega)
  obtain ⟨h1, h2⟩ := c65_mgmt .MeshPeeringOpen h hc _ (fun _ => ⟨_, _, rfl, rfl, rfl⟩)
    (by simp; omega) readMeshPeeringOpen _ _ hr
    (fun r => ((r.1, r.2.elements) : ManagementFrameHeader × Bytes)) [] (PeerStation.arms.drop 1) (by simp)
  have hm : matchFrames (withFcs t.fcs (mgmtFrameWire MgmtKind.MeshPeeringOpen.SUBTYPE h
      (15 :: 1 :: (toLE caps ++ (tlv ⟨117, p⟩ ++ rest))))) (if t.fcs then some true else none) PeerStation.arms =
        .ok (0, h, tlv ⟨117, p⟩ ++ rest) := by
    cases t.fcs
    · exact h1
    · exact h2 true
  obtain ⟨l, hel⟩ := elementsOf_exists rest
  have h3 : ElementsOf (tlv ⟨117, p⟩ ++ rest) (⟨117, p⟩ :: l) :=
    .elem _ hp.2 (not_noElement hp.2 (by simp; omega)) hel
  have h4 : getFirstElement (tlv ⟨117, p⟩ ++ rest) meshPeeringKind = .panic := by
    have hlen := h3.length_le
    rw [getFirstElement, findMap_of_yields h3.yields _ (by omega)]
    simp only [findRes, matchTyped, elementIdMatches, meshPeeringKind, beq_self_eq_true, Res.ok_bind, if_true,
      parseRawElement, pread0, c19_read_long_panics p hp.1]
    rw [if_neg (by omega)]
    rfl
  simp only [PeerStation.got, hm, if_pos hf, h4]
  rfl

/-! ## Concrete cases -/

namespace Spec

/-- Two stations of a mesh without keys; the second has a mesh ID before and a raw element after its own element. -/
def meshStationA : PeerStation :=
  ⟨⟨⟨0⟩, 0, ⟨[2, 0, 0, 0, 0, 2], rfl⟩, ⟨[2, 0, 0, 0, 0, 1], rfl⟩, Arr.zero 6, ⟨0⟩, none⟩, ⟨0⟩, ⟨0xc001⟩,
    .MeshPeeringManagementProtocol, none, [], [], true⟩

def meshStationB : PeerStation :=
  ⟨⟨⟨0⟩, 0, ⟨[2, 0, 0, 0, 0, 1], rfl⟩, ⟨[2, 0, 0, 0, 0, 2], rfl⟩, Arr.zero 6, ⟨0⟩, none⟩, ⟨0x1000⟩, ⟨0xc002⟩,
    .MeshPeeringManagementProtocol, none, [(.raw ⟨114, [0x6d]⟩, ⟨114, [0x6d]⟩)], [(.raw ⟨221, [1, 2, 3]⟩, ⟨221, [1, 2, 3]⟩)],
    true⟩

/-- Is the peering established, and with which link IDs? -/
def PeerWorld.outcome {μ : Type} (w : PeerWorld μ) : (Bool × Option (BitVec 16)) × (Bool × Option (BitVec 16)) × Nat × Nat :=
  ((w.a.established, w.a.you), (w.b.established, w.b.you), w.fromA.length, w.fromB.length)

end Spec

omit [ScrollRule] [Crc32] in
/-- An exchange with repeated and reordered frames; one in which a frame is lost, repeated, and the peering then closed by
the second station; and one that ends in a panic. -/
example (s : Bool) :
    letI : ScrollRule := ⟨s⟩
    letI : Crc32 := ⟨fun _ => 0⟩
    let run := fun l => (PeerWorld.real meshStationA meshStationB (List.replicate 200 7) (.start 0x0102 0xfffe) l).map
      PeerWorld.outcome
    run [.opens true, .opens false, .deliver false 0, .deliver false 0, .deliver true 2, .deliver true 0, .deliver false 1]
      = .ok ((true, some 0xfffe), (true, some 0x0102), 2, 3) ∧
    run [.opens true, .opens true, .deliver false 1, .deliver true 0] = .ok ((false, some 0xfffe), (false, some 0x0102), 2, 1) ∧
    run [.opens true, .opens false, .deliver false 0, .deliver true 0, .deliver true 1, .deliver false 1,
      .closes false .MeshMaxPeers, .deliver true 2] = .ok ((false, some 0xfffe), (false, some 0x0102), 3, 3) ∧
    meshStationA.got (withFcs true (mgmtFrameWire MgmtKind.MeshPeeringOpen.SUBTYPE meshStationB.header
      (15 :: 1 :: (toLE (0 : BitVec 16) ++ (tlv ⟨117, List.replicate 25 0⟩ ++ []))))) = .panic := by
  cases s <;> exact ⟨by decide +kernel, by decide +kernel, by decide +kernel, by decide +kernel⟩

omit [Crc32] in
/-- The stations meet the hypotheses. -/
example : meshStationA.Ready ∧ meshStationB.Ready ∧ meshStationA.Faces meshStationB ∧ meshStationA.room = 67 ∧
    meshStationB.room = 75 := by
  have hs := slack_le
  refine ⟨⟨rfl, ⟨by decide, by decide⟩, MeshPeeringProtocolIdentifier.canonical_fromBits 0, ?_, ?_, ?_⟩,
    ⟨rfl, ⟨by decide, by decide⟩, MeshPeeringProtocolIdentifier.canonical_fromBits 0, ?_, ?_, ?_⟩, ⟨rfl, rfl, rfl, rfl, rfl⟩,
    rfl, rfl⟩
  · intro p hp; cases hp
  · intro p hp; cases hp
  · intro p hp; cases hp
  · intro p hp
    simp only [meshStationB, List.cons_append, List.nil_append, List.mem_cons, List.not_mem_nil, or_false] at hp
    rcases hp with rfl | rfl
    · exact ⟨_, .raw _ (by decide)⟩
    · exact ⟨_, .raw _ (by decide)⟩
  · intro p hp
    simp only [meshStationB, List.mem_cons, List.not_mem_nil, or_false] at hp
    subst hp
    decide
  · intro p hp
    simp only [meshStationB, List.getLast?_singleton, Option.some.injEq] at hp
    subst hp
    simp; omega

end Verif
