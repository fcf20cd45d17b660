import Verif.Props.C04
import Verif.Props.C95
/-!
# C97: stations join and leave a network

A station that joins a network authenticates and then asks to be associated; the access point answers both, and gives the
station an association ID (11.3).  Either side can end it.  Neither program is in the crate; they are written here with the
functions of the crate, for open system authentication.
-/
namespace Verif

namespace Spec

/-- What stations and access points write to each other. -/
inductive Letter where
  | authentication (algorithm : IEEE80211AuthenticationAlgorithmNumber) (step : BitVec 16) (status : IEEE80211StatusCode)
  | request (caps : CapabilitiesInformation) (listen : BitVec 16)
  | response (caps : CapabilitiesInformation) (status : IEEE80211StatusCode) (aid : Option AssociationID)
  | disassociation (reason : IEEE80211Reason)
  | deauthentication (reason : IEEE80211Reason)
  deriving DecidableEq

namespace Letter

/-- The codes are ones that can be received (C02), and association IDs are from 1 to 2007. -/
def Valid : Letter → Prop
  | .authentication a _ s => a.Canonical ∧ s.Canonical
  | .request _ _ => True
  | .response _ s a => s.Canonical ∧ ∀ x, a = some x → IsAid x
  | .disassociation r => r.Canonical
  | .deauthentication r => r.Canonical

/-- 9.2.4.1.3: the subtype of the frame. -/
def number : Letter → Nat
  | .authentication .. => 11
  | .request .. => 0
  | .response .. => 1
  | .disassociation _ => 10
  | .deauthentication _ => 12

/-- The fixed fields (9.3.3.5, 9.3.3.6, 9.3.3.11, 9.3.3.4, 9.3.3.12). -/
def fields : Letter → Bytes
  | .authentication a n s => toLE a.intoBits ++ toLE n ++ toLE s.intoBits
  | .request c l => toLE c.bits ++ toLE l
  | .response c s a => toLE c.bits ++ toLE s.intoBits ++ toLE ((a.map AssociationID.intoBits).getD 0)
  | .disassociation r => toLE r.intoBits
  | .deauthentication r => toLE r.intoBits

variable [ScrollRule]

/-- The body of the frame, with elements. -/
def body (els : Obj) : Letter → Writer
  | .authentication a n s => writeAuthentication ⟨a, n, s, els⟩
  | .request c l => writeAssociationRequest ⟨c, l, els⟩
  | .response c s a => writeAssociationResponse ⟨c, s, a, els⟩
  | .disassociation r => writeDisassociation ⟨r, els⟩
  | .deauthentication r => writeDeauthentication ⟨r, els⟩

/-- The subtype under which it is written. -/
def kind : Letter → MgmtKind
  | .authentication .. => .Authentication
  | .request .. => .AssociationRequest
  | .response .. => .AssociationResponse
  | .disassociation _ => .Disassociation
  | .deauthentication _ => .Deauthentication

end Letter

variable [ScrollRule] [Crc32]

/-- Write a letter into a buffer. -/
def post (h : ManagementFrameHeader) (l : Letter) (els : Obj) (fcs : Bool) (buf : Bytes) : Res Bytes := do
  let (out, n) ← writeMgmtFrame l.kind.SUBTYPE h (l.body els) fcs buf
  pure (out.take n)

/-- What is in a frame: a letter or something else. -/
def hear (fcs : Bool) (frame : Bytes) : Res (Option (ManagementFrameHeader × Letter)) :=
  match matchFrames frame (if fcs then some true else none)
    [armOf MgmtKind.Authentication.frame (readMgmtFrame readAuthentication) fun r => (r.1, Letter.authentication
        r.2.authentication_algorithm_number r.2.authentication_transaction_sequence_number r.2.status_code),
      armOf MgmtKind.AssociationRequest.frame (readMgmtFrame readAssociationRequest) fun r =>
        (r.1, .request r.2.capabilities_info r.2.listen_interval),
      armOf MgmtKind.AssociationResponse.frame (readMgmtFrame readAssociationResponse) fun r =>
        (r.1, .response r.2.capabilities_info r.2.status_code r.2.association_id),
      armOf MgmtKind.Disassociation.frame (readMgmtFrame readDisassociation) fun r => (r.1, .disassociation r.2.reason),
      armOf MgmtKind.Deauthentication.frame (readMgmtFrame readDeauthentication) fun r =>
        (r.1, .deauthentication r.2.reason)] with
  | .panic => .panic
  | .err _ => .ok none
  | .ok (_, x) => .ok (some x)

/-- A letter on its way: who sent it, and what the receiver finds in it. -/
abbrev Mail := Mac → Mac → Letter → Res (Option (Mac × Letter))

/-- The letter is written as a frame, and the receiver looks at frames that are addressed to it. -/
def overAir (h : ManagementFrameHeader) (bssid : Mac) (els : Obj) (fcs : Bool) (buf : Bytes) : Mail := fun src dst l => do
  let frame ← post { h with receiver_address := dst, transmitter_address := src, bssid := bssid } l els fcs buf
  match ← hear fcs frame with
  | some (g, l) => pure (if g.receiver_address = dst then some (g.transmitter_address, l) else none)
  | none => pure none

omit [ScrollRule] [Crc32] in
/-- 11.3.2: the state of a station. -/
inductive Standing where
  | stranger
  | authenticated
  | member (a : AssociationID)
  deriving DecidableEq

/-- The access point's table: the first entry of a station counts. -/
abbrev Register := List (Mac × Standing)

omit [ScrollRule] [Crc32] in
def standing : Register → Mac → Standing
  | [], _ => .stranger
  | (m, s) :: t, x => if m = x then s else standing t x

omit [ScrollRule] [Crc32] in
/-- Is the number in use? -/
def inUse (t : Register) (n : Nat) : Bool :=
  t.any fun p => match standing t p.1 with
    | .member a => a.aid.toNat == n
    | _ => false

omit [ScrollRule] [Crc32] in
/-- The lowest association ID that is free. -/
def freeAid (t : Register) : Option AssociationID :=
  ((List.range 2007).find? fun i => !inUse t (i + 1)).bind fun i => AssociationID.newChecked (BitVec.ofNat 16 (i + 1))

omit [ScrollRule] [Crc32] in
/-- The access point (11.3.4.3, 11.3.5.3, 11.3.4.5, 11.3.5.7): what becomes of its table, and its answer. -/
def serve (t : Register) (src : Mac) : Letter → Register × Option Letter
  | .authentication a n _ =>
    if a ≠ .OpenSystem then (t, some (.authentication a (n + 1) .UnsupportedAuthAlgorithm))
    else if n ≠ 1 then (t, some (.authentication a (n + 1) .TransactionSequenceError))
    else ((src, .authenticated) :: t, some (.authentication .OpenSystem 2 .Success))
  | .request c _ =>
    match standing t src with
    | .stranger => (t, some (.deauthentication .InvalidClass2Frame))
    | .member a => (t, some (.response c .Success (some a)))
    | .authenticated =>
      match freeAid t with
      | some a => ((src, .member a) :: t, some (.response c .Success (some a)))
      | none => (t, some (.response c .DeniedNoMoreStas none))
  | .response .. => (t, none)
  | .disassociation _ =>
    match standing t src with
    | .member _ => ((src, .authenticated) :: t, none)
    | _ => (t, none)
  | .deauthentication _ => ((src, .stranger) :: t, none)

omit [ScrollRule] [Crc32] in
/-- The station: what it makes of a letter from its access point. -/
def Standing.after (s : Standing) : Letter → Standing
  | .authentication a n r => if a = .OpenSystem ∧ n = 2 ∧ r = .Success then .authenticated else s
  | .request .. => s
  | .response _ r o =>
    match s, o with
    | .stranger, _ => .stranger
    | _, some a => if r = .Success then .member a else s
    | _, none => s
  | .disassociation _ =>
    match s with
    | .member _ => .authenticated
    | s => s
  | .deauthentication _ => .stranger

omit [ScrollRule] [Crc32] in
/-- The access point's table and what every station believes of itself. -/
structure World where
  table : Register
  station : Mac → Standing

omit [ScrollRule] [Crc32] in
/-- A station changes its mind. -/
def World.believes (w : World) (m : Mac) (s : Standing) : World := ⟨w.table, fun x => if m = x then s else w.station x⟩

omit [ScrollRule] [Crc32] in
/-- A letter from the access point to a station. -/
def toStation (mail : Mail) (ap m : Mac) (l : Letter) (w : World) : Res World := do
  match ← mail ap m l with
  | some (src, l) => pure (if src = ap then w.believes m ((w.station m).after l) else w)
  | none => pure w

omit [ScrollRule] [Crc32] in
/-- A letter from a station to the access point, and the answer. -/
def toAccessPoint (mail : Mail) (ap m : Mac) (l : Letter) (w : World) : Res World := do
  match ← mail m ap l with
  | some (src, l) =>
    let (t, answer) := serve w.table src l
    match answer with
    | some a => toStation mail ap src a ⟨t, w.station⟩
    | none => pure ⟨t, w.station⟩
  | none => pure w

omit [ScrollRule] [Crc32] in
/-- What happens in a network. -/
inductive Happening where
  /-- A station authenticates and asks to be associated. -/
  | joins (m : Mac) (caps : CapabilitiesInformation) (listen : BitVec 16)
  /-- A station asks to be associated, whether it is authenticated or not. -/
  | asks (m : Mac) (caps : CapabilitiesInformation) (listen : BitVec 16)
  /-- A station tries to authenticate by another method, or at another step. -/
  | tries (m : Mac) (algorithm : IEEE80211AuthenticationAlgorithmNumber) (step : BitVec 16)
  /-- A station disassociates itself. -/
  | leaves (m : Mac) (r : IEEE80211Reason)
  /-- A station deauthenticates itself. -/
  | departs (m : Mac) (r : IEEE80211Reason)
  /-- The access point disassociates a station. -/
  | dropped (m : Mac) (r : IEEE80211Reason)
  /-- The access point deauthenticates a station. -/
  | expelled (m : Mac) (r : IEEE80211Reason)

omit [ScrollRule] [Crc32] in
def Happening.Valid : Happening → Prop
  | .joins .. => True
  | .asks .. => True
  | .tries _ a _ => a.Canonical
  | .leaves _ r => r.Canonical
  | .departs _ r => r.Canonical
  | .dropped _ r => r.Canonical
  | .expelled _ r => r.Canonical

omit [ScrollRule] [Crc32] in
/-- One of these, with every letter going the given way. -/
def Happening.run (mail : Mail) (ap : Mac) (w : World) : Happening → Res World
  | .joins m c n => do
    let w ← toAccessPoint mail ap m (.authentication .OpenSystem 1 .Success) w
    toAccessPoint mail ap m (.request c n) w
  | .asks m c n => toAccessPoint mail ap m (.request c n) w
  | .tries m a n => toAccessPoint mail ap m (.authentication a n .Success) w
  | .leaves m r => toAccessPoint mail ap m (.disassociation r)
      (w.believes m ((w.station m).after (.disassociation r)))
  | .departs m r => toAccessPoint mail ap m (.deauthentication r) (w.believes m .stranger)
  | .dropped m r =>
    match standing w.table m with
    | .member _ => toStation mail ap m (.disassociation r) ⟨(m, .authenticated) :: w.table, w.station⟩
    | _ => pure w
  | .expelled m r => toStation mail ap m (.deauthentication r) ⟨(m, .stranger) :: w.table, w.station⟩

omit [ScrollRule] [Crc32] in
/-- One after the other. -/
def runAll (mail : Mail) (ap : Mac) : World → List Happening → Res World
  | w, [] => .ok w
  | w, e :: es => do
    let w ← e.run mail ap w
    runAll mail ap w es

omit [ScrollRule] [Crc32] in
/-- Every station knows where it stands; members have association IDs, and no two the same. -/
structure World.Sound (w : World) : Prop where
  agree : ∀ m, w.station m = standing w.table m
  aids : ∀ m a, w.station m = .member a → 1 ≤ a.aid.toNat ∧ a.aid.toNat ≤ 2007 ∧ IsAid a
  apart : ∀ m m' a a', w.station m = .member a → w.station m' = .member a' → a.aid.toNat = a'.aid.toNat → m = m'

omit [ScrollRule] [Crc32] in
/-- Nobody has joined yet. -/
def World.initial : World := ⟨[], fun _ => .stranger⟩

end Spec

open Spec

/-! ## Letters arrive -/

section Frames

variable [ScrollRule] [Crc32]

omit [Crc32] in
/-- The writer of a letter writes its fields and the elements. -/
private theorem body_emits (l : Letter) (els : Obj) (e : Bytes) (m : Nat) (he : Emits els.write e m) :
    ∃ k, k ≤ 6 + max m slack ∧ Emits (l.body els) (l.fields ++ e) k := by
  cases l with
  | authentication a n s => exact ⟨_, Nat.le_refl _, c22_authentication.writes ⟨a, n, s, els⟩ e m he⟩
  | request c n => exact ⟨_, by omega, c22_association_request.writes ⟨c, n, els⟩ e m he⟩
  | response c s a => exact ⟨_, Nat.le_refl _, c22_association_response.writes ⟨c, s, a, els⟩ e m he⟩
  | disassociation r => exact ⟨_, by omega, c22_disassociation.writes ⟨r, els⟩ e m he⟩
  | deauthentication r => exact ⟨_, by omega, c22_deauthentication.writes ⟨r, els⟩ e m he⟩

omit [ScrollRule] [Crc32] in
private theorem fields_length (l : Letter) : l.fields.length ≤ 6 := by
  cases l <;> simp [Letter.fields]

omit [ScrollRule] [Crc32] in
private theorem header_length (h : ManagementFrameHeader) : (mgmtHeaderWire h).length ≤ 26 := by
  simp only [mgmtHeaderWire, List.length_append, toLE_length, Arr.length_val]
  cases h.ht_control <;> simp [optWire]

/-- The frame of a letter. -/
private theorem posted (h : ManagementFrameHeader) (l : Letter) (els : Obj) (e : Bytes) (m : Nat) (he : Emits els.write e m)
    (fcs : Bool) (buf : Bytes) (hb : 50 + m ≤ buf.length) :
    post h l els fcs buf = .ok (withFcs fcs (mgmtFrameWire l.kind.SUBTYPE h (l.fields ++ e))) := by
  have hs := slack_le
  obtain ⟨k, hk, hw⟩ := body_emits l els e m he
  have hE := c23_write l.kind.SUBTYPE (c23_subtypes.1 l.kind) h (l.body els) _ _ hw fcs
  have h1 := header_length h
  have h2 := fields_length l
  have h3 := he.le
  have h4 : (mgmtFrameWire l.kind.SUBTYPE h (l.fields ++ e)).length = 2 + (mgmtHeaderWire h).length + (l.fields.length + e.length) := by
    simp [mgmtFrameWire, frameStart_length]
    omega
  have := hE.ok buf (by rw [h4]; cases fcs <;> simp <;> omega)
  simp only [post, this, Res.ok_bind]
  simp [pure]

private abbrev Arm := FrameKind × (Bool → Reader (ManagementFrameHeader × Letter))

private abbrev aBlock (r : ManagementFrameHeader × AuthenticationBody Bytes) : ManagementFrameHeader × Letter :=
  (r.1, Letter.authentication r.2.authentication_algorithm_number r.2.authentication_transaction_sequence_number r.2.status_code)
private abbrev qBlock (r : ManagementFrameHeader × AssociationRequestBody Bytes) : ManagementFrameHeader × Letter :=
  (r.1, .request r.2.capabilities_info r.2.listen_interval)
private abbrev rBlock (r : ManagementFrameHeader × AssociationResponseBody Bytes) : ManagementFrameHeader × Letter :=
  (r.1, .response r.2.capabilities_info r.2.status_code r.2.association_id)
private abbrev dBlock (r : ManagementFrameHeader × ReasonBody Bytes) : ManagementFrameHeader × Letter :=
  (r.1, .disassociation r.2.reason)
private abbrev xBlock (r : ManagementFrameHeader × ReasonBody Bytes) : ManagementFrameHeader × Letter :=
  (r.1, .deauthentication r.2.reason)
private abbrev aArm : Arm := armOf MgmtKind.Authentication.frame (readMgmtFrame readAuthentication) aBlock
private abbrev qArm : Arm := armOf MgmtKind.AssociationRequest.frame (readMgmtFrame readAssociationRequest) qBlock
private abbrev rArm : Arm := armOf MgmtKind.AssociationResponse.frame (readMgmtFrame readAssociationResponse) rBlock
private abbrev dArm : Arm := armOf MgmtKind.Disassociation.frame (readMgmtFrame readDisassociation) dBlock
private abbrev xArm : Arm := armOf MgmtKind.Deauthentication.frame (readMgmtFrame readDeauthentication) xBlock

/-- Letters written with elements are heard as they were posted. -/
private theorem heard (h : ManagementFrameHeader) (hc : HtConsistent h) (l : Letter) (hl : l.Valid) (e : Bytes)
    (hne : slack ≤ e.length) (fcs : Bool) :
    hear fcs (withFcs fcs (mgmtFrameWire l.kind.SUBTYPE h (l.fields ++ e))) = .ok (some (h, l)) := by
  have key : ∀ {β : Type} (k : MgmtKind) (read : Reader β) (b : β) (n : Nat) (fx : Bytes) (hm : MarkedAs k (fx ++ e))
      (hr : read (fx ++ e) = .ok (b, n)) (block : ManagementFrameHeader × β → ManagementFrameHeader × Letter)
      (pre post : List (FrameKind × (Bool → Reader (ManagementFrameHeader × Letter)))) (hpre : ∀ a ∈ pre, OtherThan k a.1),
      matchFrames (withFcs fcs (mgmtFrameWire k.SUBTYPE h (fx ++ e))) (if fcs then some true else none)
        (pre ++ armOf k.frame (readMgmtFrame read) block :: post) = .ok (pre.length, block (h, b)) := by
    intro β k read b n fx hm hr block pre post hpre
    obtain ⟨h1, h2⟩ := c65_mgmt k h hc _ hm (by simp only [List.length_append]; omega) read _ _ hr block pre post hpre
    cases fcs
    · exact h1
    · exact h2 true
  have other : ∀ (j k : MgmtKind), kindNumber j ≠ kindNumber k → OtherThan k j.frame :=
    fun j k hj => .inr (.inr ⟨j, .inl hj, rfl⟩)
  cases l with
  | authentication a n s =>
    have := key .Authentication readAuthentication _ _ _ (fun h => by cases h)
      (c22_authentication.reads ⟨a, n, s, e⟩ hl hne) aBlock [] [qArm, rArm, dArm, xArm] (by simp)
    simp only [hear]
    erw [this]
  | request c n =>
    have := key .AssociationRequest readAssociationRequest _ _ _ (fun h => by cases h)
      (c22_association_request.reads ⟨c, n, e⟩ trivial hne) qBlock [aArm] [rArm, dArm, xArm] (by
        intro b hb
        simp only [List.mem_cons, List.not_mem_nil, or_false] at hb
        rcases hb with rfl <;> exact other _ _ (by decide))
    simp only [hear]
    erw [this]
  | response c s a =>
    have := key .AssociationResponse readAssociationResponse _ _ _ (fun h => by cases h)
      (c22_association_response.reads ⟨c, s, a, e⟩ hl hne) rBlock [aArm, qArm] [dArm, xArm] (by
        intro b hb
        simp only [List.mem_cons, List.not_mem_nil, or_false] at hb
        rcases hb with rfl | rfl <;> exact other _ _ (by decide))
    simp only [hear]
    erw [this]
  | disassociation r =>
    have := key .Disassociation readDisassociation _ _ _ (fun h => by cases h)
      (c22_disassociation.reads ⟨r, e⟩ hl hne) dBlock [aArm, qArm, rArm] [xArm] (by
        intro b hb
        simp only [List.mem_cons, List.not_mem_nil, or_false] at hb
        rcases hb with rfl | rfl | rfl <;> exact other _ _ (by decide))
    simp only [hear]
    erw [this]
  | deauthentication r =>
    have := key .Deauthentication readDeauthentication _ _ _ (fun h => by cases h)
      (c22_deauthentication.reads ⟨r, e⟩ hl hne) xBlock [aArm, qArm, rArm, dArm] [] (by
        intro b hb
        simp only [List.mem_cons, List.not_mem_nil, or_false] at hb
        rcases hb with rfl | rfl | rfl | rfl <;> exact other _ _ (by decide))
    simp only [hear]
    erw [this]

/-- A letter that is posted is heard, whatever elements come with it.  Partial: codes and association IDs are ones the
library can return, HT control agrees with the order bit, and under the strict rule of `scroll` there is an element, see
`c97_bare_lost`. -/
theorem c97_heard_partial (h : ManagementFrameHeader) (hc : HtConsistent h) (l : Letter) (hl : l.Valid) (els : Obj)
    (e : Bytes) (m : Nat) (he : Emits els.write e m) (hne : slack ≤ e.length) (fcs : Bool) (buf : Bytes)
    (hb : 50 + m ≤ buf.length) :
    ∃ frame, post h l els fcs buf = .ok frame ∧ hear fcs frame = .ok (some (h, l)) :=
  ⟨_, posted h l els e m he fcs buf hb, heard h hc l hl e hne fcs⟩

private def Body : MgmtKind → Type
  | .Authentication => AuthenticationBody Bytes
  | .AssociationRequest => AssociationRequestBody Bytes
  | .AssociationResponse => AssociationResponseBody Bytes
  | .Disassociation => ReasonBody Bytes
  | .Deauthentication => ReasonBody Bytes
  | _ => Unit

private def readOf : (k : MgmtKind) → Reader (Body k)
  | .Authentication => readAuthentication
  | .AssociationRequest => readAssociationRequest
  | .AssociationResponse => readAssociationResponse
  | .Disassociation => readDisassociation
  | .Deauthentication => readDeauthentication
  | .ProbeRequest | .ProbeResponse | .Beacon | .RawAction | .VendorAction | .MeshPeeringOpen | .MeshPeeringConfirm
  | .MeshPeeringClose => fun _ => .err .badInput

private def blockOf : (k : MgmtKind) → ManagementFrameHeader × Body k → ManagementFrameHeader × Letter
  | .Authentication => aBlock
  | .AssociationRequest => qBlock
  | .AssociationResponse => rBlock
  | .Disassociation => dBlock
  | .Deauthentication => xBlock
  | .ProbeRequest | .ProbeResponse | .Beacon | .RawAction | .VendorAction | .MeshPeeringOpen | .MeshPeeringConfirm
  | .MeshPeeringClose => fun r => (r.1, .request ⟨0⟩ 0)

omit [Crc32] in
private theorem readOf_safe (k : MgmtKind) : SafeReader (readOf k) := by
  cases k <;> first
    | exact readAuthentication_safe
    | exact readAssociationRequest_safe
    | exact readAssociationResponse_safe
    | exact readDisassociation_safe
    | exact readDeauthentication_safe
    | (intro inp; simp [readOf])

private def letterKinds : List MgmtKind :=
  [.Authentication, .AssociationRequest, .AssociationResponse, .Disassociation, .Deauthentication]

private theorem hear_match (fcs : Bool) (frame : Bytes) :
    hear fcs frame = match matchFrames frame (if fcs then some true else none)
      (letterKinds.map fun k => armOf k.frame (readMgmtFrame (readOf k)) (blockOf k)) with
    | .panic => .panic
    | .err _ => .ok none
    | .ok (_, x) => .ok (some x) := rfl

/-- Nothing panics, unless a check sequence is expected in fewer than four bytes. -/
theorem c97_panics_iff (fcs : Bool) (frame : Bytes) : hear fcs frame = .panic ↔ fcs = true ∧ frame.length < 4 := by
  rw [← (match_mgmt_each readOf readOf_safe blockOf letterKinds (by decide) fcs frame).1, hear_match]
  split <;> simp_all

/-- Whatever is received, a letter is taken only from a frame that carries it: the frame has the subtype of the letter, the
header is what the letter is said to come with, and the fields are those of the letter; but in an answer the two top bits
of an association ID may be missing. -/
theorem c97_heard_only (fcs : Bool) (frame : Bytes) (h : ManagementFrameHeader) (l : Letter)
    (hr : hear fcs frame = .ok (some (h, l))) :
    ∃ (b0 : Byte) (fx els : Bytes), frame = withFcs fcs (b0 :: h.fcf_flags.bits :: (mgmtHeaderWire h ++ (fx ++ els))) ∧
      b0.toNat / 4 % 4 = 0 ∧ b0.toNat / 16 = l.number ∧ HtConsistent h ∧ l.Valid ∧ slack ≤ els.length ∧
      (fx = l.fields ∨ l.number = 1 ∧ SameAid 4 fx l.fields) := by
  have hm := (match_mgmt_each readOf readOf_safe blockOf letterKinds (by decide) fcs frame).2.2
  rw [hear_match] at hr
  split at hr
  · cases hr
  · cases hr
  · rename_i j x hx
    simp only [Res.ok.injEq, Option.some.injEq] at hr
    subst hr
    obtain ⟨inner, hin, k, hk, hkind, ⟨hd, body⟩, n, hread, hxb⟩ := hm _ _ hx
    have hb : Bounded (readOf k) := by
      intro inp b n hb
      cases k
      case Authentication =>
        obtain ⟨_, _, _, _, h, _⟩ := c22_authentication.parse inp b n hb
        omega
      case AssociationRequest =>
        obtain ⟨_, _, _, _, h, _⟩ := c22_association_request.parse inp b n hb
        omega
      case AssociationResponse =>
        obtain ⟨_, _, _, _, h, _⟩ := c22_association_response.parse inp b n hb
        omega
      case Disassociation =>
        obtain ⟨_, _, _, _, h, _⟩ := c22_disassociation.parse inp b n hb
        omega
      case Deauthentication =>
        obtain ⟨_, _, _, _, h, _⟩ := c22_deauthentication.parse inp b n hb
        omega
      all_goals cases hb
    obtain ⟨b0, rest, m, h1, h2, h3, h4, -⟩ := c23_parse _ hb false inner hd body n hread
    obtain ⟨c0, c1, r', hcc, hk1, hk2, -⟩ := hkind
    rw [h1] at hcc
    simp only [withFcs, Bool.false_eq_true, if_false, List.cons.injEq] at hcc
    obtain ⟨rfl, -⟩ := hcc
    have fin : ∀ (fx els : Bytes), rest = fx ++ els → h = hd → kindNumber k = l.number → l.Valid → slack ≤ els.length →
        (fx = l.fields ∨ l.number = 1 ∧ SameAid 4 fx l.fields) →
        ∃ (b0 : Byte) (fx els : Bytes),
          frame = withFcs fcs (b0 :: h.fcf_flags.bits :: (mgmtHeaderWire h ++ (fx ++ els))) ∧
          b0.toNat / 4 % 4 = 0 ∧ b0.toNat / 16 = l.number ∧ HtConsistent h ∧ l.Valid ∧ slack ≤ els.length ∧
          (fx = l.fields ∨ l.number = 1 ∧ SameAid 4 fx l.fields) := by
      intro fx els hrest hh hn hv hsl hf
      subst hh
      refine ⟨b0, fx, els, ?_, hk1, hk2.trans hn, h3, hv, hsl, hf⟩
      rw [hin, h1, hrest]
      rfl
    have hsl : ∀ (n : Nat) (fx els : Bytes), rest = fx ++ els → fx.length = n → n + slack ≤ rest.length →
        slack ≤ els.length := by
      intro n fx els h1 h2 h3
      rw [h1, List.length_append] at h3
      omega
    simp only [letterKinds, List.mem_cons, List.not_mem_nil, or_false] at hk
    rcases hk with rfl | rfl | rfl | rfl | rfl
    · obtain ⟨fx, g1, g2, g3, -, g5⟩ := c22_authentication.parse _ _ _ h4
      simp only [blockOf, aBlock, Prod.mk.injEq] at hxb
      obtain ⟨hh, rfl⟩ := hxb
      exact fin _ _ g1 hh rfl g5 (hsl _ _ _ g1 g2 (Nat.le_of_not_lt fun hlt => by
        obtain ⟨_, hx⟩ := c22_authentication.short rest hlt
        exact absurd (h4.symm.trans hx) (by simp))) (.inl g3)
    · obtain ⟨fx, g1, g2, g3, -, g5⟩ := c22_association_request.parse _ _ _ h4
      simp only [blockOf, qBlock, Prod.mk.injEq] at hxb
      obtain ⟨hh, rfl⟩ := hxb
      exact fin _ _ g1 hh rfl g5 (hsl _ _ _ g1 g2 (Nat.le_of_not_lt fun hlt => by
        obtain ⟨_, hx⟩ := c22_association_request.short rest hlt
        exact absurd (h4.symm.trans hx) (by simp))) (.inl g3)
    · obtain ⟨fx, g1, g2, g3, -, g5⟩ := c22_association_response.parse _ _ _ h4
      simp only [blockOf, rBlock, Prod.mk.injEq] at hxb
      obtain ⟨hh, rfl⟩ := hxb
      exact fin _ _ g1 hh rfl g5 (hsl _ _ _ g1 g2 (Nat.le_of_not_lt fun hlt => by
        obtain ⟨_, hx⟩ := c22_association_response.short rest hlt
        exact absurd (h4.symm.trans hx) (by simp))) (g3.imp id fun g => ⟨rfl, g⟩)
    · obtain ⟨fx, g1, g2, g3, -, g5⟩ := c22_disassociation.parse _ _ _ h4
      simp only [blockOf, dBlock, Prod.mk.injEq] at hxb
      obtain ⟨hh, rfl⟩ := hxb
      exact fin _ _ g1 hh rfl g5 (hsl _ _ _ g1 g2 (Nat.le_of_not_lt fun hlt => by
        obtain ⟨_, hx⟩ := c22_disassociation.short rest hlt
        exact absurd (h4.symm.trans hx) (by simp))) (.inl g3)
    · obtain ⟨fx, g1, g2, g3, -, g5⟩ := c22_deauthentication.parse _ _ _ h4
      simp only [blockOf, xBlock, Prod.mk.injEq] at hxb
      obtain ⟨hh, rfl⟩ := hxb
      exact fin _ _ g1 hh rfl g5 (hsl _ _ _ g1 g2 (Nat.le_of_not_lt fun hlt => by
        obtain ⟨_, hx⟩ := c22_deauthentication.short rest hlt
        exact absurd (h4.symm.trans hx) (by simp))) (.inl g3)

/-! ## The network -/

end Frames

/-- Every letter that can be received arrives. -/
private def Faithful (mail : Mail) : Prop := ∀ src dst l, l.Valid → mail src dst l = .ok (some (src, l))

private theorem overAir_faithful [ScrollRule] [Crc32] (h : ManagementFrameHeader) (hc : HtConsistent h) (bssid : Mac)
    (els : Obj) (e : Bytes) (m : Nat) (he : Emits els.write e m) (hne : slack ≤ e.length) (fcs : Bool) (buf : Bytes)
    (hb : 50 + m ≤ buf.length) : Faithful (overAir h bssid els fcs buf) := by
  intro src dst l hl
  obtain ⟨frame, h1, h2⟩ := c97_heard_partial
    { h with receiver_address := dst, transmitter_address := src, bssid := bssid } hc l hl els e m he hne fcs buf hb
  simp only [overAir, h1, Res.ok_bind, h2, if_true]
  rfl

private theorem standing_mem (t : Register) (m : Mac) (h : standing t m ≠ .stranger) : ∃ s, (m, s) ∈ t := by
  induction t with
  | nil => exact absurd rfl h
  | cons p t ih =>
    obtain ⟨x, s⟩ := p
    by_cases hx : x = m
    · exact ⟨s, by simp [hx]⟩
    · simp only [standing, if_neg hx] at h
      obtain ⟨s', hs⟩ := ih h
      exact ⟨s', by simp [hs]⟩

private theorem inUse_iff (t : Register) (n : Nat) :
    inUse t n = true ↔ ∃ m a, standing t m = .member a ∧ a.aid.toNat = n := by
  simp only [inUse, List.any_eq_true]
  constructor
  · rintro ⟨p, hp, h⟩
    cases hs : standing t p.1 with
    | member a =>
      rw [hs] at h
      exact ⟨p.1, a, hs, by simpa using h⟩
    | stranger => rw [hs] at h; cases h
    | authenticated => rw [hs] at h; cases h
  · rintro ⟨m, a, h1, h2⟩
    obtain ⟨s, hs⟩ := standing_mem t m (by rw [h1]; simp)
    refine ⟨(m, s), hs, ?_⟩
    simp only [h1]
    simpa using h2

private theorem freeAid_some (t : Register) (a : AssociationID) (h : freeAid t = some a) :
    IsAid a ∧ 1 ≤ a.aid.toNat ∧ a.aid.toNat ≤ 2007 ∧ inUse t a.aid.toNat = false := by
  obtain ⟨i, hi, ha⟩ := Option.bind_eq_some_iff.1 h
  have h1 := List.find?_some hi
  have h2 := List.mem_range.1 (List.mem_of_find?_eq_some hi)
  obtain ⟨-, g2⟩ := (c04_new_checked _ _).1 ha
  have g3 := c04_aid _ _ ha
  have g4 : (BitVec.ofNat 16 (i + 1)).toNat % 2 ^ 14 = i + 1 := by
    rw [BitVec.toNat_ofNat]
    omega
  rw [g4] at g2 g3
  rw [AssociationID.intoBits] at g2
  refine ⟨⟨by omega, by omega⟩, by omega, by omega, ?_⟩
  rw [g3]
  simpa using h1

private theorem freeAid_none (t : Register) (h : freeAid t = none) (n : Nat) (h1 : 1 ≤ n) (h2 : n ≤ 2007) :
    inUse t n = true := by
  rw [freeAid, Option.bind_eq_none_iff] at h
  cases hf : (List.range 2007).find? fun i => !inUse t (i + 1) with
  | none =>
    have := List.find?_eq_none.1 hf (n - 1) (List.mem_range.2 (by omega))
    rw [show n - 1 + 1 = n by omega] at this
    simpa using this
  | some i =>
    have h3 := List.mem_range.1 (List.mem_of_find?_eq_some hf)
    have := (c04_refused _).1 (h i hf)
    rw [BitVec.toNat_ofNat] at this
    omega

/-- The station and its entry change. -/
private def moved (w : World) (m : Mac) (s : Standing) : World :=
  ⟨(m, s) :: w.table, fun x => if m = x then s else w.station x⟩

private theorem believes_same (w : World) (m : Mac) (s : Standing) (h : s = w.station m) : w.believes m s = w := by
  subst h
  cases w
  simp only [World.believes, World.mk.injEq, true_and]
  funext x
  split
  · rename_i h; rw [h]
  · rfl

private theorem moves_sound (w : World) (hw : w.Sound) (m : Mac) (s : Standing)
    (hs : ∀ a, s = .member a → IsAid a ∧ 1 ≤ a.aid.toNat ∧ a.aid.toNat ≤ 2007 ∧
      ∀ m' a', m ≠ m' → w.station m' = .member a' → a'.aid.toNat ≠ a.aid.toNat) : (moved w m s).Sound := by
  refine ⟨fun x => ?_, fun x a hx => ?_, fun x y a b hx hy hab => ?_⟩
  · simp only [moved, standing, hw.agree]
  · simp only [moved] at hx
    split at hx
    · obtain ⟨h1, h2, h3, -⟩ := hs a hx
      exact ⟨h2, h3, h1⟩
    · exact hw.aids x a hx
  · simp only [moved] at hx hy
    split at hx <;> split at hy
    · rename_i h1 h2; exact h1.symm.trans h2
    · rename_i h1 h2
      exact absurd hab.symm ((hs a hx).2.2.2 y b h2 hy)
    · rename_i h1 h2
      exact absurd hab ((hs b hy).2.2.2 x a h1 hx)
    · exact hw.apart x y a b hx hy hab

private theorem toStation_run {mail : Mail} (hm : Faithful mail) (ap m : Mac) (l : Letter) (hl : l.Valid) (w : World) :
    toStation mail ap m l w = .ok (w.believes m ((w.station m).after l)) := by
  simp only [toStation, hm ap m l hl, Res.ok_bind, if_true]
  rfl

private theorem toAccessPoint_run {mail : Mail} (hm : Faithful mail) (ap m : Mac) (l : Letter) (hl : l.Valid) (w : World) :
    toAccessPoint mail ap m l w = match (serve w.table m l).2 with
      | some a => toStation mail ap m a ⟨(serve w.table m l).1, w.station⟩
      | none => .ok ⟨(serve w.table m l).1, w.station⟩ := by
  simp only [toAccessPoint, hm m ap l hl, Res.ok_bind]
  rfl

/-- The fate of a station that writes to its access point. -/
private def fate (free : Option AssociationID) (s : Standing) : Letter → Standing
  | .authentication a n _ => if a = .OpenSystem ∧ n = 1 then .authenticated else s
  | .request _ _ =>
    match s with
    | .authenticated => match free with
      | some a => .member a
      | none => .authenticated
    | s => s
  | _ => s

private theorem moved_station (w : World) (m : Mac) (s : Standing) :
    (moved w m s).station m = s ∧ ∀ x, x ≠ m → (moved w m s).station x = w.station x :=
  ⟨by simp [moved], fun x hx => by simp [moved, hx.symm]⟩

private theorem letter_run (w : World) (hw : w.Sound) (ap m : Mac) (l : Letter) (hl : l.Valid)
    (hk : l.number = 11 ∨ l.number = 0) :
    ∃ w', (∀ mail, Faithful mail → toAccessPoint mail ap m l w = .ok w') ∧ w'.Sound ∧
      (w' = w ∧ fate (freeAid w.table) (w.station m) l = w.station m ∨
        w' = moved w m (fate (freeAid w.table) (w.station m) l)) := by
  have hag := hw.agree m
  cases l with
  | response => simp [Letter.number] at hk
  | disassociation => simp [Letter.number] at hk
  | deauthentication => simp [Letter.number] at hk
  | authentication a n r =>
    by_cases ha : a = .OpenSystem
    · by_cases hn : n = 1
      · subst ha hn
        refine ⟨moved w m .authenticated, fun mail hm => ?_, moves_sound w hw m _ (by simp), .inr (by simp [fate])⟩
        rw [toAccessPoint_run hm ap m _ hl]
        simp only [serve, ne_eq, not_true, if_false]
        rw [toStation_run hm ap m (.authentication .OpenSystem 2 .Success) ⟨IEEE80211AuthenticationAlgorithmNumber.canonical_fromBits 0,
          IEEE80211StatusCode.canonical_fromBits 0⟩]
        simp [World.believes, moved, Standing.after]
      · refine ⟨w, fun mail hm => ?_, hw, .inl ⟨rfl, by rw [fate, if_neg fun h => hn h.2]⟩⟩
        rw [toAccessPoint_run hm ap m _ hl]
        simp only [serve, ne_eq, ha, not_true, if_false, hn, not_false_eq_true, if_true]
        rw [toStation_run hm ap m (.authentication .OpenSystem (n + 1) .TransactionSequenceError) ⟨ha ▸ hl.1, IEEE80211StatusCode.canonical_fromBits 14⟩]
        rw [believes_same _ _ _ (by simp [Standing.after])]
    · refine ⟨w, fun mail hm => ?_, hw, .inl ⟨rfl, by simp [fate, ha]⟩⟩
      rw [toAccessPoint_run hm ap m _ hl]
      simp only [serve, ne_eq, ha, not_false_eq_true, if_true]
      rw [toStation_run hm ap m (.authentication a (n + 1) .UnsupportedAuthAlgorithm) ⟨hl.1, IEEE80211StatusCode.canonical_fromBits 13⟩]
      rw [believes_same _ _ _ (by simp [Standing.after])]
  | request c n =>
    cases hs : w.station m with
    | stranger =>
      rw [hs] at hag
      refine ⟨w, fun mail hm => ?_, hw, .inl ⟨rfl, by simp [fate]⟩⟩
      rw [toAccessPoint_run hm ap m _ hl]
      simp only [serve, ← hag]
      rw [toStation_run hm ap m (.deauthentication .InvalidClass2Frame) (IEEE80211Reason.canonical_fromBits 6)]
      rw [believes_same _ _ _ (by simp [Standing.after, hs])]
    | member a =>
      rw [hs] at hag
      refine ⟨w, fun mail hm => ?_, hw, .inl ⟨rfl, by simp [fate]⟩⟩
      rw [toAccessPoint_run hm ap m _ hl]
      simp only [serve, ← hag]
      rw [toStation_run hm ap m (.response c .Success (some a)) ⟨IEEE80211StatusCode.canonical_fromBits 0, by
        intro x hx
        cases hx
        exact (hw.aids m a hs).2.2⟩]
      rw [believes_same _ _ _ (by simp [Standing.after, hs])]
    | authenticated =>
      rw [hs] at hag
      cases hf : freeAid w.table with
      | none =>
        refine ⟨w, fun mail hm => ?_, hw, .inl ⟨rfl, by simp [fate]⟩⟩
        rw [toAccessPoint_run hm ap m _ hl]
        simp only [serve, ← hag, hf]
        rw [toStation_run hm ap m (.response c .DeniedNoMoreStas none) ⟨IEEE80211StatusCode.canonical_fromBits 17, by simp⟩]
        rw [believes_same _ _ _ (by simp [Standing.after, hs])]
      | some a =>
        obtain ⟨g1, g2, g3, g4⟩ := freeAid_some _ _ hf
        refine ⟨moved w m (.member a), fun mail hm => ?_, moves_sound w hw m _ ?_, .inr (by simp [fate])⟩
        · rw [toAccessPoint_run hm ap m _ hl]
          simp only [serve, ← hag, hf]
          rw [toStation_run hm ap m (.response c .Success (some a)) ⟨IEEE80211StatusCode.canonical_fromBits 0, by
            intro x hx
            cases hx
            exact g1⟩]
          simp [World.believes, moved, Standing.after, hs]
        · intro b hb
          cases hb
          refine ⟨g1, g2, g3, fun m' a' _ hm' he => ?_⟩
          rw [hw.agree] at hm'
          rw [(inUse_iff _ _).2 ⟨m', a', hm', he⟩] at g4
          cases g4

/-- Everything that happens leads from one sound world to another, whatever carries the letters faithfully; only the station
concerned changes. -/
private theorem happening_run (w : World) (hw : w.Sound) (ap : Mac) (e : Happening) (he : e.Valid) :
    ∃ w', (∀ mail, Faithful mail → e.run mail ap w = .ok w') ∧ w'.Sound ∧
      match e with
      | .joins m _ _ => (∀ x, x ≠ m → w'.station x = w.station x) ∧
          ((∃ a, w'.station m = .member a ∧ freeAid ((m, .authenticated) :: w.table) = some a) ∨
            w'.station m = .authenticated ∧ freeAid ((m, .authenticated) :: w.table) = none)
      | .asks m c n => (∀ x, x ≠ m → w'.station x = w.station x) ∧
          w'.station m = fate (freeAid w.table) (w.station m) (.request c n)
      | .tries m a n => (∀ x, x ≠ m → w'.station x = w.station x) ∧
          w'.station m = if a = .OpenSystem ∧ n = 1 then .authenticated else w.station m
      | .leaves m _ | .dropped m _ => (∀ x, x ≠ m → w'.station x = w.station x) ∧
          w'.station m = match w.station m with
            | .member _ => .authenticated
            | s => s
      | .departs m _ | .expelled m _ => (∀ x, x ≠ m → w'.station x = w.station x) ∧ w'.station m = .stranger := by
  have step : ∀ (w : World) (hw : w.Sound) (m : Mac) (l : Letter) (_ : l.Valid) (_ : l.number = 11 ∨ l.number = 0),
      ∃ w', (∀ mail, Faithful mail → toAccessPoint mail ap m l w = .ok w') ∧ w'.Sound ∧
        (∀ x, x ≠ m → w'.station x = w.station x) ∧ w'.station m = fate (freeAid w.table) (w.station m) l := by
    intro w hw m l hl hk
    obtain ⟨w', h1, h2, ⟨rfl, h3⟩ | rfl⟩ := letter_run w hw ap m l hl hk
    · exact ⟨w', h1, h2, fun _ _ => rfl, h3.symm⟩
    · exact ⟨_, h1, h2, (moved_station w m _).2, (moved_station w m _).1⟩
  cases e with
  | joins m c n =>
    have hv : (Letter.authentication .OpenSystem 1 .Success).Valid :=
      ⟨IEEE80211AuthenticationAlgorithmNumber.canonical_fromBits 0, IEEE80211StatusCode.canonical_fromBits 0⟩
    obtain ⟨w1, h1, h2, h3⟩ := letter_run w hw ap m _ hv (.inl rfl)
    have h3' : w1.station m = .authenticated ∧ (∀ x, x ≠ m → w1.station x = w.station x) ∧
        ∀ n, inUse w1.table n = inUse ((m, .authenticated) :: w.table) n := by
      have hf : fate (freeAid w.table) (w.station m) (.authentication .OpenSystem 1 .Success) = .authenticated := by
        simp [fate]
      rw [hf] at h3
      rcases h3 with ⟨rfl, h3⟩ | rfl
      · refine ⟨h3.symm, fun _ _ => rfl, fun n => ?_⟩
        have : ∀ x, standing ((m, .authenticated) :: w1.table) x = standing w1.table x := by
          intro x
          simp only [standing]
          split
          · rename_i hx
            rw [← hx, ← hw.agree m, ← h3]
          · rfl
        rw [Bool.eq_iff_iff, inUse_iff, inUse_iff]
        simp only [this]
      · exact ⟨(moved_station w m _).1, (moved_station w m _).2, fun _ => rfl⟩
    obtain ⟨w2, g1, g2, g3, g4⟩ := step w1 h2 m (.request c n) trivial (.inr rfl)
    refine ⟨w2, fun mail hm => ?_, g2, fun x hx => (g3 x hx).trans (h3'.2.1 x hx), ?_⟩
    · simp only [Happening.run, h1 mail hm, Res.ok_bind, g1 mail hm]
    · have : freeAid w1.table = freeAid ((m, .authenticated) :: w.table) := by
        simp only [freeAid, h3'.2.2]
      rw [h3'.1, this] at g4
      cases hf : freeAid ((m, .authenticated) :: w.table) with
      | some a => rw [hf] at g4; exact .inl ⟨a, g4, rfl⟩
      | none => rw [hf] at g4; exact .inr ⟨g4, rfl⟩
  | asks m c n => exact step w hw m (.request c n) trivial (.inr rfl)
  | tries m a n =>
    exact step w hw m (.authentication a n .Success) ⟨he, IEEE80211StatusCode.canonical_fromBits 0⟩ (.inl rfl)
  | leaves m r =>
    have hag := hw.agree m
    cases hs : w.station m with
    | member a =>
      rw [hs] at hag
      refine ⟨moved w m .authenticated, fun mail hm => ?_, moves_sound w hw m _ (by simp), (moved_station w m _).2,
        by rw [hs]; exact (moved_station w m _).1⟩
      simp only [Happening.run]
      rw [toAccessPoint_run hm ap m (.disassociation r) he]
      simp [serve, World.believes, ← hag, moved, hs, Standing.after]
    | stranger =>
      rw [hs] at hag
      refine ⟨w, fun mail hm => ?_, hw, fun _ _ => rfl, by rw [hs]⟩
      simp only [Happening.run]
      rw [toAccessPoint_run hm ap m (.disassociation r) he, believes_same _ _ _ (by simp [Standing.after, hs])]
      simp [serve, ← hag]
    | authenticated =>
      rw [hs] at hag
      refine ⟨w, fun mail hm => ?_, hw, fun _ _ => rfl, by rw [hs]⟩
      simp only [Happening.run]
      rw [toAccessPoint_run hm ap m (.disassociation r) he, believes_same _ _ _ (by simp [Standing.after, hs])]
      simp [serve, ← hag]
  | departs m r =>
    refine ⟨moved w m .stranger, fun mail hm => ?_, moves_sound w hw m _ (by simp), (moved_station w m _).2,
      (moved_station w m _).1⟩
    simp only [Happening.run]
    rw [toAccessPoint_run hm ap m (.deauthentication r) he]
    simp [serve, World.believes, moved]
  | dropped m r =>
    have hag := hw.agree m
    cases hs : w.station m with
    | member a =>
      rw [hs] at hag
      refine ⟨moved w m .authenticated, fun mail hm => ?_, moves_sound w hw m _ (by simp), (moved_station w m _).2,
        by rw [hs]; exact (moved_station w m _).1⟩
      simp only [Happening.run, ← hag]
      rw [toStation_run hm ap m (.disassociation r) he]
      simp [World.believes, moved, hs, Standing.after]
    | stranger =>
      rw [hs] at hag
      exact ⟨w, fun mail hm => by simp only [Happening.run, ← hag]; rfl, hw, fun _ _ => rfl, by rw [hs]⟩
    | authenticated =>
      rw [hs] at hag
      exact ⟨w, fun mail hm => by simp only [Happening.run, ← hag]; rfl, hw, fun _ _ => rfl, by rw [hs]⟩
  | expelled m r =>
    refine ⟨moved w m .stranger, fun mail hm => ?_, moves_sound w hw m _ (by simp), (moved_station w m _).2,
      (moved_station w m _).1⟩
    simp only [Happening.run]
    rw [toStation_run hm ap m (.deauthentication r) he]
    simp [World.believes, moved, Standing.after]

/-! ## The property -/

section Property

variable [ScrollRule] [Crc32]

/-- After whatever happens in a network, every station knows where it stands with the access point, members have
association IDs, and no two have the same; all is as if letters were handed over instead of frames.  Partial: as for
`c97_heard_partial`. -/
theorem c97_agree_partial (h : ManagementFrameHeader) (hc : HtConsistent h) (bssid : Mac) (els : Obj) (e : Bytes) (m : Nat)
    (he : Emits els.write e m) (hne : slack ≤ e.length) (fcs : Bool) (buf : Bytes) (hb : 50 + m ≤ buf.length)
    (es : List Happening) (hes : ∀ x ∈ es, x.Valid) (w : World) (hw : w.Sound) :
    ∃ w', runAll (overAir h bssid els fcs buf) bssid w es = .ok w' ∧ w'.Sound ∧
      runAll (fun src _ l => .ok (some (src, l))) bssid w es = .ok w' := by
  have hair := overAir_faithful h hc bssid els e m he hne fcs buf hb
  induction es generalizing w with
  | nil => exact ⟨w, rfl, hw, rfl⟩
  | cons x es ih =>
    obtain ⟨w1, h1, h2, -⟩ := happening_run w hw bssid x (hes x (by simp))
    obtain ⟨w2, g1, g2, g3⟩ := ih (fun y hy => hes y (by simp [hy])) w1 h2
    refine ⟨w2, ?_, g2, ?_⟩
    · simp only [runAll, h1 _ hair, Res.ok_bind, g1]
    · simp only [runAll, h1 _ (fun _ _ _ _ => rfl), Res.ok_bind, g3]

/-- A station that joins becomes a member, unless other stations have all 2007 association IDs; then it is authenticated
only.  For the other stations nothing changes.  Partial as before. -/
theorem c97_joins_partial (h : ManagementFrameHeader) (hc : HtConsistent h) (bssid : Mac) (els : Obj) (e : Bytes) (k : Nat)
    (he : Emits els.write e k) (hne : slack ≤ e.length) (fcs : Bool) (buf : Bytes) (hb : 50 + k ≤ buf.length)
    (w : World) (hw : w.Sound) (m : Mac) (caps : CapabilitiesInformation) (listen : BitVec 16) :
    ∃ w', runAll (overAir h bssid els fcs buf) bssid w [.joins m caps listen] = .ok w' ∧
      ((∃ a, w'.station m = .member a) ↔
        ∃ n, 1 ≤ n ∧ n ≤ 2007 ∧ ∀ x a, x ≠ m → w.station x = .member a → a.aid.toNat ≠ n) ∧
      ((∃ a, w'.station m = .member a) ∨ w'.station m = .authenticated) ∧
      ∀ x, x ≠ m → w'.station x = w.station x := by
  have hair := overAir_faithful h hc bssid els e k he hne fcs buf hb
  obtain ⟨w1, h1, h2, h3, h4⟩ := happening_run w hw bssid (.joins m caps listen) trivial
  have hx : ∀ x a, standing ((m, .authenticated) :: w.table) x = .member a ↔ x ≠ m ∧ w.station x = .member a := by
    intro x a
    simp only [standing, hw.agree]
    by_cases hx : m = x
    · simp [hx]
    · have hx' : x ≠ m := fun h => hx h.symm
      simp [hx, hx']
  refine ⟨w1, by simp only [runAll, h1 _ hair, Res.ok_bind], ⟨?_, ?_⟩, ?_, h3⟩
  · rintro ⟨a, ha⟩
    rcases h4 with ⟨b, hb, hf⟩ | ⟨hb, -⟩
    · obtain ⟨-, g2, g3, g4⟩ := freeAid_some _ _ hf
      refine ⟨b.aid.toNat, g2, g3, fun x c hxm hxc hcb => ?_⟩
      rw [(inUse_iff _ _).2 ⟨x, c, (hx x c).2 ⟨hxm, hxc⟩, hcb⟩] at g4
      cases g4
    · rw [hb] at ha; cases ha
  · rintro ⟨n, n1, n2, hn⟩
    rcases h4 with ⟨b, hb, -⟩ | ⟨-, hf⟩
    · exact ⟨b, hb⟩
    · obtain ⟨x, a, hs, ha⟩ := (inUse_iff _ _).1 (freeAid_none _ hf n n1 n2)
      obtain ⟨g1, g2⟩ := (hx x a).1 hs
      exact absurd ha (hn x a g1 g2)
  · rcases h4 with ⟨b, hb, -⟩ | ⟨hb, -⟩
    · exact .inl ⟨b, hb⟩
    · exact .inr hb

/-- A member that leaves or is dropped stays authenticated; a station that departs or is expelled is a stranger again,
whatever it was; and nobody becomes a member without being authenticated, or authenticated by another method or another step
than the first of open system authentication.  Partial as before. -/
theorem c97_ends_partial (h : ManagementFrameHeader) (hc : HtConsistent h) (bssid : Mac) (els : Obj) (e : Bytes) (k : Nat)
    (he : Emits els.write e k) (hne : slack ≤ e.length) (fcs : Bool) (buf : Bytes) (hb : 50 + k ≤ buf.length)
    (w : World) (hw : w.Sound) (m : Mac) (r : IEEE80211Reason) (hr : r.Canonical) (a : AssociationID)
    (alg : IEEE80211AuthenticationAlgorithmNumber) (halg : alg.Canonical) (step : BitVec 16)
    (hst : ¬ (alg = .OpenSystem ∧ step = 1)) (caps : CapabilitiesInformation) (listen : BitVec 16) :
    let run := fun x => runAll (overAir h bssid els fcs buf) bssid w [x]
    (w.station m = .member a → ∃ w1 w2, run (.leaves m r) = .ok w1 ∧ run (.dropped m r) = .ok w2 ∧
      w1.station m = .authenticated ∧ standing w1.table m = .authenticated ∧ w2.station m = .authenticated ∧
      standing w2.table m = .authenticated) ∧
    (∃ w1 w2, run (.departs m r) = .ok w1 ∧ run (.expelled m r) = .ok w2 ∧ w1.station m = .stranger ∧
      standing w1.table m = .stranger ∧ w2.station m = .stranger ∧ standing w2.table m = .stranger) ∧
    (∃ w1, run (.tries m alg step) = .ok w1 ∧ w1.station = w.station ∧ standing w1.table = standing w.table) ∧
    (w.station m = .stranger → ∃ w1, run (.asks m caps listen) = .ok w1 ∧ w1.station = w.station ∧
      standing w1.table = standing w.table) := by
  have hair := overAir_faithful h hc bssid els e k he hne fcs buf hb
  have one : ∀ x w1, (∀ mail, Faithful mail → x.run mail bssid w = .ok w1) →
      runAll (overAir h bssid els fcs buf) bssid w [x] = .ok w1 := by
    intro x w1 h1
    simp only [runAll, h1 _ hair, Res.ok_bind]
  have same : ∀ w1 : World, w1.Sound → (∀ x, x ≠ m → w1.station x = w.station x) → w1.station m = w.station m →
      w1.station = w.station ∧ standing w1.table = standing w.table := by
    intro w1 h1 h2 h3
    have : w1.station = w.station := by
      funext x
      by_cases hx : x = m
      · rw [hx, h3]
      · exact h2 x hx
    refine ⟨this, ?_⟩
    funext x
    rw [← h1.agree, ← hw.agree, this]
  refine ⟨fun hm => ?_, ?_, ?_, fun hm => ?_⟩
  · obtain ⟨w1, a1, a2, -, a3⟩ := happening_run w hw bssid (.leaves m r) hr
    obtain ⟨w2, b1, b2, -, b3⟩ := happening_run w hw bssid (.dropped m r) hr
    rw [hm] at a3 b3
    exact ⟨w1, w2, one _ _ a1, one _ _ b1, a3, by rw [← a2.agree, a3], b3, by rw [← b2.agree, b3]⟩
  · obtain ⟨w1, a1, a2, -, a3⟩ := happening_run w hw bssid (.departs m r) hr
    obtain ⟨w2, b1, b2, -, b3⟩ := happening_run w hw bssid (.expelled m r) hr
    exact ⟨w1, w2, one _ _ a1, one _ _ b1, a3, by rw [← a2.agree, a3], b3, by rw [← b2.agree, b3]⟩
  · obtain ⟨w1, a1, a2, a3, a4⟩ := happening_run w hw bssid (.tries m alg step) halg
    rw [if_neg hst] at a4
    exact ⟨w1, one _ _ a1, same w1 a2 a3 a4⟩
  · obtain ⟨w1, a1, a2, a3, a4⟩ := happening_run w hw bssid (.asks m caps listen) trivial
    rw [hm] at a4
    exact ⟨w1, one _ _ a1, same w1 a2 a3 (a4.trans hm.symm)⟩

/-! ## Where it fails -/

omit [ScrollRule] in
private theorem withFcs_inj (fcs : Bool) (a b : Bytes) (h : withFcs fcs a = withFcs fcs b) : a = b := by
  cases fcs
  · exact h
  · exact List.append_inj_left' h (by simp)

omit [ScrollRule] [Crc32] in
private theorem header_same (g h : ManagementFrameHeader) (hg : HtConsistent g) (hh : HtConsistent h)
    (hf : g.fcf_flags = h.fcf_flags) : (mgmtHeaderWire g).length = (mgmtHeaderWire h).length := by
  rw [HtConsistent] at hg hh
  rw [← hf, ← hg] at hh
  simp only [mgmtHeaderWire, List.length_append, toLE_length, Arr.length_val]
  cases h1 : g.ht_control <;> cases h2 : h.ht_control <;> simp [optWire, h1, h2] at hh ⊢

/-- The frame of a letter that is heard, beside what was written. -/
private theorem heard_parts (fcs : Bool) (s : ManagementFrameSubtype) (h : ManagementFrameHeader) (hc : HtConsistent h)
    (body : Bytes) (g : ManagementFrameHeader) (l : Letter)
    (hr : hear fcs (withFcs fcs (mgmtFrameWire s h body)) = .ok (some (g, l))) :
    ∃ fx els, body = fx ++ els ∧ slack ≤ els.length ∧ l.Valid ∧
      (fx = l.fields ∨ l.number = 1 ∧ SameAid 4 fx l.fields) ∧
      ∃ b0, (mgmtFrameWire s h body).head? = some b0 ∧ b0.toNat / 16 = l.number := by
  obtain ⟨b0, fx, els, h1, h2, h3, h4, h5, h6, h7⟩ := c97_heard_only _ _ _ _ hr
  have h8 := withFcs_inj _ _ _ h1
  refine ⟨fx, els, ?_, h6, h5, h7, b0, by rw [h8]; rfl, h3⟩
  obtain ⟨c0, c1, hst⟩ : ∃ c0, ∃ (c1 : Unit), frameStart (.Management s) h.fcf_flags = [c0, h.fcf_flags.bits] :=
    ⟨_, (), rfl⟩
  simp only [mgmtFrameWire, hst, List.cons_append, List.nil_append, List.cons.injEq] at h8
  obtain ⟨-, h9, h10⟩ := h8
  have hf : g.fcf_flags = h.fcf_flags := by
    cases hg : g.fcf_flags
    cases hh : h.fcf_flags
    rw [hg, hh] at h9
    simp only at h9
    rw [h9]
  exact (List.append_inj h10 (header_same g h h4 hc hf).symm).2

/-- Violation: under the strict rule of `scroll` letters without elements are not understood, though open system
authentication has none (9.3.3.11), nor usually disassociation and deauthentication. -/
theorem c97_bare_lost (hs : slack = 1) (h : ManagementFrameHeader) (hc : HtConsistent h) (l : Letter) (fcs : Bool)
    (buf : Bytes) (hb : 50 ≤ buf.length) :
    ∃ frame, post h l emptyObj fcs buf = .ok frame ∧ hear fcs frame = .ok none := by
  have he : Emits emptyObj.write [] 0 := ⟨by simp, fun buf _ => by simp [emptyObj, writeEmpty], fun _ h => by omega⟩
  refine ⟨_, posted h l emptyObj [] 0 he fcs buf hb, ?_⟩
  cases hh : hear fcs (withFcs fcs (mgmtFrameWire l.kind.SUBTYPE h (l.fields ++ []))) with
  | panic =>
    obtain ⟨-, hlen⟩ := (c97_panics_iff _ _).1 hh
    cases fcs <;> simp [withFcs, mgmtFrameWire, mgmtHeaderWire] at hlen <;> omega
  | err x =>
    rw [hear] at hh
    split at hh <;> cases hh
  | ok o =>
    cases o with
    | none => rfl
    | some x =>
      exfalso
      obtain ⟨g, l'⟩ := x
      obtain ⟨fx, els, h1, h2, h3, h4, b0, h5, h6⟩ := heard_parts fcs _ h hc _ g l' hh
      have hfl : fx.length = l'.fields.length := by
        rcases h4 with rfl | ⟨-, h4⟩
        · rfl
        · exact h4.2.1
      have hn : l'.number = l.number := by
        rw [← h6]
        cases l <;> (cases h5; simp only [Letter.kind, Letter.number]; decide)
      have hll : l'.fields.length = l.fields.length := by
        revert hn
        cases l <;> cases l' <;> simp [Letter.number, Letter.fields]
      have := congrArg List.length h1
      simp at this
      omega

private theorem bare_air (hs : slack = 1) (h : ManagementFrameHeader) (hc : HtConsistent h) (bssid : Mac) (fcs : Bool)
    (buf : Bytes) (hb : 50 ≤ buf.length) (src dst : Mac) (l : Letter) :
    overAir h bssid emptyObj fcs buf src dst l = .ok none := by
  obtain ⟨frame, h1, h2⟩ := c97_bare_lost hs
    { h with receiver_address := dst, transmitter_address := src, bssid := bssid } hc l fcs buf hb
  simp only [overAir, h1, Res.ok_bind, h2]
  rfl

/-- Violation: under that rule nobody can join a network if no elements are sent, whatever the letters. -/
theorem c97_nobody_joins_wrong (hs : slack = 1) (h : ManagementFrameHeader) (hc : HtConsistent h) (bssid : Mac) (fcs : Bool)
    (buf : Bytes) (hb : 50 ≤ buf.length) (w : World) (m : Mac) (caps : CapabilitiesInformation) (listen : BitVec 16) :
    runAll (overAir h bssid emptyObj fcs buf) bssid w [.joins m caps listen] = .ok w := by
  simp [runAll, Happening.run, toAccessPoint, bare_air hs h hc bssid fcs buf hb]

/-- Violation: under that rule, when a member leaves and says so without elements, the access point still believes it to be
a member. -/
theorem c97_leaving_lost (hs : slack = 1) (h : ManagementFrameHeader) (hc : HtConsistent h) (bssid : Mac) (fcs : Bool)
    (buf : Bytes) (hb : 50 ≤ buf.length) (w : World) (hw : w.Sound) (m : Mac) (a : AssociationID)
    (hm : w.station m = .member a) (r : IEEE80211Reason) :
    ∃ w', runAll (overAir h bssid emptyObj fcs buf) bssid w [.leaves m r] = .ok w' ∧
      w'.station m = .authenticated ∧ standing w'.table m = .member a := by
  refine ⟨w.believes m .authenticated, ?_, by simp [World.believes], ?_⟩
  · simp [runAll, Happening.run, toAccessPoint, bare_air hs h hc bssid fcs buf hb, hm, Standing.after]
  · rw [World.believes, ← hw.agree, hm]

/-- Violation: a refusal is not understood if its association ID field is not zero and has no number from 1 to 2007, though
the field is meaningless in a refusal; the access points of Linux set the two top bits and no other. -/
theorem c97_refusal_lost (h : ManagementFrameHeader) (hc : HtConsistent h) (caps : CapabilitiesInformation)
    (status : IEEE80211StatusCode) (v : BitVec 16) (hv : v ≠ 0) (hv' : v.toNat % 2 ^ 14 = 0 ∨ 2007 < v.toNat % 2 ^ 14)
    (e : Bytes) (fcs : Bool) :
    hear fcs (withFcs fcs (mgmtFrameWire .AssociationResponse h
      (toLE caps.bits ++ toLE status.intoBits ++ toLE v ++ e))) = .ok none := by
  cases hh : hear fcs (withFcs fcs (mgmtFrameWire .AssociationResponse h
      (toLE caps.bits ++ toLE status.intoBits ++ toLE v ++ e))) with
  | panic =>
    obtain ⟨-, hlen⟩ := (c97_panics_iff _ _).1 hh
    cases fcs <;> simp [withFcs, mgmtFrameWire, mgmtHeaderWire] at hlen <;> omega
  | err x =>
    rw [hear] at hh
    split at hh <;> cases hh
  | ok o =>
    cases o with
    | none => rfl
    | some x =>
      exfalso
      obtain ⟨g, l⟩ := x
      obtain ⟨fx, els, h1, h2, h3, h4, b0, h5, h6⟩ := heard_parts fcs _ h hc _ g l hh
      have hn : l.number = 1 := by
        rw [← h6]
        cases h5
        decide
      cases l with
      | response c s o =>
        have hlen : fx.length = 6 := by
          rcases h4 with rfl | ⟨-, h4⟩
          · simp [Letter.fields]
          · rw [h4.2.1]; simp [Letter.fields]
        have hfx : fx = toLE caps.bits ++ toLE status.intoBits ++ toLE v :=
          (List.append_inj h1.symm (by simp [hlen])).1
        subst hfx
        have hd : ∀ (x y z : BitVec 16), (fromLE 16 ((toLE x ++ toLE y ++ toLE z).drop 4)) = z := by
          intro x y z
          rw [List.drop_left' (by simp), fromLE_toLE (by decide)]
        have key : (((o.map AssociationID.intoBits).getD 0) = v) ∨
            ((o.map AssociationID.intoBits).getD 0).toNat = 0xc000 + v.toNat % 2 ^ 14 := by
          rcases h4 with h4 | ⟨-, h4⟩
          · left
            have := congrArg (fun b => fromLE 16 (b.drop 4)) h4
            simp only [Letter.fields] at this
            rw [hd, hd] at this
            exact this.symm
          · right
            have := h4.2.2
            simp only [Letter.fields] at this
            rw [hd, hd] at this
            exact this
        cases o with
        | none =>
          simp at key
          rcases key with rfl | key
          · exact hv rfl
          · omega
        | some a =>
          obtain ⟨-, h3⟩ := h3
          obtain ⟨g1, g2⟩ := h3 a rfl
          simp only [Option.map_some, Option.getD_some, AssociationID.intoBits] at key
          rcases key with key | key
          · rw [key] at g1 g2
            omega
          · rw [key] at g1 g2
            omega
      | _ => simp [Letter.number] at hn

/-! ## Concrete cases -/

omit [Crc32] in
private theorem elements_emit (bytes : Bytes) :
    Emits (elementsObj bytes).write bytes (bytes.length + (slack - bytes.length)) := by
  apply Emits.cast
  · exact Emits.pwrite0 (Emits.bytes _)
  · rfl
  · first | rfl | omega

omit [ScrollRule] [Crc32] in
private theorem initial_sound : World.initial.Sound := by
  constructor <;> simp [World.initial, standing]

/-- The main theorem for a network where all letters carry the rates 1 and 2 Mbit/s. -/
example (bssid : Mac) (fcs : Bool) (buf : Bytes) (hb : 54 ≤ buf.length) (es : List Happening) (hes : ∀ x ∈ es, x.Valid) :
    ∃ w', runAll (overAir ⟨⟨0⟩, 0, Arr.zero 6, Arr.zero 6, Arr.zero 6, ⟨0⟩, none⟩ bssid (elementsObj [1, 2, 0x82, 0x84])
      fcs buf) bssid .initial es = .ok w' ∧ w'.Sound ∧
      runAll (fun src _ l => .ok (some (src, l))) bssid .initial es = .ok w' := by
  have hs := slack_le
  have hl : slack ≤ ([1, 2, 0x82, 0x84] : Bytes).length := by simp; omega
  exact c97_agree_partial ⟨⟨0⟩, 0, Arr.zero 6, Arr.zero 6, Arr.zero 6, ⟨0⟩, none⟩
    (show (none : Option (Arr 4)).isSome = (FCFFlags.mk 0).order by decide) bssid _ _ _
    (elements_emit [1, 2, 0x82, 0x84]) hl fcs buf (by simp; omega) es hes .initial initial_sound

omit [ScrollRule] [Crc32] in
/-- Two stations join, the first leaves the network and the third asks without being authenticated; then the fourth joins
and gets the number that has become free. -/
example :
    letI : ScrollRule := ⟨false⟩
    letI : Crc32 := ⟨fun _ => 0⟩
    let a (k : Byte) : Mac := ⟨[2, 0, 0, 0, 0, k], rfl⟩
    (do let w ← runAll (overAir ⟨⟨0⟩, 0, Arr.zero 6, Arr.zero 6, Arr.zero 6, ⟨0⟩, none⟩ (a 0)
          (elementsObj [1, 2, 0x82, 0x84]) true (List.replicate 54 7)) (a 0) .initial
          [.joins (a 1) ⟨1⟩ 10, .joins (a 2) ⟨1⟩ 10, .leaves (a 1) .Unspecified, .asks (a 3) ⟨1⟩ 10,
            .joins (a 4) ⟨1⟩ 10]
        pure [w.station (a 1), w.station (a 2), w.station (a 3), w.station (a 4), standing w.table (a 4)]) =
      .ok [.authenticated, .member ⟨0xc002⟩, .stranger, .member ⟨0xc001⟩, .member ⟨0xc001⟩] := by
  decide +kernel

omit [ScrollRule] [Crc32] in
/-- The field of `c97_refusal_lost` that Linux sends. -/
example : (0xc000 : BitVec 16) ≠ 0 ∧ (0xc000 : BitVec 16).toNat % 2 ^ 14 = 0 := by decide

end Property

end Verif
