import Verif.Model.Frames.Control
import Verif.Model.Frames.Data
/-!
# `/repo/src/frames/mod.rs`: `GenericFrame`, frame matching
-/
namespace Verif

/-- What `IEEE80211Frame` says about a frame type, /repo/src/frames/mod.rs:19-29. -/
structure FrameKind where
  type : FrameType
  actionMatches : RawActionBody → Bool

variable [ScrollRule] [Crc32]

/-- The management frame bodies, /repo/src/frames/mgmt_frame/body/mod.rs:60-81 and the implementations
of `ActionBody`. -/
inductive MgmtKind where
  | AssociationRequest | AssociationResponse | ProbeRequest | ProbeResponse | Beacon
  | Disassociation | Authentication | Deauthentication
  | RawAction | VendorAction | MeshPeeringOpen | MeshPeeringConfirm | MeshPeeringClose
  deriving DecidableEq, Repr

/-- `ManagementFrameBody::SUBTYPE`, /repo/src/frames/mgmt_frame/body/mod.rs:50, 60-81. -/
def MgmtKind.SUBTYPE : MgmtKind → ManagementFrameSubtype
  | .AssociationRequest => .AssociationRequest
  | .AssociationResponse => .AssociationResponse
  | .ProbeRequest => .ProbeRequest
  | .ProbeResponse => .ProbeResponse
  | .Beacon => .Beacon
  | .Disassociation => .Disassociation
  | .Authentication => .Authentication
  | .Deauthentication => .Deauthentication
  | .RawAction | .VendorAction | .MeshPeeringOpen | .MeshPeeringConfirm | .MeshPeeringClose => .Action

/-- `read_action_body_matches` of the management frame bodies,
/repo/src/frames/mgmt_frame/body/mod.rs:32-34, 72-81. -/
def MgmtKind.actionMatches : MgmtKind → RawActionBody → Bool
  | .RawAction, _ => true
  | .VendorAction, b => vendorActionMatches b
  | .MeshPeeringOpen, b => selfProtectedMatches .MeshPeeringOpen b
  | .MeshPeeringConfirm, b => selfProtectedMatches .MeshPeeringConfirm b
  | .MeshPeeringClose, b => selfProtectedMatches .MeshPeeringClose b
  | _, _ => false

/-- A management frame as `IEEE80211Frame`, /repo/src/frames/mgmt_frame/mod.rs:60-65. -/
def MgmtKind.frame (k : MgmtKind) : FrameKind := ⟨.Management k.SUBTYPE, k.actionMatches⟩

omit [ScrollRule] [Crc32] in
/-- A control frame as `IEEE80211Frame`, /repo/src/frames/control_frame/mod.rs:175-177. -/
def controlFrameKind : FrameKind := ⟨.Control .RTS, fun _ => false⟩

omit [ScrollRule] [Crc32] in
/-- A data frame as `IEEE80211Frame`, /repo/src/frames/data_frame/mod.rs:232-234. -/
def dataFrameKind : FrameKind := ⟨.Data .Data, fun _ => false⟩

/-- `GenericFrame`, /repo/src/frames/mod.rs:34-36. -/
structure GenericFrame where
  bytes : Bytes
  deriving DecidableEq, Repr

namespace GenericFrame

/-- `new`, /repo/src/frames/mod.rs:42-55. -/
def new (bytes : Bytes) (with_fcs : Bool) : Res GenericFrame := do
  let bytes ← (if with_fcs then stripAndValidateFcs bytes else .ok bytes)
  if bytes.length < 10 then .err .badInput else .ok ⟨bytes⟩

/-- `frame_control_field`, /repo/src/frames/mod.rs:60-62. -/
def frameControlField (g : GenericFrame) : Res FrameControlField := do
  let v ← (pread (readLE 16) 0 g.bytes).unwrap
  pure ⟨v⟩

/-- `duration`, /repo/src/frames/mod.rs:67-69. -/
def duration (g : GenericFrame) : Res (BitVec 16) := (pread (readLE 16) 2 g.bytes).unwrap

/-- `address_1`, /repo/src/frames/mod.rs:74-76. -/
def address1 (g : GenericFrame) : Res Mac := (pread readMac 4 g.bytes).unwrap

/-- `address_2`, /repo/src/frames/mod.rs:81-87. -/
def address2 (g : GenericFrame) : Res (Option Mac) := do
  let f ← g.frameControlField
  if f.frameType.hasAddress2 then (pread readMac 10 g.bytes).toOption else pure none

/-- `address_3`, /repo/src/frames/mod.rs:92-98. -/
def address3 (g : GenericFrame) : Res (Option Mac) := do
  let f ← g.frameControlField
  if f.frameType.hasAddress3 then (pread readMac 16 g.bytes).toOption else pure none

/-- `sequence_control`, /repo/src/frames/mod.rs:103-113; read in native byte order. -/
def sequenceControl (g : GenericFrame) : Res (Option SequenceControl) := do
  let f ← g.frameControlField
  if f.frameType.hasSequenceControl then
    ((pread (readLE 16) 22 g.bytes).map SequenceControl.mk).toOption
  else pure none

/-- `matches`, /repo/src/frames/mod.rs:115-133. -/
def «matches» (g : GenericFrame) (k : FrameKind) : Res Bool := do
  let fcf ← g.frameControlField
  match fcf.frameType, k.type with
  | .Control _, .Control _ => pure true
  | .Data _, .Data _ => pure true
  | t, u =>
    if t = u then
      match u with
      | .Management .Action | .Management .ActionNoACK => do
        let r ← (pread (readMgmtFrame readRawAction false) 0 g.bytes).toOption
        match r with
        | some (_, body) => pure (k.actionMatches body)
        | none => pure false
      | _ => pure true
    else pure false

/-- `parse_to_typed`, /repo/src/frames/mod.rs:135-143; `read` is the frame's `try_from_ctx`. -/
def parseToTyped {α : Type} (g : GenericFrame) (k : FrameKind) (read : Bool → Reader α) :
    Res (Option (Res α)) := do
  let m ← g.matches k
  if m then
    match pread (read false) 0 g.bytes with
    | .panic => .panic
    | r => pure (some r)
  else pure none

/-- `is_eapol_key_frame`, /repo/src/frames/mod.rs:144-160. -/
def isEapolKeyFrame (g : GenericFrame) : Res Bool := do
  let fcf ← g.frameControlField
  match fcf.frameType with
  | .Data subtype =>
    if !subtype.hasPayload then pure false
    else do
      let r ← g.parseToTyped dataFrameKind readDataFrame
      match r with
      | some (.ok f) =>
        match f.payload with
        | some payload => pure (8 ≤ payload.length && (payload.drop 6).take 2 == [0x88, 0x8e])
        | none => pure false
      | _ => pure false
  | _ => pure false

end GenericFrame

/-- The arms of `match_frames!`, tried in order, /repo/src/frames/mod.rs:189-202: the number of the arm
taken and what it got.  A kind and a parser stand for a frame type. -/
def tryArms {α : Type} (g : GenericFrame) : Nat → List (FrameKind × (Bool → Reader α)) → Res (Nat × α)
  | _, [] => .err .badInput
  | i, (k, read) :: arms => do
    let r ← g.parseToTyped k read
    match r with
    | some (.ok a) => .ok (i, a)
    | some (.err e) => .err e
    | some .panic => .panic
    | none => tryArms g (i + 1) arms

/-- `match_frames!`, /repo/src/frames/mod.rs:161-208.  `ctx` is the value of `with_fcs:`, if it is
given; the macro evaluates it and ignores the value. -/
def matchFrames {α : Type} (bytes : Bytes) (ctx : Option Bool)
    (arms : List (FrameKind × (Bool → Reader α))) : Res (Nat × α) := do
  let g ← GenericFrame.new bytes ctx.isSome
  tryArms g 0 arms

end Verif
