import Verif.Model.Common
import Verif.Model.ElementTypes
import Verif.Model.Elements.Core
import Verif.Model.Elements.Simple
/-!
# `/repo/src/frames/mgmt_frame`: header, bodies, frames

The type parameter `ElementContainer` of the bodies becomes a type parameter here: bodies that
are written have an `Obj` (writer and measure), bodies that were read have the bytes of the
elements (`ReadElements`).  `_phantom` fields are dropped.
-/
namespace Verif

/-- `if cond { Some(from.gread(&mut offset)?) } else { None }`. -/
def Rd.opt [ScrollRule] {α : Type} (c : Bool) (r : Reader α) : Rd (Option α) :=
  if c then do
    let a ← Rd.gread r
    pure (some a)
  else pure none

/-- `if let Some(x) = opt { buf.gwrite(x, &mut offset)?; }`. -/
def Wr.opt [ScrollRule] {α : Type} (o : Option α) (w : α → Writer) : Wr Unit :=
  match o with
  | some a => Wr.gwrite (w a)
  | none => pure ()

/-! ## Header, /repo/src/frames/mgmt_frame/header.rs -/

/-- `ManagementFrameHeader`, /repo/src/frames/mgmt_frame/header.rs:9-25. -/
structure ManagementFrameHeader where
  fcf_flags : FCFFlags
  duration : BitVec 16
  receiver_address : Mac
  transmitter_address : Mac
  bssid : Mac
  sequence_control : SequenceControl
  ht_control : Option (Arr 4)
  deriving DecidableEq

/-- `length_in_bytes`, /repo/src/frames/mgmt_frame/header.rs:27-33. -/
def ManagementFrameHeader.lengthInBytes (h : ManagementFrameHeader) : Nat :=
  2 + 2 + 6 + 6 + 6 + 2 + if h.ht_control.isSome then 4 else 0

variable [ScrollRule]

/-- `TryFromCtx<FCFFlags>`, /repo/src/frames/mgmt_frame/header.rs:35-64. -/
def readMgmtHeader (fcf_flags : FCFFlags) : Reader ManagementFrameHeader := Rd.run do
  let duration ← Rd.gread (readLE 16)
  let receiver_address ← Rd.gread readMac
  let transmitter_address ← Rd.gread readMac
  let bssid ← Rd.gread readMac
  let seq ← Rd.gread (readLE 16)
  let ht_control ← Rd.opt fcf_flags.order (readArr 4)
  pure { fcf_flags, duration, receiver_address, transmitter_address, bssid,
         sequence_control := ⟨seq⟩, ht_control }

/-- `TryIntoCtx`, /repo/src/frames/mgmt_frame/header.rs:65-85. -/
def writeMgmtHeader (h : ManagementFrameHeader) : Writer := Wr.run do
  Wr.gwrite (writeLE h.duration)
  Wr.gwrite (writeBytes h.receiver_address.val)
  Wr.gwrite (writeBytes h.transmitter_address.val)
  Wr.gwrite (writeBytes h.bssid.val)
  Wr.gwrite (writeLE h.sequence_control.bits)
  Wr.opt h.ht_control fun x => writeBytes x.val

/-! ## Bodies with elements -/

/-- `AssociationRequestBody`, /repo/src/frames/mgmt_frame/body/assoc.rs:13-21. -/
structure AssociationRequestBody (ε : Type) where
  capabilities_info : CapabilitiesInformation
  listen_interval : BitVec 16
  elements : ε
  deriving DecidableEq

/-- /repo/src/frames/mgmt_frame/body/assoc.rs:28-48. -/
def readAssociationRequest : Reader (AssociationRequestBody Bytes) := Rd.run do
  let c ← Rd.gread (readLE 16)
  let listen_interval ← Rd.gread (readLE 16)
  let elements ← Rd.gread readElements
  pure { capabilities_info := ⟨c⟩, listen_interval, elements }

/-- /repo/src/frames/mgmt_frame/body/assoc.rs:56-73. -/
def writeAssociationRequest (b : AssociationRequestBody Obj) : Writer := Wr.run do
  Wr.gwrite (writeLE b.capabilities_info.bits)
  Wr.gwrite (writeLE b.listen_interval)
  Wr.gwrite b.elements.write

/-- /repo/src/frames/mgmt_frame/body/assoc.rs:49-55. -/
def measureAssociationRequest (b : AssociationRequestBody Obj) : Nat := 4 + b.elements.measure

/-- `length_in_bytes`, /repo/src/frames/mgmt_frame/body/assoc.rs:22-27. -/
def AssociationRequestBody.lengthInBytes (b : AssociationRequestBody Bytes) : Nat :=
  4 + b.elements.length

/-- `AssociationResponseBody`, /repo/src/frames/mgmt_frame/body/assoc.rs:78-84. -/
structure AssociationResponseBody (ε : Type) where
  capabilities_info : CapabilitiesInformation
  status_code : IEEE80211StatusCode
  association_id : Option AssociationID
  elements : ε
  deriving DecidableEq

/-- The association ID of a response, /repo/src/frames/mgmt_frame/body/assoc.rs:100-109. -/
def aidOfResponse (v : BitVec 16) : Res (Option AssociationID) :=
  if v = 0 then .ok none
  else match AssociationID.newChecked v with
    | some a => .ok (some a)
    | none => .err .badInput

/-- /repo/src/frames/mgmt_frame/body/assoc.rs:90-123. -/
def readAssociationResponse : Reader (AssociationResponseBody Bytes) := Rd.run do
  let c ← Rd.gread (readLE 16)
  let s ← Rd.gread (readLE 16)
  let a ← Rd.gread (readLE 16)
  let association_id ← Rd.lift (aidOfResponse a)
  let elements ← Rd.gread readElements
  pure { capabilities_info := ⟨c⟩, status_code := .fromBits s, association_id, elements }

/-- /repo/src/frames/mgmt_frame/body/assoc.rs:131-155. -/
def writeAssociationResponse (b : AssociationResponseBody Obj) : Writer := Wr.run do
  Wr.gwrite (writeLE b.capabilities_info.bits)
  Wr.gwrite (writeLE b.status_code.intoBits)
  Wr.gwrite (writeLE ((b.association_id.map AssociationID.intoBits).getD 0))
  Wr.gwrite b.elements.write

/-- /repo/src/frames/mgmt_frame/body/assoc.rs:124-130. -/
def measureAssociationResponse (b : AssociationResponseBody Obj) : Nat := 6 + b.elements.measure

/-- `length_in_bytes`, /repo/src/frames/mgmt_frame/body/assoc.rs:85-89. -/
def AssociationResponseBody.lengthInBytes (b : AssociationResponseBody Bytes) : Nat :=
  6 + b.elements.length

/-- `AuthenticationBody`, /repo/src/frames/mgmt_frame/body/auth.rs:13-25. -/
structure AuthenticationBody (ε : Type) where
  authentication_algorithm_number : IEEE80211AuthenticationAlgorithmNumber
  authentication_transaction_sequence_number : BitVec 16
  status_code : IEEE80211StatusCode
  elements : ε
  deriving DecidableEq

/-- /repo/src/frames/mgmt_frame/body/auth.rs:32-57. -/
def readAuthentication : Reader (AuthenticationBody Bytes) := Rd.run do
  let a ← Rd.gread (readLE 16)
  let authentication_transaction_sequence_number ← Rd.gread (readLE 16)
  let s ← Rd.gread (readLE 16)
  let elements ← Rd.gread readElements
  pure { authentication_algorithm_number := .fromBits a, authentication_transaction_sequence_number,
         status_code := .fromBits s, elements }

/-- /repo/src/frames/mgmt_frame/body/auth.rs:58-80. -/
def writeAuthentication (b : AuthenticationBody Obj) : Writer := Wr.run do
  Wr.gwrite (writeLE b.authentication_algorithm_number.intoBits)
  Wr.gwrite (writeLE b.authentication_transaction_sequence_number)
  Wr.gwrite (writeLE b.status_code.intoBits)
  Wr.gwrite b.elements.write

/-- /repo/src/frames/mgmt_frame/body/auth.rs:81-87. -/
def measureAuthentication (b : AuthenticationBody Obj) : Nat := 6 + b.elements.measure

/-- `length_in_bytes`, /repo/src/frames/mgmt_frame/body/auth.rs:26-31. -/
def AuthenticationBody.lengthInBytes (b : AuthenticationBody Bytes) : Nat := 6 + b.elements.length

/-- `BeaconLikeBody`, /repo/src/frames/mgmt_frame/body/beacon.rs:18-32; `BeaconBody` and
`ProbeResponseBody` are this type with different markers. -/
structure BeaconLikeBody (ε : Type) where
  timestamp : BitVec 64
  beacon_interval : BitVec 16
  capabilities_info : CapabilitiesInformation
  elements : ε
  deriving DecidableEq

/-- /repo/src/frames/mgmt_frame/body/beacon.rs:96-118. -/
def readBeaconLike : Reader (BeaconLikeBody Bytes) := Rd.run do
  let timestamp ← Rd.gread (readLE 64)
  let beacon_interval ← Rd.gread (readLE 16)
  let c ← Rd.gread (readLE 16)
  let elements ← Rd.gread readElements
  pure { timestamp, beacon_interval, capabilities_info := ⟨c⟩, elements }

/-- /repo/src/frames/mgmt_frame/body/beacon.rs:119-137. -/
def writeBeaconLike (b : BeaconLikeBody Obj) : Writer := Wr.run do
  Wr.gwrite (writeLE b.timestamp)
  Wr.gwrite (writeLE b.beacon_interval)
  Wr.gwrite (writeLE b.capabilities_info.bits)
  Wr.gwrite b.elements.write

/-- /repo/src/frames/mgmt_frame/body/beacon.rs:89-95. -/
def measureBeaconLike (b : BeaconLikeBody Obj) : Nat := 12 + b.elements.measure

/-- `beacon_interval_as_duration` in microseconds, /repo/src/frames/mgmt_frame/body/beacon.rs:51-53
(a product of two `u64`; overflow would panic). -/
def BeaconLikeBody.beaconIntervalMicros {ε : Type} (b : BeaconLikeBody ε) : Res Nat :=
  let v := b.beacon_interval.toNat * 1024
  if v < 2 ^ 64 then .ok v else .panic

/-- `timestamp_as_duration` in microseconds, /repo/src/frames/mgmt_frame/body/beacon.rs:55-57. -/
def BeaconLikeBody.timestampMicros {ε : Type} (b : BeaconLikeBody ε) : Nat := b.timestamp.toNat

/-- `length_in_bytes`, /repo/src/frames/mgmt_frame/body/beacon.rs:35-40. -/
def BeaconLikeBody.lengthInBytes (b : BeaconLikeBody Bytes) : Nat := 8 + 2 + 2 + b.elements.length

/-- `DisassociationBody`, /repo/src/frames/mgmt_frame/body/disassoc.rs:10-19, and
`DeauthenticationBody`, /repo/src/frames/mgmt_frame/body/deauth.rs:10-19. -/
structure ReasonBody (ε : Type) where
  reason : IEEE80211Reason
  elements : ε
  deriving DecidableEq

/-- /repo/src/frames/mgmt_frame/body/disassoc.rs:33-50. -/
def readDisassociation : Reader (ReasonBody Bytes) := Rd.run do
  let r ← Rd.gread (readLE 16)
  let elements ← Rd.gread readElements
  pure { reason := .fromBits r, elements }

/-- /repo/src/frames/mgmt_frame/body/disassoc.rs:51-63. -/
def writeDisassociation (b : ReasonBody Obj) : Writer := Wr.run do
  Wr.gwrite (writeLE b.reason.intoBits)
  Wr.gwrite b.elements.write

/-- /repo/src/frames/mgmt_frame/body/disassoc.rs:26-32. -/
def measureDisassociation (b : ReasonBody Obj) : Nat := 2 + b.elements.measure

/-- /repo/src/frames/mgmt_frame/body/deauth.rs:26-43. -/
def readDeauthentication : Reader (ReasonBody Bytes) := Rd.run do
  let r ← Rd.gread (readLE 16)
  let elements ← Rd.gread readElements
  pure { reason := .fromBits r, elements }

/-- /repo/src/frames/mgmt_frame/body/deauth.rs:44-56. -/
def writeDeauthentication (b : ReasonBody Obj) : Writer := Wr.run do
  Wr.gwrite (writeLE b.reason.intoBits)
  Wr.gwrite b.elements.write

/-- /repo/src/frames/mgmt_frame/body/deauth.rs:57-63. -/
def measureDeauthentication (b : ReasonBody Obj) : Nat := 2 + b.elements.measure

/-- `length_in_bytes`, /repo/src/frames/mgmt_frame/body/disassoc.rs:20-25,
/repo/src/frames/mgmt_frame/body/deauth.rs:20-25. -/
def ReasonBody.lengthInBytes (b : ReasonBody Bytes) : Nat := 2 + b.elements.length

/-- `ProbeRequestBody`, /repo/src/frames/mgmt_frame/body/probe.rs:12-19. -/
structure ProbeRequestBody (ε : Type) where
  elements : ε
  deriving DecidableEq

/-- /repo/src/frames/mgmt_frame/body/probe.rs:38-51. -/
def readProbeRequest : Reader (ProbeRequestBody Bytes) := Rd.run do
  let elements ← Rd.gread readElements
  pure { elements }

/-- /repo/src/frames/mgmt_frame/body/probe.rs:52-59. -/
def writeProbeRequest (b : ProbeRequestBody Obj) : Writer := b.elements.write

/-- /repo/src/frames/mgmt_frame/body/probe.rs:33-37. -/
def measureProbeRequest (b : ProbeRequestBody Obj) : Nat := b.elements.measure

/-- `length_in_bytes`, /repo/src/frames/mgmt_frame/body/probe.rs:20-24. -/
def ProbeRequestBody.lengthInBytes (b : ProbeRequestBody Bytes) : Nat := b.elements.length

/-- `BeaconLikeBody::ssid` and `ProbeRequestBody::ssid`,
/repo/src/frames/mgmt_frame/body/beacon.rs:42-47, /repo/src/frames/mgmt_frame/body/probe.rs:26-31. -/
def bodySsid (elements : Bytes) : Res (Option Str) :=
  (getFirstElement elements ⟨.Id 0, readSSID⟩).map fun o => o.map fun e => e.ssid

/-! ## Action bodies -/

/-- `RawActionBody`, /repo/src/frames/mgmt_frame/body/action/mod.rs:51-59. -/
structure RawActionBody where
  category_code : CategoryCode
  payload : Bytes
  deriving DecidableEq, Repr

/-- /repo/src/frames/mgmt_frame/body/action/mod.rs:71-86.  The offset returned does not
include the payload. -/
def readRawAction : Reader RawActionBody := Rd.run do
  let c ← Rd.gread readU8
  let payload ← Rd.remaining
  pure { category_code := .fromBits c, payload }

/-- /repo/src/frames/mgmt_frame/body/action/mod.rs:92-102. -/
def writeRawAction (b : RawActionBody) : Writer := Wr.run do
  Wr.gwrite (writeU8 b.category_code.intoBits)
  Wr.gwrite (writeBytes b.payload)

/-- /repo/src/frames/mgmt_frame/body/action/mod.rs:87-91. -/
def measureRawAction (b : RawActionBody) : Nat := 1 + b.payload.length

/-- `is_vendor_and_matches`, /repo/src/frames/mgmt_frame/body/action/mod.rs:62-69. -/
def RawActionBody.isVendorAndMatches (b : RawActionBody) (oui : Arr 3) : Bool :=
  b.category_code == .VendorSpecific &&
    match pread (readArr 3) 0 b.payload with
    | .ok x => x == oui
    | _ => false

/-- `RawVendorSpecificActionBody`, /repo/src/frames/mgmt_frame/body/action/vendor.rs:12-19. -/
structure VendorActionBody (ε : Type) where
  oui : Arr 3
  payload : ε
  deriving DecidableEq

/-- /repo/src/frames/mgmt_frame/body/action/vendor.rs:20-44.  The offset returned does not
include the payload. -/
def readVendorAction : Reader (VendorActionBody Bytes) := Rd.run do
  let c ← Rd.gread readU8
  if CategoryCode.fromBits c ≠ .VendorSpecific then Rd.fail .badInput
  else do
    let oui ← Rd.gread (readArr 3)
    let payload ← Rd.remaining
    pure { oui, payload }

/-- `append_vendor_action_header`, /repo/src/frames/mgmt_frame/body/action/vendor.rs:73-81. -/
def appendVendorActionHeader (oui : Arr 3) : Wr Unit := do
  Wr.gwrite (writeU8 CategoryCode.VendorSpecific.intoBits)
  Wr.gwrite (writeBytes oui.val)

/-- /repo/src/frames/mgmt_frame/body/action/vendor.rs:50-62. -/
def writeVendorAction (b : VendorActionBody Obj) : Writer := Wr.run do
  appendVendorActionHeader b.oui
  Wr.gwrite b.payload.write

/-- /repo/src/frames/mgmt_frame/body/action/vendor.rs:45-49. -/
def measureVendorAction (b : VendorActionBody Obj) : Nat := 3 + b.payload.measure

/-- `strip_and_check_vendor_action_header`,
/repo/src/frames/mgmt_frame/body/action/vendor.rs:83-101. -/
def stripAndCheckVendorActionHeader (expected_oui : Arr 3) : Rd Unit := do
  let c ← Rd.gread readU8
  if CategoryCode.fromBits c ≠ .VendorSpecific then Rd.fail .badInput
  else do
    let oui ← Rd.gread (readArr 3)
    if oui ≠ expected_oui then Rd.fail .badInput else pure ()

/-- The two checks at the start of the three mesh peering parsers,
/repo/src/frames/mgmt_frame/body/action/self_protected.rs:41-55, 128-142, 220-234. -/
def checkSelfProtected (code : SelfProtectedActionCode) : Rd Unit := do
  let c ← Rd.gread readU8
  if CategoryCode.fromBits c ≠ .SelfProtected then Rd.fail .badInput
  else do
    let a ← Rd.gread readU8
    if SelfProtectedActionCode.fromBits a ≠ code then Rd.fail .badInput else pure ()

/-- `MeshPeeringOpenBody`, /repo/src/frames/mgmt_frame/body/action/self_protected.rs:28-34. -/
structure MeshPeeringOpenBody (ε : Type) where
  capabilities_info : CapabilitiesInformation
  elements : ε
  deriving DecidableEq

/-- /repo/src/frames/mgmt_frame/body/action/self_protected.rs:36-70. -/
def readMeshPeeringOpen : Reader (MeshPeeringOpenBody Bytes) := Rd.run do
  checkSelfProtected .MeshPeeringOpen
  let c ← Rd.gread (readLE 16)
  let elements ← Rd.gread readElements
  pure { capabilities_info := ⟨c⟩, elements }

/-- /repo/src/frames/mgmt_frame/body/action/self_protected.rs:78-99. -/
def writeMeshPeeringOpen (b : MeshPeeringOpenBody Obj) : Writer := Wr.run do
  Wr.gwrite (writeU8 CategoryCode.SelfProtected.intoBits)
  Wr.gwrite (writeU8 SelfProtectedActionCode.MeshPeeringOpen.intoBits)
  Wr.gwrite (writeLE b.capabilities_info.bits)
  Wr.gwrite b.elements.write

/-- /repo/src/frames/mgmt_frame/body/action/self_protected.rs:71-77. -/
def measureMeshPeeringOpen (b : MeshPeeringOpenBody Obj) : Nat := 1 + 2 + b.elements.measure

/-- `MeshPeeringConfirmBody`, /repo/src/frames/mgmt_frame/body/action/self_protected.rs:115-121. -/
structure MeshPeeringConfirmBody (ε : Type) where
  capabilities_info : CapabilitiesInformation
  association_id : AssociationID
  elements : ε
  deriving DecidableEq

/-- /repo/src/frames/mgmt_frame/body/action/self_protected.rs:123-164. -/
def readMeshPeeringConfirm : Reader (MeshPeeringConfirmBody Bytes) := Rd.run do
  checkSelfProtected .MeshPeeringConfirm
  let c ← Rd.gread (readLE 16)
  let a ← Rd.gread (readLE 16)
  let association_id ← Rd.lift (match AssociationID.newChecked a with
    | some a => .ok a
    | none => .err .badInput)
  let elements ← Rd.gread readElements
  pure { capabilities_info := ⟨c⟩, association_id, elements }

/-- /repo/src/frames/mgmt_frame/body/action/self_protected.rs:172-193. -/
def writeMeshPeeringConfirm (b : MeshPeeringConfirmBody Obj) : Writer := Wr.run do
  Wr.gwrite (writeU8 CategoryCode.SelfProtected.intoBits)
  Wr.gwrite (writeU8 SelfProtectedActionCode.MeshPeeringConfirm.intoBits)
  Wr.gwrite (writeLE b.capabilities_info.bits)
  Wr.gwrite (writeLE b.association_id.intoBits)
  Wr.gwrite b.elements.write

/-- /repo/src/frames/mgmt_frame/body/action/self_protected.rs:165-171. -/
def measureMeshPeeringConfirm (b : MeshPeeringConfirmBody Obj) : Nat := 1 + 2 + 2 + b.elements.measure

/-- `MeshPeeringCloseBody`, /repo/src/frames/mgmt_frame/body/action/self_protected.rs:208-213. -/
structure MeshPeeringCloseBody (ε : Type) where
  elements : ε
  deriving DecidableEq

/-- /repo/src/frames/mgmt_frame/body/action/self_protected.rs:215-245. -/
def readMeshPeeringClose : Reader (MeshPeeringCloseBody Bytes) := Rd.run do
  checkSelfProtected .MeshPeeringClose
  let elements ← Rd.gread readElements
  pure { elements }

/-- /repo/src/frames/mgmt_frame/body/action/self_protected.rs:255-270. -/
def writeMeshPeeringClose (b : MeshPeeringCloseBody Obj) : Writer := Wr.run do
  Wr.gwrite (writeU8 CategoryCode.SelfProtected.intoBits)
  Wr.gwrite (writeU8 SelfProtectedActionCode.MeshPeeringClose.intoBits)
  Wr.gwrite b.elements.write

/-- /repo/src/frames/mgmt_frame/body/action/self_protected.rs:247-253. -/
def measureMeshPeeringClose (b : MeshPeeringCloseBody Obj) : Nat := 1 + b.elements.measure

/-- `matches` of the three mesh peering bodies,
/repo/src/frames/mgmt_frame/body/action/self_protected.rs:100-110, 195-205, 273-283. -/
def selfProtectedMatches (code : SelfProtectedActionCode) (b : RawActionBody) : Bool :=
  b.category_code == .SelfProtected &&
    match pread readU8 0 b.payload with
    | .ok subtype => subtype == code.intoBits
    | _ => false

/-- `matches` of vendor specific bodies, /repo/src/frames/mgmt_frame/body/action/vendor.rs:63-68. -/
def vendorActionMatches (b : RawActionBody) : Bool := b.category_code == .VendorSpecific

/-! ## Frames, /repo/src/frames/mgmt_frame/mod.rs -/

variable [Crc32]

/-- `ManagementFrame::try_from_ctx`, /repo/src/frames/mgmt_frame/mod.rs:75-95, after the FCS has been
stripped. -/
def readMgmtFrameBody {β : Type} (body : Reader β) : Reader (ManagementFrameHeader × β) := Rd.run do
  let f ← Rd.gread (readLE 16)
  let fcf : FrameControlField := ⟨f⟩
  match fcf.frameType with
  | .Management _ => do
    let header ← Rd.gread (readMgmtHeader fcf.fcfFlags)
    let b ← Rd.gread body
    pure (header, b)
  | _ => Rd.fail .badInput

/-- `ManagementFrame::try_from_ctx`, /repo/src/frames/mgmt_frame/mod.rs:75-95. -/
def readMgmtFrame {β : Type} (body : Reader β) (with_fcs : Bool) :
    Reader (ManagementFrameHeader × β) := fun inp => do
  let inp ← (if with_fcs then stripAndValidateFcs inp else .ok inp)
  readMgmtFrameBody body inp

/-- `ManagementFrame::measure_with`, /repo/src/frames/mgmt_frame/mod.rs:67-69. -/
def measureMgmtFrame (h : ManagementFrameHeader) (bodyMeasure : Nat) (with_fcs : Bool) : Nat :=
  h.lengthInBytes + bodyMeasure + if with_fcs then 4 else 0

/-- `ManagementFrame::try_into_ctx`, /repo/src/frames/mgmt_frame/mod.rs:97-120; `subtype` is
`Body::SUBTYPE`. -/
def writeMgmtFrame (subtype : ManagementFrameSubtype) (h : ManagementFrameHeader) (body : Writer)
    (with_fcs : Bool) : Writer := Wr.run do
  let fcf ← Wr.lift (FrameControlField.withFrameType ⟨0⟩ (.Management subtype))
  Wr.gwrite (writeLE (fcf.withFcfFlags h.fcf_flags).bits)
  Wr.gwrite (writeMgmtHeader h)
  Wr.gwrite body
  if with_fcs then attachFcs else pure ()

/-! ## `DynamicManagementFrame`, /repo/src/frames/mgmt_frame/mod.rs:161-204 -/

/-- `DynamicManagementFrame`, /repo/src/frames/mgmt_frame/mod.rs:167-170. -/
structure DynamicManagementFrame where
  buffer : Bytes
  offset : Nat
  deriving DecidableEq, Repr

/-- `new`, /repo/src/frames/mgmt_frame/mod.rs:175-181; the context of `pwrite` is `bool::default()`. -/
def DynamicManagementFrame.new (frame : Bool → Writer) (buffer : Bytes) : Res DynamicManagementFrame :=
  (pwrite (frame false) 0 buffer).map fun r => ⟨r.1, r.2⟩

/-- `ManagementFrame::into_dynamic`, /repo/src/frames/mgmt_frame/mod.rs:51-59. -/
def intoDynamic (s : ManagementFrameSubtype) (h : ManagementFrameHeader) (w : Writer) (buffer : Bytes) :
    Res DynamicManagementFrame :=
  DynamicManagementFrame.new (writeMgmtFrame s h w) buffer

/-- `add_element`, /repo/src/frames/mgmt_frame/mod.rs:185-189. -/
def DynamicManagementFrame.addElement (d : DynamicManagementFrame) (e : Elem) :
    Res DynamicManagementFrame :=
  (Wr.gwrite e.writeWrapped d.buffer d.offset).map fun r => ⟨r.2.1, r.2.2⟩

/-- `finish`, /repo/src/frames/mgmt_frame/mod.rs:195-203: the final buffer and the offset.  Slicing
with an offset outside the buffer panics. -/
def DynamicManagementFrame.finish (d : DynamicManagementFrame) (with_fcs : Bool) : Res (Bytes × Nat) :=
  if with_fcs then
    if d.offset ≤ d.buffer.length then
      (Wr.gwrite (writeLE (Crc32.hash (d.buffer.take d.offset))) d.buffer d.offset).map fun r => r.2
    else .panic
  else .ok (d.buffer, d.offset)

end Verif
