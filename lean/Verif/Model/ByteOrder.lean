import Verif.Model.Frames.Generic
import Verif.Model.Elements.MeshPeering
import Verif.Model.Elements.Rsn
/-!
# The functions that use the byte order of the machine

`gread`, `gwrite` and `pread` without a context read and write an integer in the byte order of the machine the
code runs on.  Elsewhere in this model that is taken to be little-endian.  Here are the functions of the crate
that do this with integers of more than one byte, with the byte order as a parameter (`big` for a big-endian
machine).
-/
namespace Verif

/-- `from.gread(&mut offset)` for an integer: `uN::try_from_ctx(src, Endian::default())`. -/
def readNative (big : Bool) (w : Nat) : Reader (BitVec w) := if big then readBE w else readLE w

/-- `buf.gwrite(x, &mut offset)` for an integer. -/
def writeNative (big : Bool) {w : Nat} (x : BitVec w) : Writer := if big then writeBE x else writeLE x

variable [ScrollRule]

/-- `DataFrameHeader::try_from_ctx`, /repo/src/frames/data_frame/header.rs:237-286: the duration (line 249) and
the sequence control (line 253) are read in native order.  The writer, lines 287-313, uses little-endian. -/
def readDataHeaderOn (big : Bool) : Reader DataFrameHeader := Rd.run do
  let f ← Rd.gread (readLE 16)
  let fcf : FrameControlField := ⟨f⟩
  match fcf.frameType with
  | .Data subtype => do
    let duration ← Rd.gread (readNative big 16)
    let address_1 ← Rd.gread readMac
    let address_2 ← Rd.gread readMac
    let address_3 ← Rd.gread readMac
    let seq ← Rd.gread (readNative big 16)
    let address_4 ← Rd.opt (fcf.fcfFlags.to_ds && fcf.fcfFlags.from_ds) readMac
    let qos ← Rd.opt subtype.isQos (readArr 2)
    let ht_control ← Rd.opt fcf.fcfFlags.order (readArr 4)
    pure { subtype, fcf_flags := fcf.fcfFlags, duration, address_1, address_2, address_3,
           sequence_control := ⟨seq⟩, address_4, qos, ht_control }
  | _ => Rd.fail .badInput

/-- `GenericFrame::sequence_control`, /repo/src/frames/mod.rs:103-113, line 109. -/
def GenericFrame.sequenceControlOn (big : Bool) (g : GenericFrame) : Res (Option SequenceControl) := do
  let f ← g.frameControlField
  if f.frameType.hasSequenceControl then
    ((pread (readNative big 16) 22 g.bytes).map SequenceControl.mk).toOption
  else pure none

/-- `TryFromCtx for RsnElement` after the version check, /repo/src/elements/rsn.rs:742-762: the capabilities
(line 749) are read in native order.  The writer (line 837) uses little-endian. -/
def readRsnBodyOn (big : Bool) : Rd RsnElement.Parsed := do
  match ← Rd.greadOk readCipherSuite with
  | none => pure .empty
  | some g =>
    match ← readRsnList with
    | none => pure ⟨some g, none, none, none, none, none⟩
    | some p =>
      match ← readRsnList with
      | none => pure ⟨some g, some p, none, none, none, none⟩
      | some a =>
        match ← Rd.greadOk (readNative big 16) with
        | none => pure ⟨some g, some p, some a, none, none, none⟩
        | some c =>
          match ← readRsnList with
          | none => pure ⟨some g, some p, some a, some ⟨c⟩, none, none⟩
          | some m =>
            match ← Rd.greadOk readCipherSuite with
            | none => pure ⟨some g, some p, some a, some ⟨c⟩, some m, none⟩
            | some gm => pure ⟨some g, some p, some a, some ⟨c⟩, some m, some gm⟩

/-- `TryFromCtx for RsnElement`, /repo/src/elements/rsn.rs:730-763. -/
def readRsnOn (big : Bool) : Reader RsnElement.Parsed := Rd.run do
  let v ← Rd.gread (readLE 16)
  if v ≠ 1 then Rd.fail .badInput else readRsnBodyOn big

namespace MeshPeeringManagement

/-- `new_confirm`, /repo/src/elements/mesh/mesh_peering_management.rs:67-88, line 76. -/
def newConfirmOn (big : Bool) (p : MeshPeeringProtocolIdentifier) (l peer : BitVec 16) (pmk : Option (Arr 16)) :
    Res MeshPeeringManagement := build p l do
  Wr.gwrite (writeNative big peer)
  putPmk pmk

/-- `if let Some(peer_link_id) = peer_link_id { rest.gwrite(..).unwrap(); }`,
/repo/src/elements/mesh/mesh_peering_management.rs:100-102. -/
def putPeerOn (big : Bool) : Option (BitVec 16) → Wr Unit
  | some x => Wr.gwrite (writeNative big x)
  | none => pure ()

/-- `new_close`, /repo/src/elements/mesh/mesh_peering_management.rs:90-115, lines 101 and 103. -/
def newCloseOn (big : Bool) (p : MeshPeeringProtocolIdentifier) (l : BitVec 16) (peer : Option (BitVec 16))
    (reason : IEEE80211Reason) (pmk : Option (Arr 16)) : Res MeshPeeringManagement := build p l do
  putPeerOn big peer
  Wr.gwrite (writeNative big reason.intoBits)
  putPmk pmk

/-- `parse_as_confirm`, /repo/src/elements/mesh/mesh_peering_management.rs:138-161, lines 145 and 147. -/
def parseAsConfirmOn (big : Bool) (e : MeshPeeringManagement) : Res (Option ParsedMeshPeeringManagement) :=
  if e.rest_len = 2 then e.parse do
    let peer ← Rd.gread (readNative big 16)
    pure ⟨e.mesh_peering_protocol_identifier, e.local_link_id, some peer, none, none⟩
  else if e.rest_len = 2 + 16 then e.parse do
    let peer ← Rd.gread (readNative big 16)
    let pmk ← Rd.gread (readArr 16)
    pure ⟨e.mesh_peering_protocol_identifier, e.local_link_id, some peer, none, some pmk⟩
  else .ok none

/-- `parse_as_close`, /repo/src/elements/mesh/mesh_peering_management.rs:163-200, lines 170 to 186. -/
def parseAsCloseOn (big : Bool) (e : MeshPeeringManagement) : Res (Option ParsedMeshPeeringManagement) :=
  if e.rest_len = 2 then e.parse do
    let reason ← Rd.gread (readNative big 16)
    pure ⟨e.mesh_peering_protocol_identifier, e.local_link_id, none, some (.fromBits reason), none⟩
  else if e.rest_len = 2 + 2 then e.parse do
    let peer ← Rd.gread (readNative big 16)
    let reason ← Rd.gread (readNative big 16)
    pure ⟨e.mesh_peering_protocol_identifier, e.local_link_id, some peer, some (.fromBits reason),
      none⟩
  else if e.rest_len = 2 + 16 then e.parse do
    let reason ← Rd.gread (readNative big 16)
    let pmk ← Rd.gread (readArr 16)
    pure ⟨e.mesh_peering_protocol_identifier, e.local_link_id, none, some (.fromBits reason),
      some pmk⟩
  else if e.rest_len = 2 + 2 + 16 then e.parse do
    let peer ← Rd.gread (readNative big 16)
    let reason ← Rd.gread (readNative big 16)
    let pmk ← Rd.gread (readArr 16)
    pure ⟨e.mesh_peering_protocol_identifier, e.local_link_id, some peer, some (.fromBits reason),
      some pmk⟩
  else .ok none

end MeshPeeringManagement

/-- `TryFromCtx for MeshPeeringManagement`, /repo/src/elements/mesh/mesh_peering_management.rs:203-226, lines 209
and 210. -/
def readMeshPeeringOn (big : Bool) : Reader MeshPeeringManagement := Rd.run do
  let p ← Rd.gread (readNative big 16)
  let l ← Rd.gread (readNative big 16)
  let left ← Rd.remaining
  let rest ← Rd.lift (meshPeeringRest left)
  pure ⟨.fromBits p, l, rest, min 20 left.length⟩

/-- `TryIntoCtx for MeshPeeringManagement`, /repo/src/elements/mesh/mesh_peering_management.rs:234-248, lines 239
to 243. -/
def writeMeshPeeringOn (big : Bool) (e : MeshPeeringManagement) : Writer := Wr.run do
  Wr.gwrite (writeNative big e.mesh_peering_protocol_identifier.intoBits)
  Wr.gwrite (writeNative big e.local_link_id)
  let s ← Wr.lift (if e.rest_len ≤ 20 then .ok (e.rest.val.take e.rest_len) else .panic)
  Wr.gwrite (writeBytes s)

end Verif
