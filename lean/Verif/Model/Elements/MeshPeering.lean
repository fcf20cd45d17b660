import Verif.Model.Elements.Core
import Verif.Model.CommonTypes
import Verif.Model.ElementTypes
/-!
# `/repo/src/elements/mesh/mesh_peering_management.rs`
-/
namespace Verif

/-- `MeshPeeringManagement`, /repo/src/elements/mesh/mesh_peering_management.rs:26-31.  `rest` is an
array of twenty bytes. -/
structure MeshPeeringManagement where
  mesh_peering_protocol_identifier : MeshPeeringProtocolIdentifier
  local_link_id : BitVec 16
  rest : Arr 20
  rest_len : Nat
  deriving DecidableEq, Repr

/-- `ParsedMeshPeeringManagement`, /repo/src/elements/mesh/mesh_peering_management.rs:34-40. -/
structure ParsedMeshPeeringManagement where
  mesh_peering_protocol_identifier : MeshPeeringProtocolIdentifier
  local_link_id : BitVec 16
  peer_link_id : Option (BitVec 16)
  reason_code : Option IEEE80211Reason
  pmk : Option (Arr 16)
  deriving DecidableEq, Repr

variable [ScrollRule]

namespace MeshPeeringManagement

/-- The common end of the constructors: write into twenty zero bytes, unwrapping, and keep the
offset reached. -/
def build (p : MeshPeeringProtocolIdentifier) (l : BitVec 16) (w : Wr Unit) :
    Res MeshPeeringManagement :=
  match w (List.replicate 20 0) 0 with
  | .ok (_, rest, off) => if h : rest.length = 20 then .ok ⟨p, l, ⟨rest, h⟩, off⟩ else .panic
  | .err _ => .panic
  | .panic => .panic

/-- `if let Some(key) = pmk { rest.gwrite(key, &mut offset).unwrap(); }` -/
def putPmk : Option (Arr 16) → Wr Unit
  | some key => Wr.gwrite (writeBytes key.val)
  | none => pure ()

/-- `if let Some(peer_link_id) = peer_link_id { rest.gwrite(..).unwrap(); }` -/
def putPeer : Option (BitVec 16) → Wr Unit
  | some x => Wr.gwrite (writeLE x)
  | none => pure ()

/-- `new_open`, /repo/src/elements/mesh/mesh_peering_management.rs:47-65. -/
def newOpen (p : MeshPeeringProtocolIdentifier) (l : BitVec 16) (pmk : Option (Arr 16)) :
    Res MeshPeeringManagement := build p l (putPmk pmk)

/-- `new_confirm`, /repo/src/elements/mesh/mesh_peering_management.rs:67-88. -/
def newConfirm (p : MeshPeeringProtocolIdentifier) (l peer : BitVec 16) (pmk : Option (Arr 16)) :
    Res MeshPeeringManagement := build p l do
  Wr.gwrite (writeLE peer)
  putPmk pmk

/-- `new_close`, /repo/src/elements/mesh/mesh_peering_management.rs:90-115. -/
def newClose (p : MeshPeeringProtocolIdentifier) (l : BitVec 16) (peer : Option (BitVec 16))
    (reason : IEEE80211Reason) (pmk : Option (Arr 16)) : Res MeshPeeringManagement := build p l do
  putPeer peer
  Wr.gwrite (writeLE reason.intoBits)
  putPmk pmk

/-- Reads from the array, unwrapped. -/
def parse {α : Type} (e : MeshPeeringManagement) (r : Rd α) : Res (Option α) :=
  match Rd.run r e.rest.val with
  | .ok (a, _) => .ok (some a)
  | .err _ => .panic
  | .panic => .panic

/-- `parse_as_open`, /repo/src/elements/mesh/mesh_peering_management.rs:117-136. -/
def parseAsOpen (e : MeshPeeringManagement) : Res (Option ParsedMeshPeeringManagement) :=
  if e.rest_len = 0 then
    .ok (some ⟨e.mesh_peering_protocol_identifier, e.local_link_id, none, none, none⟩)
  else if e.rest_len = 16 then e.parse do
    let pmk ← Rd.gread (readArr 16)
    pure ⟨e.mesh_peering_protocol_identifier, e.local_link_id, none, none, some pmk⟩
  else .ok none

/-- `parse_as_confirm`, /repo/src/elements/mesh/mesh_peering_management.rs:138-161. -/
def parseAsConfirm (e : MeshPeeringManagement) : Res (Option ParsedMeshPeeringManagement) :=
  if e.rest_len = 2 then e.parse do
    let peer ← Rd.gread (readLE 16)
    pure ⟨e.mesh_peering_protocol_identifier, e.local_link_id, some peer, none, none⟩
  else if e.rest_len = 2 + 16 then e.parse do
    let peer ← Rd.gread (readLE 16)
    let pmk ← Rd.gread (readArr 16)
    pure ⟨e.mesh_peering_protocol_identifier, e.local_link_id, some peer, none, some pmk⟩
  else .ok none

/-- `parse_as_close`, /repo/src/elements/mesh/mesh_peering_management.rs:163-200. -/
def parseAsClose (e : MeshPeeringManagement) : Res (Option ParsedMeshPeeringManagement) :=
  if e.rest_len = 2 then e.parse do
    let reason ← Rd.gread (readLE 16)
    pure ⟨e.mesh_peering_protocol_identifier, e.local_link_id, none, some (.fromBits reason), none⟩
  else if e.rest_len = 2 + 2 then e.parse do
    let peer ← Rd.gread (readLE 16)
    let reason ← Rd.gread (readLE 16)
    pure ⟨e.mesh_peering_protocol_identifier, e.local_link_id, some peer, some (.fromBits reason),
      none⟩
  else if e.rest_len = 2 + 16 then e.parse do
    let reason ← Rd.gread (readLE 16)
    let pmk ← Rd.gread (readArr 16)
    pure ⟨e.mesh_peering_protocol_identifier, e.local_link_id, none, some (.fromBits reason),
      some pmk⟩
  else if e.rest_len = 2 + 2 + 16 then e.parse do
    let peer ← Rd.gread (readLE 16)
    let reason ← Rd.gread (readLE 16)
    let pmk ← Rd.gread (readArr 16)
    pure ⟨e.mesh_peering_protocol_identifier, e.local_link_id, some peer, some (.fromBits reason),
      some pmk⟩
  else .ok none

/-- `MeasureWith`, /repo/src/elements/mesh/mesh_peering_management.rs:228-232. -/
def measure (e : MeshPeeringManagement) : Nat := 2 + 2 + e.rest_len

end MeshPeeringManagement

/-- The copy of the rest, /repo/src/elements/mesh/mesh_peering_management.rs:210-213:
`copy_from_slice` panics when the lengths differ, that is, when more than twenty bytes are left. -/
def meshPeeringRest (left : Bytes) : Res (Arr 20) :=
  let rest_len := min 20 left.length
  if h : rest_len = left.length then
    .ok ⟨left ++ (List.replicate 20 0).drop rest_len, by simp; omega⟩
  else .panic

/-- `TryFromCtx`, /repo/src/elements/mesh/mesh_peering_management.rs:203-226.  The rest is taken but not
counted as consumed. -/
def readMeshPeering : Reader MeshPeeringManagement := Rd.run do
  let p ← Rd.gread (readLE 16)
  let l ← Rd.gread (readLE 16)
  let left ← Rd.remaining
  let rest ← Rd.lift (meshPeeringRest left)
  pure ⟨.fromBits p, l, rest, min 20 left.length⟩

/-- `TryIntoCtx`, /repo/src/elements/mesh/mesh_peering_management.rs:234-248.  Slicing the array by the
length field panics when that is too large. -/
def writeMeshPeering (e : MeshPeeringManagement) : Writer := Wr.run do
  Wr.gwrite (writeLE e.mesh_peering_protocol_identifier.intoBits)
  Wr.gwrite (writeLE e.local_link_id)
  let s ← Wr.lift (if e.rest_len ≤ 20 then .ok (e.rest.val.take e.rest_len) else .panic)
  Wr.gwrite (writeBytes s)

/-- `Element`, /repo/src/elements/mesh/mesh_peering_management.rs:250-253. -/
def meshPeeringElem (e : MeshPeeringManagement) : Elem := ⟨.Id 117, ⟨writeMeshPeering e, e.measure⟩⟩

/-- The parsing side of `Element`. -/
def meshPeeringKind : ElementKind MeshPeeringManagement := ⟨.Id 117, readMeshPeering⟩

end Verif
