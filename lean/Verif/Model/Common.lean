import Verif.Model.CommonTypes
/-!
# `/repo/src/common`: frame types, association IDs, frame check sequence, `ReadIterator`
-/
namespace Verif

/-- `IEEE_OUI`, /repo/src/common/mod.rs:32. -/
def IEEE_OUI : Bytes := [0x00, 0x0f, 0xac]

/-- `WIFI_ALLIANCE_OUI`, /repo/src/common/mod.rs:33. -/
def WIFI_ALLIANCE_OUI : Bytes := [0x50, 0x6f, 0x9a]

/-- `FrameType`, /repo/src/common/mod.rs:38-43. -/
inductive FrameType where
  | Management (s : ManagementFrameSubtype)
  | Control (s : ControlFrameSubtype)
  | Data (s : DataFrameSubtype)
  | Unknown (v : BitVec 8)
  deriving DecidableEq, Repr

namespace FrameType

/-- `FrameType::from_bits`, /repo/src/common/mod.rs:46-55. -/
def fromBits (value : BitVec 8) : FrameType :=
  let frame_type := value &&& 0b11
  let frame_subtype := (value &&& 0b111100) >>> 2
  if frame_type = 0b00 then .Management (.fromBits frame_subtype)
  else if frame_type = 0b01 then .Control (.fromBits frame_subtype)
  else if frame_type = 0b10 then .Data (.fromBits frame_subtype)
  else .Unknown frame_subtype

/-- `FrameType::into_bits`, /repo/src/common/mod.rs:57-64.  A `u8` shift drops
the bits shifted out; it does not panic. -/
def intoBits : FrameType → BitVec 8
  | .Management s => s.intoBits <<< 2
  | .Control s => 0b01 ||| (s.intoBits <<< 2)
  | .Data s => 0b10 ||| (s.intoBits <<< 2)
  | .Unknown s => 0b11 ||| (s <<< 2)

/-- `FrameType::type_matches`, /repo/src/common/mod.rs:66-68. -/
def typeMatches : FrameType → FrameType → Bool
  | .Management _, .Management _ => true
  | .Control _, .Control _ => true
  | .Data _, .Data _ => true
  | .Unknown _, .Unknown _ => true
  | _, _ => false

/-- `FrameType::has_sequence_control`, /repo/src/common/mod.rs:70-72. -/
def hasSequenceControl : FrameType → Bool
  | .Data _ | .Management _ => true
  | _ => false

end FrameType

/-- `ControlFrameSubtype::has_address_2`, /repo/src/common/subtypes/control.rs:27-32. -/
def ControlFrameSubtype.hasAddress2 : ControlFrameSubtype → Bool
  | .PSPoll | .CFEnd | .BlockAckRequest | .BlockAck => true
  | _ => false

/-- `FrameType::has_address_2`, /repo/src/common/mod.rs:74-80. -/
def FrameType.hasAddress2 : FrameType → Bool
  | .Data _ | .Management _ => true
  | .Control s => s.hasAddress2
  | _ => false

/-- `FrameType::has_address_3`, /repo/src/common/mod.rs:82-84. -/
def FrameType.hasAddress3 : FrameType → Bool
  | .Data _ | .Management _ => true
  | _ => false

/-- `DataFrameSubtype::data_frame_cf`, /repo/src/common/subtypes/data.rs:41-43. -/
def DataFrameSubtype.dataFrameCf (s : DataFrameSubtype) : DataFrameCF :=
  .fromBits (s.intoBits &&& 0b0011)

/-- `DataFrameSubtype::is_qos`, /repo/src/common/subtypes/data.rs:45-56. -/
def DataFrameSubtype.isQos : DataFrameSubtype → Bool
  | .QoSData | .QoSDataCFAck | .QoSDataCFPoll | .QoSDataCFAckCFPoll
  | .QoSNull | .QoSCFPoll | .QoSCFAckCFPoll => true
  | _ => false

/-- `DataFrameSubtype::has_payload`, /repo/src/common/subtypes/data.rs:58-70. -/
def DataFrameSubtype.hasPayload : DataFrameSubtype → Bool
  | .Data | .DataCFAck | .DataCFPoll | .DataCFAckCFPoll
  | .QoSData | .QoSDataCFAck | .QoSDataCFPoll | .QoSDataCFAckCFPoll => true
  | _ => false

namespace FrameControlField

/-- `FrameControlField::frame_type()` decoded, /repo/src/common/mod.rs:124-125. -/
def frameType (f : FrameControlField) : FrameType := .fromBits (f.frame_type.zeroExtend 8)

/-- `FrameControlField::with_frame_type`, /repo/src/common/mod.rs:124-125.  The
generated setter panics when `into_bits` does not fit in six bits. -/
def withFrameType (f : FrameControlField) (t : FrameType) : Res FrameControlField := do
  let v ← fitField 6 t.intoBits
  pure (f.with_frame_type v)

/-- `FrameControlField::flags()` decoded, /repo/src/common/mod.rs:126-127. -/
def fcfFlags (f : FrameControlField) : FCFFlags := ⟨f.flags⟩

/-- `FrameControlField::with_flags`, /repo/src/common/mod.rs:126-127. -/
def withFcfFlags (f : FrameControlField) (g : FCFFlags) : FrameControlField := f.with_flags g.bits

end FrameControlField

namespace AssociationID

/-- `AssociationID::new()` generated by `bitfield`: defaults, /repo/src/common/aid.rs:5-17. -/
def new : AssociationID := ⟨0xc000⟩

/-- `AssociationID::new_checked`, /repo/src/common/aid.rs:27-34.  The setter
cannot panic here: the masked value has 14 bits. -/
def newChecked (aid : BitVec 16) : Option AssociationID :=
  let aid := aid &&& ~~~0xc000
  if 1 ≤ aid.toNat ∧ aid.toNat ≤ 2007 then
    some (new.with_internal_aid (aid.truncate 14))
  else none

/-- `AssociationID::new_unchecked`, /repo/src/common/aid.rs:37-39. -/
def newUnchecked (aid : BitVec 16) : Res AssociationID := do
  let v ← fitField 14 aid
  pure (new.with_internal_aid v)

/-- `AssociationID::aid`, /repo/src/common/aid.rs:41-43. -/
def aid (a : AssociationID) : BitVec 16 := a.internal_aid.zeroExtend 16

/-- `AssociationID::into_bits`, /repo/src/common/aid.rs:45-47. -/
def intoBits (a : AssociationID) : BitVec 16 := a.bits

/-- The `aid!` macro, /repo/src/common/aid.rs:76-89. -/
def aidMacro (aid : BitVec 16) : Res AssociationID :=
  if aid.toNat = 0 then .panic else if 2007 < aid.toNat then .panic else newUnchecked aid

end AssociationID

/-- The CRC-32 of the `crc32fast` crate, left uninterpreted. -/
class Crc32 where
  hash : Bytes → BitVec 32

variable [ScrollRule] [Crc32]

/-- `strip_and_validate_fcs`, /repo/src/common/mod.rs:161-171.  `split_at` with
the underflowing index panics in every build mode. -/
def stripAndValidateFcs (bytes : Bytes) : Res Bytes := do
  let mid ← Res.sub bytes.length 4
  let body := bytes.take mid
  let fcs := bytes.drop mid
  let v ← pread (readLE 32) 0 fcs
  if v = Crc32.hash body then pure body else .err .badInput

/-- `attach_fcs`, /repo/src/common/mod.rs:173-176. -/
def attachFcs : Wr Unit := fun buf off =>
  if off ≤ buf.length then Wr.gwrite (writeLE (Crc32.hash (buf.take off))) buf off
  else .panic

/-- `Empty`, /repo/src/common/mod.rs:139-159: reads and writes nothing. -/
def readEmpty : Reader Unit := fun _ => .ok ((), 0)

/-- Writer of `Empty`, /repo/src/common/mod.rs:154-159. -/
def writeEmpty : Writer := fun buf => .ok (buf, 0)

/-- `ReadIterator`, /repo/src/common/read_iterator.rs:8-20.  The phantom types
become the reader handed to `next`. -/
structure ReadIterator where
  bytes : Option Bytes
  deriving DecidableEq, Repr

namespace ReadIterator

/-- `ReadIterator::new`, /repo/src/common/read_iterator.rs:15-20. -/
def new (bytes : Bytes) : ReadIterator := ⟨some bytes⟩

/-- `Iterator::next`, /repo/src/common/read_iterator.rs:62-80.  Slicing past the
end panics. -/
def next {α : Type} (r : Reader α) (it : ReadIterator) : Res (Option α × ReadIterator) :=
  match it.bytes with
  | none => .ok (none, it)
  | some bytes =>
    match r bytes with
    | .ok (ret, offset) =>
      if offset ≤ bytes.length then .ok (some ret, ⟨some (bytes.drop offset)⟩) else .panic
    | .err _ => .ok (none, ⟨none⟩)
    | .panic => .panic

/-- `ExactSizeIterator::len`, /repo/src/common/read_iterator.rs:81-90. -/
def len (it : ReadIterator) : Nat := (it.bytes.map List.length).getD 0

/-- `TryIntoCtx for ReadIterator`, /repo/src/common/read_iterator.rs:22-27. -/
def write (it : ReadIterator) : Writer := pwrite (writeBytes (it.bytes.getD [])) 0

/-- `MeasureWith for ReadIterator`, /repo/src/common/read_iterator.rs:28-32. -/
def measure (it : ReadIterator) : Nat := (it.bytes.getD []).length

/-- Drive `next` until it returns `None` (a `for` loop over the iterator).  The first argument bounds
the number of calls so that the definition is total; running out of it is `panic`, and the
theorems about the callers show that it does not happen. -/
def collect {α : Type} (r : Reader α) : Nat → ReadIterator → Res (List α)
  | 0, _ => .panic
  | fuel + 1, it => do
    let (x, it') ← next r it
    match x with
    | none => pure []
    | some a => do
      let rest ← collect r fuel it'
      pure (a :: rest)

/-- `iter.filter_map(f).next()`: call `next` until `f` accepts an item.  Bound as in `collect`. -/
def findMap {α β : Type} (r : Reader α) (f : α → Res (Option β)) :
    Nat → ReadIterator → Res (Option β × ReadIterator)
  | 0, _ => .panic
  | fuel + 1, it => do
    let (x, it') ← next r it
    match x with
    | none => pure (none, it')
    | some a => do
      match ← f a with
      | some b => pure (some b, it')
      | none => findMap r f fuel it'

/-- `iter.filter_map(f)` driven to its end. -/
def collectMap {α β : Type} (r : Reader α) (f : α → Res (Option β)) :
    Nat → ReadIterator → Res (List β)
  | 0, _ => .panic
  | fuel + 1, it => do
    let (x, it') ← next r it
    match x with
    | none => pure []
    | some a => do
      let b ← f a
      let rest ← collectMap r f fuel it'
      pure (b.toList ++ rest)

end ReadIterator

end Verif
