import Verif.Model.Frames.Mgmt
/-!
# `/repo/src/frames/data_frame`: header, frame, A-MSDU

The builder is in `Model/Frames/Builder.lean`, crypto wrapping in `Model/Crypto`.
-/
namespace Verif

/-- `DataFrameHeader`, /repo/src/frames/data_frame/header.rs:16-34. -/
structure DataFrameHeader where
  subtype : DataFrameSubtype
  fcf_flags : FCFFlags
  duration : BitVec 16
  address_1 : Mac
  address_2 : Mac
  address_3 : Mac
  sequence_control : SequenceControl
  address_4 : Option Mac
  qos : Option (Arr 2)
  ht_control : Option (Arr 4)
  deriving DecidableEq

namespace DataFrameHeader

/-- `get_fcf`, /repo/src/frames/data_frame/header.rs:37-41. -/
def getFcf (h : DataFrameHeader) : Res FrameControlField := do
  let f ← FrameControlField.withFrameType ⟨0⟩ (.Data h.subtype)
  pure (f.withFcfFlags h.fcf_flags)

/-- `length_in_bytes`, /repo/src/frames/data_frame/header.rs:45-58; also `measure_with`, :232-236. -/
def lengthInBytes (h : DataFrameHeader) : Nat :=
  2 + 2 + 6 + 6 + 6 + 2 + (if h.address_4.isSome then 6 else 0) +
    (if h.qos.isSome then 2 else 0) + (if h.ht_control.isSome then 4 else 0)

/-- `is_amsdu`, /repo/src/frames/data_frame/header.rs:60-66. -/
def isAmsdu (h : DataFrameHeader) : Bool :=
  match h.qos with
  | some qos => (qos.val.headD 0).getLsbD 7 && h.subtype.hasPayload
  | none => false

/-- `is_no_cf`, /repo/src/frames/data_frame/header.rs:72-80. -/
def isNoCf (h : DataFrameHeader) : Bool :=
  match h.subtype with
  | .Data | .Null | .QoSData | .QoSNull => true
  | _ => false

/-- `is_cf_ack`, /repo/src/frames/data_frame/header.rs:86-91. -/
def isCfAck (h : DataFrameHeader) : Bool :=
  match h.subtype with
  | .DataCFAck | .CFAck | .QoSDataCFAck => true
  | _ => false

/-- `is_cf_poll`, /repo/src/frames/data_frame/header.rs:97-105. -/
def isCfPoll (h : DataFrameHeader) : Bool :=
  match h.subtype with
  | .DataCFPoll | .CFPoll | .QoSDataCFPoll | .QoSCFPoll => true
  | _ => false

/-- `is_cf_ack_poll`, /repo/src/frames/data_frame/header.rs:111-119. -/
def isCfAckPoll (h : DataFrameHeader) : Bool :=
  match h.subtype with
  | .DataCFAckCFPoll | .CFAckCFPoll | .QoSDataCFAckCFPoll | .QoSCFAckCFPoll => true
  | _ => false

/-- `receiver_address`, /repo/src/frames/data_frame/header.rs:124-126. -/
def receiverAddress (h : DataFrameHeader) : Mac := h.address_1

/-- `transmitter_address`, /repo/src/frames/data_frame/header.rs:131-133. -/
def transmitterAddress (h : DataFrameHeader) : Mac := h.address_2

/-- `destination_address`, /repo/src/frames/data_frame/header.rs:142-150. -/
def destinationAddress (h : DataFrameHeader) : Option Mac :=
  if !h.fcf_flags.to_ds then some h.address_1
  else if !h.isAmsdu then some h.address_3
  else none

/-- `source_address`, /repo/src/frames/data_frame/header.rs:172-182. -/
def sourceAddress (h : DataFrameHeader) : Option Mac :=
  if !h.fcf_flags.from_ds then some h.address_2
  else if !h.fcf_flags.to_ds && h.fcf_flags.from_ds && !h.isAmsdu then some h.address_3
  else if h.fcf_flags.to_ds && h.fcf_flags.from_ds && !h.isAmsdu then h.address_4
  else none

/-- `bssid`, /repo/src/frames/data_frame/header.rs:206-216. -/
def bssid (h : DataFrameHeader) : Option Mac :=
  if !h.fcf_flags.to_ds && !h.fcf_flags.from_ds then some h.address_3
  else if h.fcf_flags.from_ds then some h.address_2
  else if h.fcf_flags.to_ds then some h.address_1
  else none

/-- Assigning through `destination_address_mut`, /repo/src/frames/data_frame/header.rs:154-162: the new
header, or `none` when no reference is returned. -/
def setDestinationAddress (h : DataFrameHeader) (a : Mac) : Option DataFrameHeader :=
  if !h.fcf_flags.to_ds then some { h with address_1 := a }
  else if !h.isAmsdu then some { h with address_3 := a }
  else none

/-- Assigning through `source_address_mut`, /repo/src/frames/data_frame/header.rs:186-196. -/
def setSourceAddress (h : DataFrameHeader) (a : Mac) : Option DataFrameHeader :=
  if !h.fcf_flags.from_ds then some { h with address_2 := a }
  else if !h.fcf_flags.to_ds && h.fcf_flags.from_ds && !h.isAmsdu then some { h with address_3 := a }
  else if h.fcf_flags.to_ds && h.fcf_flags.from_ds && !h.isAmsdu then
    match h.address_4 with
    | some _ => some { h with address_4 := some a }
    | none => none
  else none

/-- Assigning through `bssid_mut`, /repo/src/frames/data_frame/header.rs:220-230. -/
def setBssid (h : DataFrameHeader) (a : Mac) : Option DataFrameHeader :=
  if (!h.fcf_flags.to_ds && !h.fcf_flags.from_ds) || h.isAmsdu then some { h with address_3 := a }
  else if h.fcf_flags.from_ds then some { h with address_2 := a }
  else if h.fcf_flags.to_ds then some { h with address_1 := a }
  else none

end DataFrameHeader

variable [ScrollRule]

/-- `DataFrameHeader::try_from_ctx`, /repo/src/frames/data_frame/header.rs:237-286; it reads the frame
control field too. -/
def readDataHeader : Reader DataFrameHeader := Rd.run do
  let f ← Rd.gread (readLE 16)
  let fcf : FrameControlField := ⟨f⟩
  match fcf.frameType with
  | .Data subtype => do
    let duration ← Rd.gread (readLE 16)
    let address_1 ← Rd.gread readMac
    let address_2 ← Rd.gread readMac
    let address_3 ← Rd.gread readMac
    let seq ← Rd.gread (readLE 16)
    let address_4 ← Rd.opt (fcf.fcfFlags.to_ds && fcf.fcfFlags.from_ds) readMac
    let qos ← Rd.opt subtype.isQos (readArr 2)
    let ht_control ← Rd.opt fcf.fcfFlags.order (readArr 4)
    pure { subtype, fcf_flags := fcf.fcfFlags, duration, address_1, address_2, address_3,
           sequence_control := ⟨seq⟩, address_4, qos, ht_control }
  | _ => Rd.fail .badInput

/-- `DataFrameHeader::try_into_ctx`, /repo/src/frames/data_frame/header.rs:287-313; it does not write
the frame control field. -/
def writeDataHeader (h : DataFrameHeader) : Writer := Wr.run do
  Wr.gwrite (writeLE h.duration)
  Wr.gwrite (writeBytes h.address_1.val)
  Wr.gwrite (writeBytes h.address_2.val)
  Wr.gwrite (writeBytes h.address_3.val)
  Wr.gwrite (writeLE h.sequence_control.bits)
  Wr.opt h.address_4 fun x => writeBytes x.val
  Wr.opt h.qos fun x => writeBytes x.val
  Wr.opt h.ht_control fun x => writeBytes x.val

/-- `DataFrame`, /repo/src/frames/data_frame/mod.rs:106-116; `π` is `Obj` when written and `Bytes` when
read. -/
structure DataFrame (π : Type) where
  header : DataFrameHeader
  payload : Option π
  deriving DecidableEq

/-- A raw payload `&[u8]`, which scroll copies, as something to write. -/
def bytesObj (bytes : Bytes) : Obj := ⟨writeBytes bytes, bytes.length⟩

/-- `length_in_bytes`, /repo/src/frames/data_frame/mod.rs:119-126. -/
def DataFrame.lengthInBytes (f : DataFrame Bytes) : Nat :=
  f.header.lengthInBytes + (match f.payload with | some p => p.length | none => 0)

section Fcs
variable [Crc32]

/-- `DataFrame::try_from_ctx`, /repo/src/frames/data_frame/mod.rs:183-208, after the FCS has been
stripped.  The offset returned does not include the payload. -/
def readDataFrameBody : Reader (DataFrame Bytes) := Rd.run do
  let header ← Rd.gread readDataHeader
  if header.subtype.hasPayload then do
    let payload ← Rd.remaining
    pure { header, payload := some payload }
  else pure { header, payload := none }

/-- `DataFrame::try_from_ctx`, /repo/src/frames/data_frame/mod.rs:183-208. -/
def readDataFrame (with_fcs : Bool) : Reader (DataFrame Bytes) := fun inp => do
  let inp ← (if with_fcs then stripAndValidateFcs inp else .ok inp)
  readDataFrameBody inp

/-- `DataFrame::measure_with`, /repo/src/frames/data_frame/mod.rs:172-182. -/
def measureDataFrame (f : DataFrame Obj) (with_fcs : Bool) : Nat :=
  f.header.lengthInBytes + (match f.payload with | some p => p.measure | none => 0) +
    if with_fcs then 4 else 0

/-- `DataFrame::try_into_ctx`, /repo/src/frames/data_frame/mod.rs:209-231. -/
def writeDataFrame (f : DataFrame Obj) (with_fcs : Bool) : Writer := Wr.run do
  let fcf ← Wr.lift (FrameControlField.withFrameType ⟨0⟩ (.Data f.header.subtype))
  Wr.gwrite (writeLE (fcf.withFcfFlags f.header.fcf_flags).bits)
  Wr.gwrite (writeDataHeader f.header)
  Wr.opt f.payload fun p => p.write
  if with_fcs then attachFcs else pure ()

end Fcs

/-! ## A-MSDU, /repo/src/frames/data_frame/amsdu.rs -/

/-- `AMSDUSubframe`, /repo/src/frames/data_frame/amsdu.rs:13-19. -/
structure AMSDUSubframe (π : Type) where
  destination_address : Mac
  source_address : Mac
  payload : π
  deriving DecidableEq

/-- `offset += 3; offset &= !0b11`, /repo/src/frames/data_frame/amsdu.rs:42-43, 73-74. -/
def roundUp4 (n : Nat) : Nat := (n + 3) / 4 * 4

/-- `AMSDUSubframe::try_from_ctx`, /repo/src/frames/data_frame/amsdu.rs:32-53.  The offset returned may
lie outside the input. -/
def readSubframe : Reader (AMSDUSubframe Bytes) := fun inp =>
  (Rd.run (do
    let destination_address ← Rd.gread readMac
    let source_address ← Rd.gread readMac
    let length ← Rd.gread (readLE 16)
    let payload ← Rd.gread (readBytes length.toNat)
    pure { destination_address, source_address, payload } : Rd (AMSDUSubframe Bytes)) inp).map
      fun r => (r.1, roundUp4 r.2)

/-- `AMSDUSubframe::length_in_bytes`, /repo/src/frames/data_frame/amsdu.rs:21-26. -/
def AMSDUSubframe.lengthInBytes (s : AMSDUSubframe Bytes) : Nat := 14 + s.payload.length

/-- `AMSDUSubframe::measure_with`, /repo/src/frames/data_frame/amsdu.rs:27-31. -/
def measureSubframe (s : AMSDUSubframe Obj) : Nat := 14 + s.payload.measure

/-- `AMSDUSubframe::try_into_ctx`, /repo/src/frames/data_frame/amsdu.rs:54-75.  The padding bytes are
not written, and the offset returned may lie outside the buffer. -/
def writeSubframe (s : AMSDUSubframe Obj) : Writer := fun buf =>
  (Wr.run (do
    Wr.gwrite (writeBytes s.destination_address.val)
    Wr.gwrite (writeBytes s.source_address.val)
    Wr.gwrite (writeLE (BitVec.ofNat 16 s.payload.measure))
    Wr.gwrite s.payload.write) buf).map fun r => (r.1, roundUp4 r.2)

/-- `AMSDUSubframeIterator`, /repo/src/frames/data_frame/amsdu.rs:83-86. -/
structure SubframeIter where
  bytes : Option Bytes
  deriving DecidableEq, Repr

/-- `from_bytes`, /repo/src/frames/data_frame/amsdu.rs:89-91. -/
def SubframeIter.fromBytes (bytes : Bytes) : SubframeIter := ⟨some bytes⟩

/-- `length_in_bytes`, /repo/src/frames/data_frame/amsdu.rs:93-98. -/
def SubframeIter.lengthInBytes (it : SubframeIter) : Nat := (it.bytes.getD []).length

/-- `next`, /repo/src/frames/data_frame/amsdu.rs:102-116.  Slicing with the rounded offset panics when
it lies outside the input. -/
def SubframeIter.next (it : SubframeIter) : Res (Option (AMSDUSubframe Bytes) × SubframeIter) :=
  match it.bytes with
  | none => .ok (none, it)
  | some bytes =>
    match Rd.gread readSubframe bytes 0 with
    | .ok (s, offset) =>
      if offset ≤ bytes.length then .ok (some s, ⟨some (bytes.drop offset)⟩) else .panic
    | .err _ => .ok (none, ⟨none⟩)
    | .panic => .panic

/-- Collecting the iterator, bounded by `fuel` steps. -/
def SubframeIter.collect : Nat → SubframeIter → Res (List (AMSDUSubframe Bytes))
  | 0, _ => .ok []
  | fuel + 1, it => do
    let (o, it) ← it.next
    match o with
    | none => .ok []
    | some s => do
      let r ← it.collect fuel
      pure (s :: r)

/-- `AMSDUPayload::try_into_ctx`, /repo/src/frames/data_frame/amsdu.rs:150-161. -/
def writeAmsdu (frames : List (AMSDUSubframe Obj)) : Writer := Wr.run
  (frames.forM fun s => Wr.gwrite (writeSubframe s))

/-- `AMSDUPayload::measure_with` and `length_in_bytes`, /repo/src/frames/data_frame/amsdu.rs:129-149. -/
def measureAmsdu (frames : List (AMSDUSubframe Obj)) : Nat := (frames.map measureSubframe).sum

/-- `DataFrameReadPayload`, /repo/src/frames/data_frame/mod.rs:29-32. -/
inductive DataFrameReadPayload where
  | Single (bytes : Bytes)
  | AMSDU (it : SubframeIter)
  deriving DecidableEq, Repr

/-- `DataFrameReadPayload::length_in_bytes`, /repo/src/frames/data_frame/mod.rs:33-46. -/
def DataFrameReadPayload.lengthInBytes : DataFrameReadPayload → Nat
  | .Single bytes => bytes.length
  | .AMSDU it => it.lengthInBytes

/-- `DataFrameReadPayload::try_from_ctx`, /repo/src/frames/data_frame/mod.rs:47-59. -/
def readDataFramePayload (is_amsdu : Bool) : Reader DataFrameReadPayload := fun inp =>
  .ok (if is_amsdu then .AMSDU (.fromBytes inp) else .Single inp, inp.length)

/-- `DataFrameReadPayload::try_into_ctx`, /repo/src/frames/data_frame/mod.rs:60-68. -/
def writeDataFramePayload : DataFrameReadPayload → Writer
  | .Single data => pwrite (writeBytes data) 0
  | .AMSDU it => pwrite (writeBytes (it.bytes.getD [])) 0

end Verif
