import Verif.Model.Common
/-!
# `/repo/src/elements/mod.rs`, `element_chain.rs`, `vendor_specific_element.rs`

Elements, raw elements (TLVs of the `tlv-rs` crate), lookup and element chains.
-/
namespace Verif

/-- `ElementID`, /repo/src/elements/mod.rs:50-60. -/
inductive ElementID where
  | Id (id : Byte)
  | ExtId (ext : Byte)
  | VendorSpecific (pfx : Bytes)
  deriving DecidableEq, Repr

namespace ElementID

/-- `ElementID::is_ext`, /repo/src/elements/mod.rs:62-64. -/
def isExt : ElementID → Bool
  | .ExtId _ => true
  | _ => false

/-- `ElementID::id`, /repo/src/elements/mod.rs:68-74. -/
def id : ElementID → Byte
  | .Id i => i
  | .ExtId _ => 0xff
  | .VendorSpecific _ => 0xdd

/-- `ElementID::ext_id`, /repo/src/elements/mod.rs:78-83. -/
def extId : ElementID → Option Byte
  | .ExtId e => some e
  | _ => none

/-- `ElementID::vendor_prefix`, /repo/src/elements/mod.rs:84-89. -/
def vendorPrefix : ElementID → Option Bytes
  | .VendorSpecific p => some p
  | _ => none

/-- `ElementID::element_header_length`, /repo/src/elements/mod.rs:90-99. -/
def elementHeaderLength : ElementID → Nat
  | .Id _ => 2
  | .ExtId _ => 3
  | .VendorSpecific p => 2 + p.length

end ElementID

/-- A value that can be written: its `TryIntoCtx` and `MeasureWith` implementations. -/
structure Obj where
  write : Writer
  measure : Nat

/-- `RawIEEE80211Element` (`tlv_rs::RawTLV<u8, u8>`), /repo/src/elements/mod.rs:44. -/
structure RawElement where
  tlv_type : Byte
  slice : Bytes
  deriving DecidableEq, Repr

/-- `RawIEEE80211ExtElement`, /repo/src/elements/mod.rs:121-124. -/
structure RawExtElement where
  ext_id : Byte
  slice : Bytes
  deriving DecidableEq, Repr

variable [ScrollRule]

/-- `RawTLV::try_from_ctx` of `tlv-rs` (dependency). -/
def readRawElement : Reader RawElement := Rd.run do
  let tlv_type ← Rd.gread readU8
  let len ← Rd.gread readU8
  let slice ← Rd.gread (readBytes len.toNat)
  pure { tlv_type, slice }

/-- `TLV::try_into_ctx` of `tlv-rs` (dependency): type, measured length, payload.  A length that does
not fit in a byte is an error. -/
def writeTLV (tlv_type : Byte) (payload : Obj) : Writer := Wr.run do
  Wr.gwrite (writeU8 tlv_type)
  let len ← Wr.lift (if payload.measure ≤ 255 then .ok (BitVec.ofNat 8 payload.measure)
    else .err .badInput)
  Wr.gwrite (writeU8 len)
  Wr.gwrite payload.write

/-- `RawTLV::try_into_ctx` of `tlv-rs` (dependency). -/
def writeRawElement (e : RawElement) : Writer :=
  writeTLV e.tlv_type ⟨writeBytes e.slice, e.slice.length⟩

/-- `TryFromCtx for RawIEEE80211ExtElement`, /repo/src/elements/mod.rs:125-135.  The slice is taken
but not counted as consumed. -/
def readRawExtElement : Reader RawExtElement := Rd.run do
  let ext_id ← Rd.gread readU8
  let slice ← Rd.remaining
  pure { ext_id, slice }

/-- `MeasureWith for RawIEEE80211ExtElement`, /repo/src/elements/mod.rs:136-140. -/
def RawExtElement.measure (e : RawExtElement) : Nat := e.slice.length + 1

/-- `TryIntoCtx for RawIEEE80211ExtElement`, /repo/src/elements/mod.rs:141-150. -/
def writeRawExtElement (e : RawExtElement) : Writer := Wr.run do
  Wr.gwrite (writeU8 e.ext_id)
  Wr.gwrite (writeBytes e.slice)

/-- `TypedIEEE80211ExtElement` as a written object, /repo/src/elements/mod.rs:157-189. -/
def typedExtElement (ext_id : Byte) (payload : Obj) : Obj where
  measure := payload.measure + 1
  write := Wr.run do
    Wr.gwrite (writeU8 ext_id)
    Wr.gwrite payload.write

/-- `TryFromCtx for TypedIEEE80211ExtElement`, /repo/src/elements/mod.rs:161-173. -/
def readTypedExtElement {α : Type} (r : Reader α) : Reader (Byte × α) := Rd.run do
  let ext_id ← Rd.gread readU8
  let payload ← Rd.gread r
  pure (ext_id, payload)

/-- `TryFromCtx for VendorSpecificElement`, /repo/src/elements/vendor_specific_element.rs:54-65: the
whole input is the payload. -/
def readVendorSpecificElement : Reader Bytes := fun inp => .ok (inp, inp.length)

/-- `PrefixedVendorPayload` as a written object, /repo/src/elements/vendor_specific_element.rs:88-107. -/
def prefixedVendorPayload (pfx : Bytes) (payload : Obj) : Obj where
  measure := pfx.length + payload.measure
  write := Wr.run do
    Wr.gwrite (writeBytes pfx)
    Wr.gwrite payload.write

/-- `VendorSpecificElement` as a written object, /repo/src/elements/vendor_specific_element.rs:49-75. -/
def vendorSpecificElement (payload : Obj) : Obj where
  measure := payload.measure
  write := Wr.run (Wr.gwrite payload.write)

/-- `VendorSpecificElement::get_payload_if_prefix_matches`,
/repo/src/elements/vendor_specific_element.rs:25-31. -/
def getPayloadIfPrefixMatches (payload pfx : Bytes) : Res (Option Bytes) :=
  if pfx.isPrefixOf payload then
    if pfx.length ≤ payload.length then .ok (some (payload.drop pfx.length)) else .panic
  else .ok none

/-- A written element: `Element::ELEMENT_ID` and the object, /repo/src/elements/mod.rs:103-114. -/
structure Elem where
  id : ElementID
  obj : Obj

/-- `MeasureWith for WrappedIEEE80211Element`, /repo/src/elements/mod.rs:310-315. -/
def Elem.wrappedMeasure (e : Elem) : Nat := e.id.elementHeaderLength + e.obj.measure

/-- `TryIntoCtx for WrappedIEEE80211Element`, /repo/src/elements/mod.rs:316-351. -/
def Elem.writeWrapped (e : Elem) : Writer :=
  match e.id with
  | .Id id => pwrite (writeTLV id e.obj) 0
  | .ExtId ext => pwrite (writeTLV 0xff (typedExtElement ext e.obj)) 0
  | .VendorSpecific pfx =>
    pwrite (writeTLV 0xdd (vendorSpecificElement (prefixedVendorPayload pfx e.obj))) 0

/-- `ReadElements::element_id_matches`, /repo/src/elements/mod.rs:202-226. -/
def elementIdMatches (raw : RawElement) (id : ElementID) : Res Bool :=
  match id with
  | .Id id => .ok (id == raw.tlv_type)
  | .ExtId ext =>
    if raw.tlv_type = 0xff then do
      match ← (pread readRawExtElement 0 raw.slice).toOption with
      | some e => pure (ext == e.ext_id)
      | none => pure false
    else .ok false
  | .VendorSpecific pfx =>
    if raw.tlv_type = 0xdd then do
      match ← (pread readVendorSpecificElement 0 raw.slice).toOption with
      | some payload => pure (pfx.isPrefixOf payload)
      | none => pure false
    else .ok false

/-- A readable element: `Element::ELEMENT_ID` and the parser of `Element::ReadType`,
/repo/src/elements/mod.rs:103-114. -/
structure ElementKind (α : Type) where
  id : ElementID
  read : Reader α

/-- `ReadElements::parse_raw_element`, /repo/src/elements/mod.rs:230-247.  Slicing off a vendor prefix
that is longer than the payload panics. -/
def parseRawElement {α : Type} (k : ElementKind α) (raw : RawElement) : Res (Option α) := do
  let slice ← (match k.id with
    | .Id _ => .ok (some raw.slice)
    | .ExtId _ => do
      let e ← (pread readRawExtElement 0 raw.slice).toOption
      pure (e.map RawExtElement.slice)
    | .VendorSpecific pfx => do
      match ← (pread readVendorSpecificElement 0 raw.slice).toOption with
      | some payload =>
        if pfx.length ≤ payload.length then pure (some (payload.drop pfx.length)) else .panic
      | none => pure none : Res (Option Bytes))
  match slice with
  | none => pure none
  | some s => (pread k.read 0 s).toOption

/-- `ReadElements::raw_element_iterator` driven to its end, /repo/src/elements/mod.rs:249-251. -/
def rawElements (bytes : Bytes) : Res (List RawElement) :=
  (ReadIterator.new bytes).collect readRawElement (bytes.length + 1)

/-- The closure of `get_matching_elements_raw`, /repo/src/elements/mod.rs:254-260. -/
def matchRaw (id : ElementID) (raw : RawElement) : Res (Option RawElement) := do
  let m ← elementIdMatches raw id
  pure (if m then some raw else none)

/-- The closure of `get_matching_elements`, /repo/src/elements/mod.rs:262-272. -/
def matchTyped {α : Type} (k : ElementKind α) (raw : RawElement) : Res (Option α) := do
  let m ← elementIdMatches raw k.id
  if m then parseRawElement k raw else pure none

/-- `ReadElements::get_matching_elements_raw` driven to its end, /repo/src/elements/mod.rs:254-260. -/
def getMatchingElementsRaw (bytes : Bytes) (id : ElementID) : Res (List RawElement) :=
  (ReadIterator.new bytes).collectMap readRawElement (matchRaw id) (bytes.length + 1)

/-- `ReadElements::get_matching_elements` driven to its end, /repo/src/elements/mod.rs:262-272. -/
def getMatchingElements {α : Type} (bytes : Bytes) (k : ElementKind α) : Res (List α) :=
  (ReadIterator.new bytes).collectMap readRawElement (matchTyped k) (bytes.length + 1)

/-- `ReadElements::get_first_element_raw`, /repo/src/elements/mod.rs:275-280. -/
def getFirstElementRaw (bytes : Bytes) (id : ElementID) : Res (Option RawElement) :=
  ((ReadIterator.new bytes).findMap readRawElement (matchRaw id) (bytes.length + 1)).map Prod.fst

/-- `ReadElements::get_first_element`, /repo/src/elements/mod.rs:282-284. -/
def getFirstElement {α : Type} (bytes : Bytes) (k : ElementKind α) : Res (Option α) :=
  ((ReadIterator.new bytes).findMap readRawElement (matchTyped k) (bytes.length + 1)).map Prod.fst

/-- `TryFromCtx for ReadElements`, /repo/src/elements/mod.rs:286-291: all bytes. -/
def readElements : Reader Bytes := fun inp => .ok (inp, inp.length)

/-- `ReadElements` as a written object, /repo/src/elements/mod.rs:292-302. -/
def elementsObj (bytes : Bytes) : Obj := ⟨pwrite (writeBytes bytes) 0, bytes.length⟩

/-- An item of an element chain: a typed element, or a raw element. -/
inductive ChainItem where
  | typed (e : Elem)
  | raw (e : RawElement)

/-- `ElementChainEnd` and `ElementChainLink`, /repo/src/elements/element_chain.rs:39-42,96-101. -/
inductive Chain where
  | last (inner : ChainItem)
  | link (inner : ChainItem) (next : Chain)

namespace Chain

/-- `ChainElement::append`, /repo/src/elements/element_chain.rs:53-58 (end) and :105-110 (link). -/
def append : Chain → ChainItem → Chain
  | .last i, v => .link i (.last v)
  | .link i n, v => .link i (n.append v)

/-- `MeasureWith` of the chain: /repo/src/elements/element_chain.rs:66-68 (end), :71-73 (raw end, which
leaves out the two header bytes), :119-123 (link), :129-131 (raw link). -/
def measure : Chain → Nat
  | .last (.typed e) => e.id.elementHeaderLength + e.obj.measure
  | .last (.raw e) => e.slice.length
  | .link (.typed e) n => e.id.elementHeaderLength + e.obj.measure + n.measure
  | .link (.raw e) n => e.slice.length + 2 + n.measure

/-- `TryIntoCtx` of the chain: /repo/src/elements/element_chain.rs:82-84 (end), :88-90 (raw end),
:141-147 (link), :154-160 (raw link). -/
def write : Chain → Writer
  | .last (.typed e) => pwrite e.writeWrapped 0
  | .last (.raw e) => pwrite (writeRawElement e) 0
  | .link (.typed e) n => Wr.run do
    Wr.gwrite e.writeWrapped
    Wr.gwrite n.write
  | .link (.raw e) n => Wr.run do
    Wr.gwrite (writeRawElement e)
    Wr.gwrite n.write

/-- The chain as a written object. -/
def obj (c : Chain) : Obj := ⟨c.write, c.measure⟩

end Chain

/-- The chain built by `element_chain! { a, b, ... }`, /repo/src/elements/element_chain.rs:175-199. -/
def elementChain : ChainItem → List ChainItem → Chain
  | i, [] => .last i
  | i, j :: js => .link i (elementChain j js)

/-- `Empty` as a written object, /repo/src/common/mod.rs:139-159 (`element_chain! {}`). -/
def emptyObj : Obj := ⟨writeEmpty, 0⟩

end Verif
