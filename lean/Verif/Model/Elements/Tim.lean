import Verif.Model.Elements.Core
import Verif.Model.ElementTypes
import Verif.Basic.BitSet
/-!
# `/repo/src/elements/tim.rs`

The three bitmap types that `TIMBitmap` and `TIMElement` are used with are one inductive type here.
-/
namespace Verif

namespace TIMBitmapControl

/-- `TIMBitmapControl::n1`, /repo/src/elements/tim.rs:78-80 (at most 254, no overflow). -/
def n1 (c : TIMBitmapControl) : Nat := c.bitmap_offset.toNat * 2

/-- `TIMBitmapControl::with_n1` (and `set_n1`), /repo/src/elements/tim.rs:83-90.  Half a byte value
fits in seven bits. -/
def withN1 (c : TIMBitmapControl) (n1 : Byte) : TIMBitmapControl :=
  c.with_bitmap_offset ((n1 / 2).truncate 7)

end TIMBitmapControl

/-- The partial virtual bitmap: a received slice, `StaticBitmap` (/repo/src/elements/tim.rs:97) or
`ConstBitmap` (:134). -/
inductive TIMBits where
  | slice (bytes : Bytes)
  | static (bytes : Bytes) (n2 : Nat)
  | const (bytes : Bytes) (n1 n2 : Nat)
  deriving DecidableEq, Repr

namespace TIMBits

/-- `Deref`: /repo/src/elements/tim.rs:100-102 (`&self.0[..=self.1]`), :136-138
(`&self.0[self.1..=self.2]`). -/
def asBytes : TIMBits → Res Bytes
  | .slice bytes => .ok bytes
  | .static bytes n2 => if n2 < bytes.length then .ok (bytes.take (n2 + 1)) else .panic
  | .const bytes n1 n2 =>
    if n1 ≤ n2 + 1 ∧ n2 < bytes.length then .ok ((bytes.take (n2 + 1)).drop n1) else .panic

/-- `MeasureWith`: the length of a slice, /repo/src/elements/tim.rs:120-124 (N2, one less than what is
written), :156-160. -/
def measure : TIMBits → Res Nat
  | .slice bytes => .ok bytes.length
  | .static _ n2 => .ok n2
  | b@(.const ..) => b.asBytes.map List.length

end TIMBits

/-- `TIMBitmap`, /repo/src/elements/tim.rs:174-177. -/
structure TIMBitmap where
  bitmap_control : TIMBitmapControl
  partial_virtual_bitmap : Option TIMBits
  deriving DecidableEq, Repr

/-- The loop of `TIMBitmap::new_static`, /repo/src/elements/tim.rs:241-256. -/
def newStaticLoop : List AssociationID → Bytes → Nat → Nat → Res (Bytes × Nat × Nat)
  | [], pvb, n1, n2 => .ok (pvb, n1, n2)
  | a :: l, pvb, n1, n2 => do
    let aid := a.aid.toNat
    let pvb ← setBitAt pvb (aid / 8) (aid % 8) true
    newStaticLoop l pvb (if aid / 8 < n1 ∧ aid ≠ 0 then aid / 8 else n1)
      (if n2 < aid / 8 then aid / 8 else n2)

/-- `aid_iter` driven to its end over the positions `is`, /repo/src/elements/tim.rs:275-283: indexing
and the 16-bit addition can panic. -/
def collectAids (bytes : Bytes) (n1 : Nat) : List Nat → Res (List AssociationID)
  | [] => .ok []
  | i :: is =>
    match bytes[i / 8]? with
    | none => .panic
    | some b =>
      if b.getLsbD (i % 8) then
        if n1 * 8 + i % 65536 < 65536 then do
          let l ← collectAids bytes n1 is
          pure ((AssociationID.newChecked (BitVec.ofNat 16 (n1 * 8 + i % 65536))).toList ++ l)
        else .panic
      else collectAids bytes n1 is

namespace TIMBitmap

/-- `TIMBitmap::traffic_indicator`, /repo/src/elements/tim.rs:181-183. -/
def trafficIndicator (b : TIMBitmap) : Bool := b.bitmap_control.traffic_indicator

/-- `TIMBitmap::new_raw`, /repo/src/elements/tim.rs:203-219. -/
def newRaw (bitmap_control : TIMBitmapControl) (partial_virtual_bitmap : Option TIMBits) :
    Res (Option TIMBitmap) :=
  match partial_virtual_bitmap with
  | some b => do
    let bytes ← b.asBytes
    pure (if 251 < bytes.length + bitmap_control.n1 then none
      else some ⟨bitmap_control, some b⟩)
  | none => .ok (some ⟨bitmap_control, none⟩)

/-- `TIMBitmap::is_empty`, /repo/src/elements/tim.rs:221-223. -/
def isEmpty (b : TIMBitmap) : Bool := !b.trafficIndicator && b.partial_virtual_bitmap.isNone

/-- `TIMBitmap::new_static`, /repo/src/elements/tim.rs:232-267. -/
def newStatic (multicast_traffic_buffered : Bool) (association_ids : List AssociationID) :
    Res TIMBitmap := do
  let (pvb, n1, n2) ← newStaticLoop (association_ids.take 2007) (List.replicate 251 0) 251 0
  let pvb ← if n1 = 0 ∧ multicast_traffic_buffered then setBitAt pvb 0 1 true else .ok pvb
  pure {
    bitmap_control := ((⟨0⟩ : TIMBitmapControl).with_traffic_indicator
      multicast_traffic_buffered).withN1 (BitVec.ofNat 8 n1)
    partial_virtual_bitmap := some (.static pvb n2) }

/-- `TIMBitmap::aid_iter` driven to its end, /repo/src/elements/tim.rs:274-284. -/
def aidIter (b : TIMBitmap) : Res (Option (List AssociationID)) :=
  match b.partial_virtual_bitmap with
  | none => .ok none
  | some bits => do
    let bytes ← bits.asBytes
    let l ← collectAids bytes b.bitmap_control.n1 (List.range' 1 (bytes.length * 8 - 1))
    pure (some l)

/-- `MeasureWith for TIMBitmap`, /repo/src/elements/tim.rs:343-353. -/
def measure (b : TIMBitmap) : Res Nat :=
  match b.partial_virtual_bitmap with
  | some bits => bits.measure.map (1 + ·)
  | none => .ok (if b.trafficIndicator then 1 else 0)

end TIMBitmap

/-- The loop of the listing form of `tim_bitmap!`, /repo/src/elements/tim.rs:434-447.  A failing `assert!`
in a constant is a compile error, here a panic. -/
def timListingLoop : List Nat → Bytes → Nat → Nat → Res (Bytes × Nat × Nat)
  | [], pvb, n1, n2 => .ok (pvb, n1, n2)
  | aid :: l, pvb, n1, n2 =>
    if aid ≤ 2007 then do
      let pvb ← setBitAt pvb (aid / 8) (aid % 8) true
      timListingLoop l pvb (if aid / 8 < n1 ∧ aid ≠ 0 then aid / 8 else n1)
        (if n2 < aid / 8 then aid / 8 else n2)
    else .panic

/-- `tim_bitmap! [a, b, ...]`, /repo/src/elements/tim.rs:417-462. -/
def timListing (aids : List Nat) : Res TIMBitmap := do
  let (pvb, n1, n2) ← timListingLoop aids (List.replicate 251 0) 251 0
  let n1 := n1 &&& 0xfe
  pure {
    bitmap_control := ((⟨0⟩ : TIMBitmapControl).with_traffic_indicator (aids.contains 0)).withN1
      (BitVec.ofNat 8 n1)
    partial_virtual_bitmap := some (.const pvb n1 n2) }

/-- The loop of the range form of `tim_bitmap!`, /repo/src/elements/tim.rs:471-475: `k` steps from `i`. -/
def timRangeLoop : Nat → Nat → Bytes → Res Bytes
  | 0, _, pvb => .ok pvb
  | k + 1, i, pvb => do
    let pvb ← setBitAt pvb (i / 8) (i % 8) true
    timRangeLoop k (i + 1) pvb

/-- `tim_bitmap!(min => max)`, /repo/src/elements/tim.rs:463-487. -/
def timRange (min_aid max_aid : Nat) : Res TIMBitmap :=
  if max_aid ≤ 2007 then do
    let pvb ← timRangeLoop (max_aid + 1 - min_aid) min_aid (List.replicate 251 0)
    let n1 := (min_aid / 8) &&& 0xfe
    pure {
      bitmap_control := ((⟨0⟩ : TIMBitmapControl).with_traffic_indicator (min_aid == 0)).withN1
        (BitVec.ofNat 8 n1)
      partial_virtual_bitmap := some (.const pvb n1 (max_aid / 8)) }
  else .panic

/-- `tim_bitmap!(0)`, /repo/src/elements/tim.rs:410-416. -/
def timMulticast : TIMBitmap := ⟨(⟨0⟩ : TIMBitmapControl).with_traffic_indicator true, none⟩

/-- `TIMElement`, /repo/src/elements/tim.rs:494-502. -/
structure TIMElement where
  dtim_count : Byte
  dtim_period : Byte
  bitmap : Option TIMBitmap
  deriving DecidableEq, Repr

/-- `TIMElement::check_dtim_parameters`, /repo/src/elements/tim.rs:509-518. -/
def checkDtimParameters (dtim_period dtim_count : Byte) : Res Unit :=
  if dtim_period < dtim_count then .err .badInput else .ok ()

/-- `MeasureWith for TIMElement`, /repo/src/elements/tim.rs:581-589. -/
def measureTIM (e : TIMElement) : Res Nat :=
  match e.bitmap with
  | some b => b.measure.map (2 + ·)
  | none => .ok 2

variable [ScrollRule]

/-- `TryFromCtx for TIMBitmap`, /repo/src/elements/tim.rs:325-341. -/
def readTIMBitmap : Reader TIMBitmap := Rd.run do
  let c ← Rd.gread readU8
  let rest ← Rd.remaining
  Rd.toEnd
  pure { bitmap_control := ⟨c⟩, partial_virtual_bitmap := some (.slice rest) }

/-- `TryIntoCtx` of the bitmap types: `pwrite(bytes, 0)` (/repo/src/elements/tim.rs:128-130, :164-166),
or scroll's own for a slice. -/
def writeTIMBits (b : TIMBits) : Writer := fun buf =>
  match b with
  | .slice bytes => writeBytes bytes buf
  | b => do
    let bytes ← b.asBytes
    pwrite (writeBytes bytes) 0 buf

/-- `TryIntoCtx for TIMBitmap`, /repo/src/elements/tim.rs:354-369. -/
def writeTIMBitmap (b : TIMBitmap) : Writer := Wr.run do
  match b.partial_virtual_bitmap with
  | some bits =>
    Wr.gwrite (writeU8 b.bitmap_control.bits)
    Wr.gwrite (writeTIMBits bits)
  | none =>
    if b.trafficIndicator then
      Wr.gwrite (writeU8 b.bitmap_control.bits)
      Wr.gwrite (writeU8 0)
    else pure ()

/-- `TryFromCtx for TIMElement`, /repo/src/elements/tim.rs:560-580. -/
def readTIM : Reader TIMElement := Rd.run do
  let dtim_count ← Rd.gread readU8
  let dtim_period ← Rd.gread readU8
  Rd.lift (checkDtimParameters dtim_period dtim_count)
  let bitmap ← Rd.greadOk readTIMBitmap
  pure { dtim_count, dtim_period, bitmap }

/-- `TryIntoCtx for TIMElement`, /repo/src/elements/tim.rs:590-607. -/
def writeTIM (e : TIMElement) : Writer := Wr.run do
  Wr.lift (checkDtimParameters e.dtim_period e.dtim_count)
  Wr.gwrite (writeU8 e.dtim_count)
  Wr.gwrite (writeU8 e.dtim_period)
  match e.bitmap with
  | some b => if b.isEmpty then pure () else Wr.gwrite (writeTIMBitmap b)
  | none => pure ()

end Verif
