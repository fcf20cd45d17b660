import Verif.Model.Frames.Mgmt
/-!
# `/repo/src/frames/mgmt_frame/body/action/vendor.rs`: what the caller finds in the offset afterwards

`strip_and_check_vendor_action_header` and `append_vendor_action_header` are public and take the offset as
`&mut usize`.  `Model/Frames/Mgmt.lean` gives their results and, on success, the new offset; here they are
transcribed once more with the offset (and, for the second one, the buffer) as the caller finds it afterwards, whether
they succeeded or not.  A `gread` or `gwrite` of `scroll` which fails leaves the offset alone; a single byte or a byte
slice which does not fit is not written in part.
-/
namespace Verif

/-- A function with a `&[u8]` and a `&mut usize` argument: what it returns, and the offset afterwards. -/
def OffRd (α : Type) := Bytes → Nat → Res α × Nat

namespace OffRd

instance : Monad OffRd where
  pure a := fun _ off => (.ok a, off)
  bind x f := fun inp off =>
    match x inp off with
    | (.ok a, off') => f a inp off'
    | (.err e, off') => (.err e, off')
    | (.panic, off') => (.panic, off')

/-- `buf.gread(offset)?`. -/
def gread [ScrollRule] {α : Type} (r : Reader α) : OffRd α := fun inp off =>
  match Rd.gread r inp off with
  | .ok (a, off') => (.ok a, off')
  | .err e => (.err e, off)
  | .panic => (.panic, off)

/-- `return Err(e)`. -/
def fail {α : Type} (e : Err) : OffRd α := fun _ off => (.err e, off)

/-- `strip_and_check_vendor_action_header`, /repo/src/frames/mgmt_frame/body/action/vendor.rs:83-101. -/
def stripAndCheckVendorActionHeader [ScrollRule] (expected_oui : Arr 3) : OffRd Unit := do
  let c ← gread readU8
  if CategoryCode.fromBits c ≠ .VendorSpecific then fail .badInput
  else do
    let oui ← gread (readArr 3)
    if oui ≠ expected_oui then fail .badInput else pure ()

end OffRd

/-- A function with a `&mut [u8]` and a `&mut usize` argument: what it returns, the buffer and the offset
afterwards. -/
def OffWr := Bytes → Nat → Res Unit × Bytes × Nat

namespace OffWr

/-- `buf.gwrite(x, offset)?` with the bytes of `x`, none of which is written unless all fit. -/
def gwrite [ScrollRule] (w : Writer) : OffWr := fun buf off =>
  match Wr.gwrite w buf off with
  | .ok (_, buf', off') => (.ok (), buf', off')
  | .err e => (.err e, buf, off)
  | .panic => (.panic, buf, off)

/-- One statement after the other. -/
def andThen (x y : OffWr) : OffWr := fun buf off =>
  match x buf off with
  | (.ok _, buf', off') => y buf' off'
  | (.err e, buf', off') => (.err e, buf', off')
  | (.panic, buf', off') => (.panic, buf', off')

/-- `append_vendor_action_header`, /repo/src/frames/mgmt_frame/body/action/vendor.rs:73-81. -/
def appendVendorActionHeader [ScrollRule] (oui : Arr 3) : OffWr :=
  andThen (gwrite (writeU8 CategoryCode.VendorSpecific.intoBits)) (gwrite (writeBytes oui.val))

end OffWr

end Verif
