import Verif.Model.Elements.Rates
import Verif.Model.Elements.Simple
import Verif.Model.Common
import Mathlib.Data.Int.Log
import Mathlib.Data.Rat.Floor
/-!
# The macros `rate!`, `supported_rates!`, `extended_supported_rates!`, `ssid!` and `mesh_id!`

A literal is the rational number it denotes.  The macros run at compile time: a failed assertion or an
overflow stops the compiler, which is `Res.panic` here.

`const_soft_float` is a dependency, not modelled code; its product is IEEE 754 binary32 multiplication,
rounding to nearest with ties to even.  Overflow to infinity needs no case of its own: `as usize`
saturates at 2^64 - 1 long before.
-/
namespace Verif

namespace F32

/-- The nearest integer, the even one of two equally near ones. -/
def nearestEven (q : ℚ) : ℤ :=
  if q - ⌊q⌋ < 1 / 2 then ⌊q⌋
  else if 1 / 2 < q - ⌊q⌋ then ⌊q⌋ + 1
  else if ⌊q⌋ % 2 = 0 then ⌊q⌋ else ⌊q⌋ + 1

/-- The distance of neighbouring binary32 numbers around `q`: 24 significant bits, exponents from -126. -/
def ulp (q : ℚ) : ℚ := 2 ^ (max (Int.log 2 q) (-126) - 23)

/-- `q` rounded to binary32, for `q` not negative. -/
def toF32 (q : ℚ) : ℚ := nearestEven (q / ulp q) * ulp q

/-- `q` rounded to binary32: the sign is kept, and the two zeros are one number here. -/
def toSigned (q : ℚ) : ℚ := if q < 0 then -toF32 (-q) else toF32 q

/-- `as usize` of a binary32 number: towards zero, saturating at zero and at 2^64 - 1. -/
def asUsize (q : ℚ) : Nat := min ⌊q⌋.toNat (2 ^ 64 - 1)

end F32

/-- `rate!(lit)` and `rate!(lit B)`, /repo/src/elements/rates/supported_rates.rs:125-142. -/
def rateMacro (lit : ℚ) (is_b : Bool) : Res EncodedRate :=
  EncodedRate.fromRateInKbps (F32.asUsize (F32.toSigned (F32.toSigned lit * 1000))) is_b

/-- The array `RATES` of the two macros below, /repo/src/elements/rates/supported_rates.rs:173-177. -/
def rateMacros : List (ℚ × Bool) → Res (List EncodedRate)
  | [] => pure []
  | (q, b) :: l => do
    let r ← rateMacro q b
    let rs ← rateMacros l
    pure (r :: rs)

/-- `supported_rates!`, /repo/src/elements/rates/supported_rates.rs:161-185. -/
def supportedRatesMacro (l : List (ℚ × Bool)) : Res RatesElement := do
  let rates ← rateMacros l
  if rates.length ≤ 8 then pure ⟨rates⟩ else .panic

/-- `extended_supported_rates!`, /repo/src/elements/rates/extended_supported_rates.rs:122-147. -/
def extendedSupportedRatesMacro (l : List (ℚ × Bool)) : Res RatesElement := do
  let rates ← rateMacros l
  if rates.length ≤ 251 then pure ⟨rates⟩ else .panic

/-- `ssid!` and `mesh_id!`, /repo/src/elements/ssid.rs:168-210. -/
def ssidMacro (s : Str) : Res SSIDLikeElement :=
  if s.bytes.length ≤ 32 then .ok ⟨s⟩ else .panic

/-- `From<u16> for FrameType`, /repo/src/common/mod.rs:86-90. -/
def FrameType.fromU16 (value : BitVec 16) : FrameType := .fromBits (value.truncate 8)

/-- `From<FrameType> for u16`, /repo/src/common/mod.rs:91-95. -/
def FrameType.intoU16 (t : FrameType) : BitVec 16 := t.intoBits.zeroExtend 16

/-- `HtSig::new()` generated by `bitfield`: the reserved bit is one, /repo/src/common/sig.rs:3-32. -/
def HtSig.new : HtSig := ⟨1 <<< 26⟩

end Verif
