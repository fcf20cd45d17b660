import Verif.Model.Elements.Core
import Verif.Model.ElementTypes
/-!
# `/repo/src/elements/rates`

The iterator of rates held by an element to be written is a list.
-/
namespace Verif

namespace EncodedRate

/-- `EncodedRate::rate_in_kbps`, /repo/src/elements/rates/mod.rs:31-33. -/
def rateInKbps (r : EncodedRate) : Nat := r.rate.toNat * 500

/-- `EncodedRate::from_rate_in_kbps`, /repo/src/elements/rates/mod.rs:36-38.  `as u8` truncates, then
the setter panics if the value does not fit in seven bits. -/
def fromRateInKbps (rate : Nat) (is_b : Bool) : Res EncodedRate := do
  let v ← fitField 7 (BitVec.ofNat 8 (rate / 500))
  pure (((⟨0⟩ : EncodedRate).with_rate v).with_is_b is_b)

end EncodedRate

/-- `RatesReadIterator`, /repo/src/elements/rates/rate_iter.rs:9-11. -/
structure RatesReadIterator where
  bytes : ReadIterator
  deriving DecidableEq, Repr

/-- `RatesReadIterator::new`, /repo/src/elements/rates/rate_iter.rs:13-17. -/
def RatesReadIterator.new (bytes : Bytes) : RatesReadIterator := ⟨.new bytes⟩

/-- `RatesReadIterator::next`, /repo/src/elements/rates/rate_iter.rs:22-24. -/
def RatesReadIterator.next (it : RatesReadIterator) :
    Res (Option EncodedRate × RatesReadIterator) := do
  let (x, b) ← it.bytes.next readU8
  pure (x.map EncodedRate.mk, ⟨b⟩)

/-- `SupportedRatesElement` and `ExtendedSupportedRatesElement` over a list of rates,
/repo/src/elements/rates/supported_rates.rs:19-25, extended_supported_rates.rs:18-24. -/
structure RatesElement where
  supported_rates : List EncodedRate
  deriving DecidableEq, Repr

/-- `SupportedRatesElement::new`, /repo/src/elements/rates/supported_rates.rs:44-50. -/
def newSupportedRates (l : List EncodedRate) : Option RatesElement :=
  if l.length ≤ 8 then some ⟨l⟩ else none

/-- `ExtendedSupportedRatesElement::new`, /repo/src/elements/rates/extended_supported_rates.rs:43-49. -/
def newExtendedSupportedRates (l : List EncodedRate) : Option RatesElement :=
  if l.length ≤ 251 then some ⟨l⟩ else none

/-- `MeasureWith` of both, /repo/src/elements/rates/supported_rates.rs:66-71,
extended_supported_rates.rs:66-72. -/
def measureRates (e : RatesElement) : Nat := e.supported_rates.length

/-- `TryFromCtx for SupportedRatesElement`, /repo/src/elements/rates/supported_rates.rs:72-87. -/
def readSupportedRates : Reader RatesReadIterator := fun inp =>
  if 8 < inp.length then .err .tooBig else .ok (.new inp, inp.length)

/-- `TryFromCtx for ExtendedSupportedRatesElement`,
/repo/src/elements/rates/extended_supported_rates.rs:73-91. -/
def readExtendedSupportedRates : Reader RatesReadIterator := fun inp =>
  if 255 < inp.length then .err .tooBig else .ok (.new inp, inp.length)

variable [ScrollRule]

/-- The loop `for rate in rates { buf.gwrite(rate.0, &mut offset)?; }`. -/
def gwriteRates : List EncodedRate → Wr Unit
  | [] => pure ()
  | r :: l => do
    Wr.gwrite (writeU8 r.bits)
    gwriteRates l

/-- `TryIntoCtx for SupportedRatesElement`, /repo/src/elements/rates/supported_rates.rs:88-101. -/
def writeSupportedRates (e : RatesElement) : Writer := Wr.run (gwriteRates (e.supported_rates.take 8))

/-- `TryIntoCtx for ExtendedSupportedRatesElement`,
/repo/src/elements/rates/extended_supported_rates.rs:92-101. -/
def writeExtendedSupportedRates (e : RatesElement) : Writer := Wr.run (gwriteRates e.supported_rates)

end Verif
