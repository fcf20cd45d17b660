import Verif.Model.Elements.Compare
/-!
# The derived `Hash` of types whose `PartialEq` is written by hand

A derived `Hash` hands the fields, in the order of their declaration, to a hasher; the model gives what is handed
over.  For types that derive both, equal values are the same value, and nothing needs to be modelled: what such a
type hands over is a parameter here.
-/
namespace Verif

/-- One call of a method of `core::hash::Hasher`. -/
inductive HashWrite where
  | u8 (v : Byte)
  | usize (n : Nat)
  | isize (n : Nat)
  | bytes (bs : Bytes)
  | other (code : Nat)
  deriving DecidableEq, Repr

/-- All calls made for a value, in order. -/
abbrev Feed := List HashWrite

/-- Derived for `Option`: the discriminant, then the value. -/
def hashOption {α : Type} (h : α → Feed) : Option α → Feed
  | none => [.isize 0]
  | some a => .isize 1 :: h a

/-- `Hash` of arrays and slices: the length, then the items. -/
def hashSlice {α : Type} (h : α → Feed) (l : List α) : Feed := .usize l.length :: l.flatMap h

/-- The same for bytes, which are handed over at once. -/
def hashBytes (bs : Bytes) : Feed := [.usize bs.length, .bytes bs]

/-- Derived for `ReadIterator`, /repo/src/common/read_iterator.rs:8-13. -/
def ReadIterator.hash (it : ReadIterator) : Feed := hashOption hashBytes it.bytes

/-- Derived for `SupportedRatesElement` and `ExtendedSupportedRatesElement`,
/repo/src/elements/rates/supported_rates.rs:13-25, extended_supported_rates.rs:13-25: that of the container, which is an array or a slice
(`RatesReadIterator`, /repo/src/elements/rates/rate_iter.rs:8, has no `Hash`). -/
def ratesHash {C : Type} (h : C → Feed) (self : C) : Feed := h self

/-- Derived for the three bitmap types, /repo/src/elements/tim.rs:93-97,132-134. -/
def TIMBits.hash : TIMBits → Feed
  | .slice bytes => hashBytes bytes
  | .static bytes n2 => hashBytes bytes ++ [.usize n2]
  | .const bytes n1 n2 => hashBytes bytes ++ [.usize n1, .usize n2]

/-- Derived for `TIMBitmap`, /repo/src/elements/tim.rs:169-177. -/
def TIMBitmap.hash (b : TIMBitmap) : Feed :=
  .u8 b.bitmap_control.bits :: hashOption TIMBits.hash b.partial_virtual_bitmap

/-- Derived for `TIMElement`, /repo/src/elements/tim.rs:490-502. -/
def TIMElement.hash (e : TIMElement) : Feed :=
  .u8 e.dtim_count :: .u8 e.dtim_period :: hashOption TIMBitmap.hash e.bitmap

/-- Derived for `RsnElement`, /repo/src/elements/rsn.rs:408-435.  The first two arguments are the derived `Hash`
of the cipher suite selectors and of the capabilities. -/
def RsnElement.hash {P A M : Type} (hc : IEEE80211CipherSuiteSelector → Feed) (hr : RsnCapabilities → Feed)
    (hp : P → Feed) (ha : A → Feed) (hm : M → Feed) (e : RsnElement P A M) : Feed :=
  hashOption hc e.group_data_cipher_suite ++ hashOption hp e.pairwise_cipher_suite_list ++
  hashOption ha e.akm_list ++ hashOption hr e.rsn_capbilities ++ hashOption hm e.pmkid_list ++
  hashOption hc e.group_management_cipher_suite

end Verif
