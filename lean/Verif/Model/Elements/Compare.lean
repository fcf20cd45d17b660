import Verif.Model.Elements.Rates
import Verif.Model.Elements.Rsn
import Verif.Model.Elements.Tim
/-!
# Comparing elements: the `PartialEq` implementations between containers

An iterator is a state with the function `next`.
-/
namespace Verif

/-- `Iterator::next` of an array or slice. -/
def listNext {α : Type} : List α → Res (Option α × List α)
  | [] => .ok (none, [])
  | a :: l => .ok (some a, l)

/-- `Iterator::eq` of the standard library: take an item from both and compare, until one side ends.  The
first argument bounds the number of rounds so that the definition is total; running out of it is `panic`,
and the theorems show that it does not happen. -/
def iterEq {α σ τ : Type} [DecidableEq α] (l : σ → Res (Option α × σ)) (r : τ → Res (Option α × τ)) :
    Nat → σ → τ → Res Bool
  | 0, _, _ => .panic
  | fuel + 1, s, t => do
    let (x, s') ← l s
    let (y, t') ← r t
    match x, y with
    | none, none => pure true
    | none, some _ => pure false
    | some _, none => pure false
    | some a, some b => if a = b then iterEq l r fuel s' t' else pure false

/-- A container that can be iterated: `IntoIterator`. -/
structure Container (C α : Type) where
  next : C → Res (Option α × C)
  /-- A number greater than that of the items. -/
  bound : C → Nat

/-- Arrays and slices. -/
def listContainer {α : Type} : Container (List α) α := ⟨listNext, fun l => l.length + 1⟩

/-- `ReadIterator`. -/
def readContainer {α : Type} (r : Reader α) : Container ReadIterator α :=
  ⟨fun it => it.next r, fun it => (it.bytes.getD []).length + 1⟩

/-- `RatesReadIterator`. -/
def ratesContainer : Container RatesReadIterator EncodedRate :=
  ⟨fun it => it.next, fun it => (it.bytes.bytes.getD []).length + 1⟩

/-- `lhs.into_iter().eq(rhs.into_iter())`. -/
def Container.eq {α C D : Type} [DecidableEq α] (c : Container C α) (d : Container D α) (x : C) (y : D) :
    Res Bool := iterEq c.next d.next (c.bound x) x y

/-- `&&` of two conditions, the second of which is not evaluated when the first is false. -/
def andThen (a b : Res Bool) : Res Bool := do if ← a then b else pure false

/-- `compare_list_option!`, /repo/src/elements/rsn.rs:674-682. -/
def compareListOption {C D : Type} (eq : C → D → Res Bool) : Option C → Option D → Res Bool
  | some x, some y => eq x y
  | none, none => .ok true
  | _, _ => .ok false

/-- `PartialEq for RsnElement`, /repo/src/elements/rsn.rs:683-702. -/
def RsnElement.eq {P A M P' A' M' : Type} (cp : Container P IEEE80211CipherSuiteSelector)
    (ca : Container A IEEE80211AkmType) (cm : Container M (Arr 16))
    (cp' : Container P' IEEE80211CipherSuiteSelector) (ca' : Container A' IEEE80211AkmType)
    (cm' : Container M' (Arr 16)) (self : RsnElement P A M) (other : RsnElement P' A' M') : Res Bool :=
  andThen (.ok (self.group_data_cipher_suite == other.group_data_cipher_suite)) <|
  andThen (compareListOption (cp.eq cp') self.pairwise_cipher_suite_list other.pairwise_cipher_suite_list) <|
  andThen (compareListOption (ca.eq ca') self.akm_list other.akm_list) <|
  andThen (.ok (self.rsn_capbilities == other.rsn_capbilities)) <|
  andThen (compareListOption (cm.eq cm') self.pmkid_list other.pmkid_list) <|
  .ok (self.group_management_cipher_suite == other.group_management_cipher_suite)

/-- The same for a parsed element and one over arrays, as in the crate's round-trip tests,
/repo/tests/common.rs. -/
def RsnElement.parsedEqLists [ScrollRule] (q : RsnElement.Parsed) (e : RsnElement.OfLists) : Res Bool :=
  RsnElement.eq (readContainer readCipherSuite) (readContainer readAkm) (readContainer readPmkid)
    listContainer listContainer listContainer q e

/-- The same for two parsed elements. -/
def RsnElement.parsedEqParsed [ScrollRule] (q q' : RsnElement.Parsed) : Res Bool :=
  RsnElement.eq (readContainer readCipherSuite) (readContainer readAkm) (readContainer readPmkid)
    (readContainer readCipherSuite) (readContainer readAkm) (readContainer readPmkid) q q'

/-- `PartialEq for SupportedRatesElement` and `ExtendedSupportedRatesElement`,
/repo/src/elements/rates/supported_rates.rs:52-64, extended_supported_rates.rs:51-63. -/
def ratesEq {C D : Type} (c : Container C EncodedRate) (d : Container D EncodedRate) (self : C) (other : D) :
    Res Bool := c.eq d self other

/-- `Option::as_deref`. -/
def asDeref : Option TIMBits → Res (Option Bytes)
  | none => .ok none
  | some b => b.asBytes.map some

/-- `PartialEq for TIMBitmap`, /repo/src/elements/tim.rs:316-323. -/
def TIMBitmap.eq (self other : TIMBitmap) : Res Bool :=
  andThen (.ok (self.bitmap_control == other.bitmap_control)) do
    let a ← asDeref self.partial_virtual_bitmap
    let b ← asDeref other.partial_virtual_bitmap
    pure (a == b)

/-- `PartialEq for TIMElement`, /repo/src/elements/tim.rs:546-558. -/
def TIMElement.eq (self other : TIMElement) : Res Bool :=
  andThen (.ok (self.dtim_count == other.dtim_count)) <|
  andThen (.ok (self.dtim_period == other.dtim_period)) <|
  match self.bitmap, other.bitmap with
  | some lhs, some rhs => lhs.eq rhs
  | none, none => .ok true
  | _, _ => .ok false

end Verif
