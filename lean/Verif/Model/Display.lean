import Verif.Model.Elements.Tim
import Verif.Model.Elements.Vendor
import Verif.Model.Elements.Rates
import Verif.Model.Elements.Simple
import Verif.Model.Common
/-!
# Text output written by hand in the crate

Text is a list of characters; flags of the formatter other than those in the format string are not
modelled.  Derived `Debug` is not modelled, except for the variants of `VHTMCSSupport`, which are written as
their names; where the value of a field is written by a derived or foreign `Debug`, that text is an argument.  `core::fmt` is trusted to write numbers as `Nat.toDigits` does,
a `f32` that is a multiple of a half with at most one decimal place, lists as `[a, b]` and structures
as `Name { field: value, .. }`.
-/
namespace Verif

/-- `{}` of an unsigned number. -/
def showDec (n : Nat) : List Char := Nat.toDigits 10 n

/-- `{:16x}`: to the right in sixteen columns. -/
def showHex16 (n : Nat) : List Char :=
  List.replicate (16 - (Nat.toDigits 16 n).length) ' ' ++ Nat.toDigits 16 n

/-- `{}` of the `f32` with value `n / 2`. -/
def showHalves (n : Nat) : List Char := showDec (n / 2) ++ if n % 2 = 1 then ['.', '5'] else []

/-- `Display for EncodedRate`, /repo/src/elements/rates/mod.rs:40-49. -/
def EncodedRate.display (r : EncodedRate) : List Char :=
  showHalves r.rate.toNat ++ "Mbit/s ".toList ++ if r.is_b then " (B)".toList else []

/-- `Display for IEEE80211Pmkid`, /repo/src/elements/rsn.rs:370-374. -/
def displayPmkid (p : Arr 16) : List Char := showHex16 (fromBE 128 p.val).toNat

/-- `Display for SSIDLikeElement`, /repo/src/elements/ssid.rs:103-107: the bytes of the name. -/
def SSIDLikeElement.display (e : SSIDLikeElement) : Bytes := e.ssid.bytes

/-- `Debug for AssociationID`, /repo/src/common/aid.rs:49-53. -/
def AssociationID.debug (a : AssociationID) : List Char := showDec a.aid.toNat

/-- The entries of `debug_list` from the second on. -/
def showRest : List (List Char) → List Char
  | [] => []
  | x :: l => [',', ' '] ++ x ++ showRest l

/-- `debug_list`. -/
def showList : List (List Char) → List Char
  | [] => ['[', ']']
  | x :: l => ['['] ++ x ++ showRest l ++ [']']

/-- `Display for TIMBitmap`, /repo/src/elements/tim.rs:286-300. -/
def TIMBitmap.display (b : TIMBitmap) : Res (List Char) := do
  let aids ← b.aidIter
  pure (showList ((if b.bitmap_control.traffic_indicator then [showDec 0] else []) ++
    (aids.getD []).map AssociationID.debug))

/-- `defmt::Format for TIMBitmap`, /repo/src/elements/tim.rs:301-315. -/
def TIMBitmap.format (b : TIMBitmap) : Res (List Char) := do
  let aids ← b.aidIter
  let text := match aids with
    | some (first :: rest) => ['['] ++ showDec first.aid.toNat ++
        showRest (rest.map fun a => showDec a.aid.toNat) ++ [']']
    | _ => []
  pure (text ++ ['[', ']'])

/-- `Display for TIMElement`, /repo/src/elements/tim.rs:520-533. -/
def TIMElement.display (e : TIMElement) : Res (List Char) := do
  let ids ← match e.bitmap with
    | some b => do
      let t ← b.display
      pure (", association_ids: ".toList ++ t)
    | none => .ok []
  pure ("TIMElement { dtim_count: ".toList ++ showDec e.dtim_count.toNat ++
    ", dtim_period: ".toList ++ showDec e.dtim_period.toNat ++ ids ++ " }".toList)

/-- `defmt::Format for AssociationID`, /repo/src/common/aid.rs:54-59. -/
def AssociationID.format (a : AssociationID) : List Char := showDec a.aid.toNat

/-- `defmt::Format for IEEE80211Pmkid`, /repo/src/elements/rsn.rs:375-380: no columns. -/
def formatPmkid (p : Arr 16) : List Char := Nat.toDigits 16 (fromBE 128 p.val).toNat

/-- `defmt::Format for TIMElement`, /repo/src/elements/tim.rs:534-545. -/
def TIMElement.format (e : TIMElement) : Res (List Char) := do
  let map ← match e.bitmap with
    | some b => do
      let t ← b.format
      pure ("Some(".toList ++ t ++ ")".toList)
    | none => .ok "None".toList
  pure ("TIMElement { dtim_count: ".toList ++ showDec e.dtim_count.toNat ++
    ", dtim_period: ".toList ++ showDec e.dtim_period.toNat ++ ", bitmap: ".toList ++ map ++ " }".toList)

/-- The derived `Debug` of `VHTMCSSupport`, /repo/src/elements/vht.rs:70-80. -/
def VHTMCSSupport.debug : VHTMCSSupport → List Char
  | .ZeroToSeven => "ZeroToSeven".toList
  | .ZeroToEight => "ZeroToEight".toList
  | .ZeroToNine => "ZeroToNine".toList
  | .NotSupported => "NotSupported".toList
  | .Unknown b => "Unknown(".toList ++ showDec b.toNat ++ ")".toList

/-- `Debug for VHTMCSMap`, /repo/src/elements/vht.rs:118-122. -/
def VHTMCSMap.debug (m : VHTMCSMap) : List Char := showList (m.supportIter.map VHTMCSSupport.debug)

/-- `Debug for ReadIterator`, /repo/src/common/read_iterator.rs:33-39; `f` writes an item.  The number bounds the
calls of `next` as in `ReadIterator.collect`. -/
def ReadIterator.debug {α : Type} (r : Reader α) (f : α → List Char) (fuel : Nat) (it : ReadIterator) :
    Res (List Char) := do
  let l ← collect r fuel it
  pure (showList (l.map f))

/-- The loop of `defmt::Format for ReadIterator`, /repo/src/common/read_iterator.rs:53-55. -/
def ReadIterator.formatRest {α : Type} (r : Reader α) (f : α → List Char) : Nat → ReadIterator → Res (List Char)
  | 0, _ => .panic
  | fuel + 1, it => do
    let (x, it') ← next r it
    match x with
    | none => pure []
    | some a => do
      let t ← formatRest r f fuel it'
      pure ([',', ' '] ++ f a ++ t)

/-- `defmt::Format for ReadIterator`, /repo/src/common/read_iterator.rs:40-61. -/
def ReadIterator.format {α : Type} (r : Reader α) (f : α → List Char) (fuel : Nat) (it : ReadIterator) :
    Res (List Char) := do
  let (x, it') ← next r it
  let t ← match x with
    | some first => do
      let t ← formatRest r f fuel it'
      pure (f first ++ t)
    | none => .ok []
  pure (['['] ++ t ++ [']'])

/-- `Display for OWETransitionModeElement`, /repo/src/elements/owe_transition.rs:40-53; the texts of the address, of
the name and of the channel are arguments. -/
def OWETransitionModeElement.display (mac : Mac → List Char) (name : Str → List Char)
    (band : BandAndChannelInfo → List Char) (e : OWETransitionModeElement) : List Char :=
  "OWETransitionModeElement { bssid: ".toList ++ mac e.bssid ++ ", ssid: ".toList ++ name e.ssid ++
    (match e.band_and_channel_info with
      | some b => ", band_and_channel_info: ".toList ++ band b
      | none => []) ++ " }".toList

end Verif
