import Verif.Model.Elements.Core
import Verif.Model.ElementTypes
/-!
# `/repo/src/elements/rsn.rs`

The two selector enums are generated by `cipher_suite_selectors!`; `rust_enum` gives the variants
and their merged codes, and the conversions below follow the macro: split, match, merge.
-/
namespace Verif

/-- `merge_oui_and_suite_type`, /repo/src/elements/rsn.rs:16-26. -/
def mergeOuiAndSuiteType (oui : Bytes) (suite_type : Byte) : BitVec 32 := fromLE 32 (oui ++ [suite_type])

/-- `split_cipher_suite_selector`, /repo/src/elements/rsn.rs:28-35. -/
def splitCipherSuiteSelector (s : BitVec 32) : Bytes × Byte :=
  let b := toLE s
  ([b.getD 0 0, b.getD 1 0, b.getD 2 0], b.getD 3 0)

/-- `get_suite_type_if_oui_is_ieee`, /repo/src/elements/rsn.rs:37-43. -/
def getSuiteTypeIfOuiIsIeee (s : BitVec 32) : Option Byte :=
  if s &&& 0xffffff = 0xac0f00 then some ((s >>> 24).truncate 8) else none

/-- `IEEE80211CipherSuiteSelector`, /repo/src/elements/rsn.rs:130-150, with the merged codes. -/
rust_enum IEEE80211CipherSuiteSelector : 32 where
  | UseGroupCipherSuite => 0x00ac0f00
  | Wep40 => 0x01ac0f00
  | Tkip => 0x02ac0f00
  | Ccmp128 => 0x04ac0f00
  | Wep104 => 0x05ac0f00
  | BipCmac128 => 0x06ac0f00
  | GroupAddessedTrafficNotAllowed => 0x07ac0f00
  | Gcmp128 => 0x08ac0f00
  | Gcmp256 => 0x09ac0f00
  | Ccmp256 => 0x0aac0f00
  | BIPGcmp128 => 0x0bac0f00
  | BIPGcmp256 => 0x0cac0f00
  | BIPCcmp256 => 0x0dac0f00

/-- `IEEE80211AkmType`, /repo/src/elements/rsn.rs:183-215, with the merged codes. -/
rust_enum IEEE80211AkmType : 32 where
  | None => 0x00ac0f00
  | Wpa => 0x01ac0f00
  | Psk => 0x02ac0f00
  | FTOverIEEE8021X => 0x03ac0f00
  | FTUsingPsk => 0x04ac0f00
  | WpaSha256 => 0x05ac0f00
  | PskSha256 => 0x06ac0f00
  | Tdls => 0x07ac0f00
  | Sae => 0x08ac0f00
  | FTUsingSae => 0x09ac0f00
  | APPeerKey => 0x0aac0f00
  | WpaSha256SuiteB => 0x0bac0f00
  | WpaSha384SuiteB => 0x0cac0f00
  | FTOverIEEE8021XSha384 => 0x0dac0f00
  | FilsSha256Aes256 => 0x0eac0f00
  | FilsSha384Aes512 => 0x0fac0f00
  | FTOverFilsSha256Aes256 => 0x10ac0f00
  | FTOverFilsSha384Aes512 => 0x11ac0f00
  | OpportunisticWirelessEncryption => 0x12ac0f00
  | FTUsingPskSha384 => 0x13ac0f00
  | PskSha384 => 0x14ac0f00
  | Pasn => 0x15ac0f00
  | SaeGroupDefend => 0x16ac0f00
  | FTUsingSaeGroupDefend => 0x17ac0f00

/-- The `match` of `with_cipher_suite_selector`: compare OUI and suite type with each entry in
order, /repo/src/elements/rsn.rs:77-86. -/
def lookupSuite {α : Type} (oui : Bytes) (ty : Byte) : List (Bytes × Byte × α) → Option α
  | [] => none
  | (o, t, a) :: l => if oui = o ∧ ty = t then some a else lookupSuite oui ty l

namespace IEEE80211CipherSuiteSelector

/-- The table handed to the macro, /repo/src/elements/rsn.rs:136-148. -/
def suites : List (Bytes × Byte × IEEE80211CipherSuiteSelector) := [
  (IEEE_OUI, 0, .UseGroupCipherSuite), (IEEE_OUI, 1, .Wep40), (IEEE_OUI, 2, .Tkip),
  (IEEE_OUI, 4, .Ccmp128), (IEEE_OUI, 5, .Wep104), (IEEE_OUI, 6, .BipCmac128),
  (IEEE_OUI, 7, .GroupAddessedTrafficNotAllowed), (IEEE_OUI, 8, .Gcmp128), (IEEE_OUI, 9, .Gcmp256),
  (IEEE_OUI, 10, .Ccmp256), (IEEE_OUI, 11, .BIPGcmp128), (IEEE_OUI, 12, .BIPGcmp256),
  (IEEE_OUI, 13, .BIPCcmp256)]

/-- `with_cipher_suite_selector`, /repo/src/elements/rsn.rs:77-86. -/
def withCipherSuiteSelector (s : BitVec 32) : IEEE80211CipherSuiteSelector :=
  let (oui, ty) := splitCipherSuiteSelector s
  match lookupSuite oui ty suites with
  | some a => a
  | none => .Unknown (mergeOuiAndSuiteType oui ty)

/-- `cipher_suite_selector`, /repo/src/elements/rsn.rs:88-95. -/
def cipherSuiteSelector : IEEE80211CipherSuiteSelector → BitVec 32
  | .UseGroupCipherSuite => mergeOuiAndSuiteType IEEE_OUI 0
  | .Wep40 => mergeOuiAndSuiteType IEEE_OUI 1
  | .Tkip => mergeOuiAndSuiteType IEEE_OUI 2
  | .Ccmp128 => mergeOuiAndSuiteType IEEE_OUI 4
  | .Wep104 => mergeOuiAndSuiteType IEEE_OUI 5
  | .BipCmac128 => mergeOuiAndSuiteType IEEE_OUI 6
  | .GroupAddessedTrafficNotAllowed => mergeOuiAndSuiteType IEEE_OUI 7
  | .Gcmp128 => mergeOuiAndSuiteType IEEE_OUI 8
  | .Gcmp256 => mergeOuiAndSuiteType IEEE_OUI 9
  | .Ccmp256 => mergeOuiAndSuiteType IEEE_OUI 10
  | .BIPGcmp128 => mergeOuiAndSuiteType IEEE_OUI 11
  | .BIPGcmp256 => mergeOuiAndSuiteType IEEE_OUI 12
  | .BIPCcmp256 => mergeOuiAndSuiteType IEEE_OUI 13
  | .Unknown s => s

/-- `tk_len`, /repo/src/elements/rsn.rs:155-167. -/
def tkLen (c : IEEE80211CipherSuiteSelector) : Option Nat :=
  match getSuiteTypeIfOuiIsIeee c.cipherSuiteSelector with
  | some t =>
    let t := t.toNat
    if t = 1 then some 5
    else if t = 2 ∨ (9 ≤ t ∧ t ≤ 10) ∨ (12 ≤ t ∧ t ≤ 13) then some 32
    else if t = 4 ∨ t = 6 ∨ t = 8 ∨ t = 11 then some 16
    else if t = 5 then some 13
    else none
  | none => none

/-- `mic_len`, /repo/src/elements/rsn.rs:171-181. -/
def micLen (c : IEEE80211CipherSuiteSelector) : Option Nat :=
  match getSuiteTypeIfOuiIsIeee c.cipherSuiteSelector with
  | some t =>
    let t := t.toNat
    if t = 2 ∨ t = 4 ∨ t = 6 then some 8
    else if 8 ≤ t ∧ t ≤ 13 then some 16
    else none
  | none => none

end IEEE80211CipherSuiteSelector

namespace IEEE80211AkmType

/-- The table handed to the macro, /repo/src/elements/rsn.rs:189-213. -/
def suites : List (Bytes × Byte × IEEE80211AkmType) := [
  (IEEE_OUI, 0, .None), (IEEE_OUI, 1, .Wpa), (IEEE_OUI, 2, .Psk), (IEEE_OUI, 3, .FTOverIEEE8021X),
  (IEEE_OUI, 4, .FTUsingPsk), (IEEE_OUI, 5, .WpaSha256), (IEEE_OUI, 6, .PskSha256),
  (IEEE_OUI, 7, .Tdls), (IEEE_OUI, 8, .Sae), (IEEE_OUI, 9, .FTUsingSae), (IEEE_OUI, 10, .APPeerKey),
  (IEEE_OUI, 11, .WpaSha256SuiteB), (IEEE_OUI, 12, .WpaSha384SuiteB),
  (IEEE_OUI, 13, .FTOverIEEE8021XSha384), (IEEE_OUI, 14, .FilsSha256Aes256),
  (IEEE_OUI, 15, .FilsSha384Aes512), (IEEE_OUI, 16, .FTOverFilsSha256Aes256),
  (IEEE_OUI, 17, .FTOverFilsSha384Aes512), (IEEE_OUI, 18, .OpportunisticWirelessEncryption),
  (IEEE_OUI, 19, .FTUsingPskSha384), (IEEE_OUI, 20, .PskSha384), (IEEE_OUI, 21, .Pasn),
  (IEEE_OUI, 22, .SaeGroupDefend), (IEEE_OUI, 23, .FTUsingSaeGroupDefend)]

/-- `with_cipher_suite_selector`, /repo/src/elements/rsn.rs:77-86. -/
def withCipherSuiteSelector (s : BitVec 32) : IEEE80211AkmType :=
  let (oui, ty) := splitCipherSuiteSelector s
  match lookupSuite oui ty suites with
  | some a => a
  | none => .Unknown (mergeOuiAndSuiteType oui ty)

/-- `cipher_suite_selector`, /repo/src/elements/rsn.rs:88-95. -/
def cipherSuiteSelector : IEEE80211AkmType → BitVec 32
  | .None => mergeOuiAndSuiteType IEEE_OUI 0
  | .Wpa => mergeOuiAndSuiteType IEEE_OUI 1
  | .Psk => mergeOuiAndSuiteType IEEE_OUI 2
  | .FTOverIEEE8021X => mergeOuiAndSuiteType IEEE_OUI 3
  | .FTUsingPsk => mergeOuiAndSuiteType IEEE_OUI 4
  | .WpaSha256 => mergeOuiAndSuiteType IEEE_OUI 5
  | .PskSha256 => mergeOuiAndSuiteType IEEE_OUI 6
  | .Tdls => mergeOuiAndSuiteType IEEE_OUI 7
  | .Sae => mergeOuiAndSuiteType IEEE_OUI 8
  | .FTUsingSae => mergeOuiAndSuiteType IEEE_OUI 9
  | .APPeerKey => mergeOuiAndSuiteType IEEE_OUI 10
  | .WpaSha256SuiteB => mergeOuiAndSuiteType IEEE_OUI 11
  | .WpaSha384SuiteB => mergeOuiAndSuiteType IEEE_OUI 12
  | .FTOverIEEE8021XSha384 => mergeOuiAndSuiteType IEEE_OUI 13
  | .FilsSha256Aes256 => mergeOuiAndSuiteType IEEE_OUI 14
  | .FilsSha384Aes512 => mergeOuiAndSuiteType IEEE_OUI 15
  | .FTOverFilsSha256Aes256 => mergeOuiAndSuiteType IEEE_OUI 16
  | .FTOverFilsSha384Aes512 => mergeOuiAndSuiteType IEEE_OUI 17
  | .OpportunisticWirelessEncryption => mergeOuiAndSuiteType IEEE_OUI 18
  | .FTUsingPskSha384 => mergeOuiAndSuiteType IEEE_OUI 19
  | .PskSha384 => mergeOuiAndSuiteType IEEE_OUI 20
  | .Pasn => mergeOuiAndSuiteType IEEE_OUI 21
  | .SaeGroupDefend => mergeOuiAndSuiteType IEEE_OUI 22
  | .FTUsingSaeGroupDefend => mergeOuiAndSuiteType IEEE_OUI 23
  | .Unknown s => s

/-- `kck_len`, /repo/src/elements/rsn.rs:220-230. -/
def kckLen (c : IEEE80211AkmType) : Option Nat :=
  match getSuiteTypeIfOuiIsIeee c.cipherSuiteSelector with
  | some t =>
    let t := t.toNat
    if 1 ≤ t ∧ t ≤ 11 then some 16
    else if 12 ≤ t ∧ t ≤ 13 then some 24
    else none
  | none => none

/-- `kek_len`, /repo/src/elements/rsn.rs:234-245. -/
def kekLen (c : IEEE80211AkmType) : Option Nat :=
  match getSuiteTypeIfOuiIsIeee c.cipherSuiteSelector with
  | some t =>
    let t := t.toNat
    if 1 ≤ t ∧ t ≤ 11 then some 16
    else if (12 ≤ t ∧ t ≤ 14) ∨ t = 16 then some 32
    else if t = 15 ∨ t = 17 then some 64
    else none
  | none => none

/-- `kck2_len`, /repo/src/elements/rsn.rs:250-260. -/
def kck2Len (c : IEEE80211AkmType) : Option Nat :=
  match getSuiteTypeIfOuiIsIeee c.cipherSuiteSelector with
  | some t =>
    let t := t.toNat
    if t = 16 then some 16 else if t = 17 then some 24 else none
  | none => none

/-- `kek2_len`, /repo/src/elements/rsn.rs:265-275. -/
def kek2Len (c : IEEE80211AkmType) : Option Nat :=
  match getSuiteTypeIfOuiIsIeee c.cipherSuiteSelector with
  | some t =>
    let t := t.toNat
    if t = 16 then some 16 else if t = 17 then some 32 else none
  | none => none

/-- `key_mic_len`, /repo/src/elements/rsn.rs:279-290. -/
def keyMicLen (c : IEEE80211AkmType) : Option Nat :=
  match getSuiteTypeIfOuiIsIeee c.cipherSuiteSelector with
  | some t =>
    let t := t.toNat
    if (1 ≤ t ∧ t ≤ 11) ∨ t = 16 then some 16
    else if (12 ≤ t ∧ t ≤ 13) ∨ t = 17 then some 24
    else if 14 ≤ t ∧ t ≤ 15 then some 0
    else none
  | none => none

end IEEE80211AkmType

/-- `OptionalFeatureConfig`, /repo/src/elements/rsn.rs:296-306. -/
inductive OptionalFeatureConfig where
  | Disabled
  | Capable
  | Required
  | Invalid
  deriving DecidableEq, Repr

namespace OptionalFeatureConfig

/-- `OptionalFeatureConfig::from_bits`, /repo/src/elements/rsn.rs:308-315. -/
def fromBits (bits : BitVec 8) : OptionalFeatureConfig :=
  let b := bits &&& 0b11
  if b = 0b00 then .Disabled
  else if b = 0b01 then .Capable
  else if b = 0b10 then .Required
  else .Invalid

/-- `OptionalFeatureConfig::into_bits`, /repo/src/elements/rsn.rs:316-323. -/
def intoBits : OptionalFeatureConfig → BitVec 8
  | .Disabled => 0b00
  | .Capable => 0b01
  | .Required => 0b11
  | .Invalid => 0b10

/-- `is_capable`, /repo/src/elements/rsn.rs:325-327. -/
def isCapable : OptionalFeatureConfig → Bool
  | .Required | .Capable => true
  | _ => false

/-- `is_required`, /repo/src/elements/rsn.rs:329-331. -/
def isRequired : OptionalFeatureConfig → Bool
  | .Required => true
  | _ => false

/-- `is_compatible`, /repo/src/elements/rsn.rs:333-335. -/
def isCompatible (self rhs : OptionalFeatureConfig) : Bool :=
  self.isRequired == rhs.isCapable && self.isCapable == rhs.isRequired

end OptionalFeatureConfig

namespace RsnCapabilities

/-- `mfp_config()` decoded, /repo/src/elements/rsn.rs:349-351. -/
def mfpConfig (c : RsnCapabilities) : OptionalFeatureConfig := .fromBits (c.mfp_config.zeroExtend 8)

/-- `with_mfp_config`, /repo/src/elements/rsn.rs:349-351.  The encoded value always fits. -/
def withMfpConfig (c : RsnCapabilities) (f : OptionalFeatureConfig) : RsnCapabilities :=
  c.with_mfp_config (f.intoBits.truncate 2)

/-- `spp_ampdu_config()` decoded, /repo/src/elements/rsn.rs:356-358. -/
def sppAmpduConfig (c : RsnCapabilities) : OptionalFeatureConfig :=
  .fromBits (c.spp_ampdu_config.zeroExtend 8)

/-- `with_spp_ampdu_config`, /repo/src/elements/rsn.rs:356-358. -/
def withSppAmpduConfig (c : RsnCapabilities) (f : OptionalFeatureConfig) : RsnCapabilities :=
  c.with_spp_ampdu_config (f.intoBits.truncate 2)

/-- `RsnCapabilities::new()`, generated by `bitfield`. -/
def new : RsnCapabilities := ⟨0⟩

end RsnCapabilities

/-- `RsnElement`, /repo/src/elements/rsn.rs:407-435, over the types of its three lists. -/
structure RsnElement (P A M : Type) where
  group_data_cipher_suite : Option IEEE80211CipherSuiteSelector
  pairwise_cipher_suite_list : Option P
  akm_list : Option A
  rsn_capbilities : Option RsnCapabilities
  pmkid_list : Option M
  group_management_cipher_suite : Option IEEE80211CipherSuiteSelector
  deriving DecidableEq, Repr

/-- An element over arrays (lists) of items, as built by a caller. -/
abbrev RsnElement.OfLists :=
  RsnElement (List IEEE80211CipherSuiteSelector) (List IEEE80211AkmType) (List (Arr 16))

/-- An element as parsed. -/
abbrev RsnElement.Parsed := RsnElement ReadIterator ReadIterator ReadIterator

namespace RsnElement

/-- `RsnElement::default`, /repo/src/elements/rsn.rs:703-717, and `RsnElement::new`, :438-453. -/
def empty {P A M : Type} : RsnElement P A M := ⟨none, none, none, none, none, none⟩

/-- `WPA_PERSONAL`, /repo/src/elements/rsn.rs:455-468. -/
def WPA_PERSONAL : OfLists :=
  ⟨some .Tkip, some [.Tkip], some [.Psk], some .new, none, none⟩

/-- `WPA_WPA2_PERSONAL`, /repo/src/elements/rsn.rs:470-486. -/
def WPA_WPA2_PERSONAL : OfLists :=
  ⟨some .Tkip, some [.Tkip, .Ccmp128], some [.Psk], some .new, none, none⟩

/-- `WPA2_PERSONAL`, /repo/src/elements/rsn.rs:488-501. -/
def WPA2_PERSONAL : OfLists :=
  ⟨some .Ccmp128, some [.Ccmp128], some [.Psk], some .new, none, none⟩

/-- `WPA2_WPA3_PERSONAL`, /repo/src/elements/rsn.rs:503-516. -/
def WPA2_WPA3_PERSONAL : OfLists :=
  ⟨some .Ccmp128, some [.Ccmp128], some [.Psk, .Sae],
    some (RsnCapabilities.new.withMfpConfig .Required), none, none⟩

/-- `WPA3_PERSONAL`, /repo/src/elements/rsn.rs:518-533. -/
def WPA3_PERSONAL : OfLists :=
  ⟨some .Ccmp128, some [.Ccmp128], some [.Sae],
    some (RsnCapabilities.new.withMfpConfig .Required), some [], some .BipCmac128⟩

/-- `OWE`, /repo/src/elements/rsn.rs:535-550. -/
def OWE : OfLists :=
  ⟨some .Ccmp128, some [.Ccmp128], some [.OpportunisticWirelessEncryption],
    some (RsnCapabilities.new.withMfpConfig .Required), none, some .Ccmp128⟩

/-- `with_group_data_cipher_suite`, /repo/src/elements/rsn.rs:559-565. -/
def withGroupDataCipherSuite {P A M : Type} (e : RsnElement P A M)
    (c : IEEE80211CipherSuiteSelector) : RsnElement P A M :=
  { e with group_data_cipher_suite := some c }

/-- `with_pairwise_cipher_suite_list`, /repo/src/elements/rsn.rs:569-584. -/
def withPairwiseCipherSuiteList {P P' A M : Type} (e : RsnElement P A M) (l : P') :
    RsnElement P' A M :=
  ⟨e.group_data_cipher_suite.or (some .Ccmp128), some l, e.akm_list, e.rsn_capbilities,
    e.pmkid_list, e.group_management_cipher_suite⟩

/-- `with_akm_list`, /repo/src/elements/rsn.rs:588-605.  The arguments `dp`, `da`, `dm` below are
the `Default::default()` of the list types. -/
def withAkmList {P A A' M : Type} (dp : P) (e : RsnElement P A M) (l : A') : RsnElement P A' M :=
  ⟨e.group_data_cipher_suite.or (some .Ccmp128), e.pairwise_cipher_suite_list.or (some dp), some l,
    e.rsn_capbilities, e.pmkid_list, e.group_management_cipher_suite⟩

/-- `with_rsn_capabilities`, /repo/src/elements/rsn.rs:609-626. -/
def withRsnCapabilities {P A M : Type} (dp : P) (da : A) (e : RsnElement P A M)
    (c : RsnCapabilities) : RsnElement P A M :=
  ⟨e.group_data_cipher_suite.or (some .Ccmp128), e.pairwise_cipher_suite_list.or (some dp),
    e.akm_list.or (some da), some c, e.pmkid_list, e.group_management_cipher_suite⟩

/-- `with_pmkid_list`, /repo/src/elements/rsn.rs:630-649. -/
def withPmkidList {P A M M' : Type} (dp : P) (da : A) (e : RsnElement P A M) (l : M') :
    RsnElement P A M' :=
  ⟨e.group_data_cipher_suite.or (some .Ccmp128), e.pairwise_cipher_suite_list.or (some dp),
    e.akm_list.or (some da), e.rsn_capbilities.or (some .new), some l,
    e.group_management_cipher_suite⟩

/-- `with_group_management_cipher_suite`, /repo/src/elements/rsn.rs:653-672. -/
def withGroupManagementCipherSuite {P A M : Type} (dp : P) (da : A) (dm : M)
    (e : RsnElement P A M) (c : IEEE80211CipherSuiteSelector) : RsnElement P A M :=
  ⟨e.group_data_cipher_suite.or (some .Ccmp128), e.pairwise_cipher_suite_list.or (some dp),
    e.akm_list.or (some da), e.rsn_capbilities.or (some .new), e.pmkid_list.or (some dm), some c⟩

/-- `MeasureWith`, /repo/src/elements/rsn.rs:764-794; the functions count the items of a list. -/
def measure {P A M : Type} (cp : P → Nat) (ca : A → Nat) (cm : M → Nat) (e : RsnElement P A M) :
    Nat :=
  2 + (if e.group_data_cipher_suite.isSome then 4 else 0) +
  (match e.pairwise_cipher_suite_list with | some l => 2 + cp l * 4 | none => 0) +
  (match e.akm_list with | some l => 2 + ca l * 4 | none => 0) +
  (if e.rsn_capbilities.isSome then 2 else 0) +
  (match e.pmkid_list with | some l => 2 + cm l * 4 | none => 0) +
  (if e.group_management_cipher_suite.isSome then 4 else 0)

end RsnElement

variable [ScrollRule]

/-- `TryFromCtx` of a cipher suite selector, /repo/src/elements/rsn.rs:97-110. -/
def readCipherSuite : Reader IEEE80211CipherSuiteSelector := Rd.run do
  let s ← Rd.gread (readLE 32)
  pure (.withCipherSuiteSelector s)

/-- `TryIntoCtx` of a cipher suite selector, /repo/src/elements/rsn.rs:117-127. -/
def writeCipherSuite (c : IEEE80211CipherSuiteSelector) : Writer := Wr.run do
  Wr.gwrite (writeLE c.cipherSuiteSelector)

/-- `TryFromCtx` of an AKM type, /repo/src/elements/rsn.rs:97-110. -/
def readAkm : Reader IEEE80211AkmType := Rd.run do
  let s ← Rd.gread (readLE 32)
  pure (.withCipherSuiteSelector s)

/-- `TryIntoCtx` of an AKM type, /repo/src/elements/rsn.rs:117-127. -/
def writeAkm (c : IEEE80211AkmType) : Writer := Wr.run do
  Wr.gwrite (writeLE c.cipherSuiteSelector)

/-- `TryFromCtx for IEEE80211Pmkid`, /repo/src/elements/rsn.rs:381-388. -/
def readPmkid : Reader (Arr 16) := readArr 16

/-- `TryIntoCtx for IEEE80211Pmkid`, /repo/src/elements/rsn.rs:389-395. -/
def writePmkid (p : Arr 16) : Writer := pwrite (writeBytes p.val) 0

/-- `SizeWith for IEEE80211Pmkid`, /repo/src/elements/rsn.rs:396-400. -/
def sizePmkid : Nat := 16

/-- `MeasureWith for IEEE80211Pmkid`, /repo/src/elements/rsn.rs:401-405. -/
def measurePmkid (_ : Arr 16) : Nat := 16

/-- `SizeWith` of both selector types, /repo/src/elements/rsn.rs:111-116. -/
def sizeSuite : Nat := 4

/-- The loop of `[T; N]::try_into_ctx` of `scroll`: `gwrite` each item. -/
def gwriteAll {α : Type} (w : α → Writer) : List α → Wr Unit
  | [] => pure ()
  | a :: l => do
    Wr.gwrite (w a)
    gwriteAll w l

/-- `TryIntoCtx` of an array of items. -/
def writeArray {α : Type} (w : α → Writer) (l : List α) : Writer := Wr.run (gwriteAll w l)

/-- `read_list!`, /repo/src/elements/rsn.rs:718-729.  `none` stands for the early return; the offset
stays where the failing read left it. -/
def readRsnList : Rd (Option ReadIterator) := do
  match ← Rd.greadOk (readLE 16) with
  | none => pure none
  | some list_length =>
    match ← Rd.greadOk (readBytes (list_length.toNat * 4)) with
    | none => pure none
    | some list_bytes => pure (some (.new list_bytes))

/-- `TryFromCtx for RsnElement` after the version check, /repo/src/elements/rsn.rs:742-762. -/
def readRsnBody : Rd RsnElement.Parsed := do
  match ← Rd.greadOk readCipherSuite with
  | none => pure .empty
  | some g =>
    match ← readRsnList with
    | none => pure ⟨some g, none, none, none, none, none⟩
    | some p =>
      match ← readRsnList with
      | none => pure ⟨some g, some p, none, none, none, none⟩
      | some a =>
        match ← Rd.greadOk (readLE 16) with
        | none => pure ⟨some g, some p, some a, none, none, none⟩
        | some c =>
          match ← readRsnList with
          | none => pure ⟨some g, some p, some a, some ⟨c⟩, none, none⟩
          | some m =>
            match ← Rd.greadOk readCipherSuite with
            | none => pure ⟨some g, some p, some a, some ⟨c⟩, some m, none⟩
            | some gm => pure ⟨some g, some p, some a, some ⟨c⟩, some m, some gm⟩

/-- `TryFromCtx for RsnElement`, /repo/src/elements/rsn.rs:730-763. -/
def readRsn : Reader RsnElement.Parsed := Rd.run do
  let v ← Rd.gread (readLE 16)
  if v ≠ 1 then Rd.fail .badInput else readRsnBody

/-- `write_list!`, /repo/src/elements/rsn.rs:796-806: skip two bytes, write the list, then go back
and write the count. -/
def writeRsnList (w : Writer) : Wr Unit := fun buf off =>
  match Wr.gwrite w buf (off + 2) with
  | .err e => .err e
  | .panic => .panic
  | .ok (_, buf', off') =>
    let list_length := off' - (off + 2)
    match pwrite (writeLE (BitVec.ofNat 16 list_length / 4)) (off' - list_length - 2) buf' with
    | .err e => .err e
    | .panic => .panic
    | .ok (buf'', _) => .ok ((), buf'', off')

/-- `TryIntoCtx for RsnElement`, /repo/src/elements/rsn.rs:807-854; the functions write a list. -/
def writeRsn {P A M : Type} (wp : P → Writer) (wa : A → Writer) (wm : M → Writer)
    (e : RsnElement P A M) : Writer := Wr.run do
  Wr.gwrite (writeLE (1 : BitVec 16))
  match e.group_data_cipher_suite with
  | none => pure ()
  | some g =>
    Wr.gwrite (writeCipherSuite g)
    match e.pairwise_cipher_suite_list with
    | none => pure ()
    | some p =>
      writeRsnList (wp p)
      match e.akm_list with
      | none => pure ()
      | some a =>
        writeRsnList (wa a)
        match e.rsn_capbilities with
        | none => pure ()
        | some c =>
          Wr.gwrite (writeLE c.bits)
          match e.pmkid_list with
          | none => pure ()
          | some m =>
            writeRsnList (wm m)
            match e.group_management_cipher_suite with
            | none => pure ()
            | some gm => Wr.gwrite (writeCipherSuite gm)

/-- Writing an element whose lists are arrays. -/
def writeRsnLists (e : RsnElement.OfLists) : Writer :=
  writeRsn (writeArray writeCipherSuite) (writeArray writeAkm) (writeArray writePmkid) e

/-- Writing an element whose lists are `ReadIterator`s. -/
def writeRsnParsed (e : RsnElement.Parsed) : Writer :=
  writeRsn ReadIterator.write ReadIterator.write ReadIterator.write e

/-- Measuring an element whose lists are arrays. -/
def measureRsnLists (e : RsnElement.OfLists) : Nat :=
  e.measure List.length List.length List.length

/-- `Element for RsnElement`, /repo/src/elements/rsn.rs:855-862. -/
def rsnElem (e : RsnElement.OfLists) : Elem := ⟨.Id 0x30, ⟨writeRsnLists e, measureRsnLists e⟩⟩

/-- The parsing side of `Element for RsnElement`. -/
def rsnKind : ElementKind RsnElement.Parsed := ⟨.Id 0x30, readRsn⟩

end Verif
