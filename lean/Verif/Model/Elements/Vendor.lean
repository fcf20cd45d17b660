import Verif.Model.Elements.Core
import Verif.Model.Elements.Rsn
import Verif.Model.ElementTypes
import Verif.Basic.Utf8
/-!
# `/repo/src/elements/kde.rs`, `/repo/src/elements/owe_transition.rs`
-/
namespace Verif

/-- The ID of a key data encapsulation, /repo/src/elements/kde.rs:44-49. -/
def kdeId (selector : Byte) : ElementID := .VendorSpecific [0x00, 0x0f, 0xac, selector]

variable [ScrollRule]

/-! ## `define_kde!`, /repo/src/elements/kde.rs:9-51 -/

/-- `MacAddressKde` as parsed, /repo/src/elements/kde.rs:52-54. -/
def macAddressKind : ElementKind Mac := ⟨kdeId 3, readMac⟩
/-- `MacAddressKde` as written. -/
def macAddressKde (m : Mac) : Elem := ⟨kdeId 3, ⟨pwrite (writeBytes m.val) 0, 6⟩⟩

/-- `PmkidKde` as parsed, /repo/src/elements/kde.rs:55-57. -/
def pmkidKind : ElementKind (Arr 16) := ⟨kdeId 4, readPmkid⟩
/-- `PmkidKde` as written. -/
def pmkidKde (p : Arr 16) : Elem := ⟨kdeId 4, ⟨pwrite (writePmkid p) 0, 16⟩⟩

/-- `NonceKde` as parsed, /repo/src/elements/kde.rs:58-60. -/
def nonceKind : ElementKind (Arr 32) := ⟨kdeId 6, readArr 32⟩
/-- `NonceKde` as written. -/
def nonceKde (n : Arr 32) : Elem := ⟨kdeId 6, ⟨pwrite (writeBytes n.val) 0, 32⟩⟩

/-- `LifetimeKde` as parsed, /repo/src/elements/kde.rs:61-63. -/
def lifetimeKind : ElementKind (BitVec 32) := ⟨kdeId 7, readBE 32⟩
/-- `LifetimeKde` as written. -/
def lifetimeKde (x : BitVec 32) : Elem := ⟨kdeId 7, ⟨pwrite (writeBE x) 0, 4⟩⟩

/-! ## GTK -/

/-- `GtkKde`, /repo/src/elements/kde.rs:72-76. -/
structure GtkKde where
  gtk_info : GtkInfo
  gtk : Bytes
  deriving DecidableEq, Repr

/-- `TryFromCtx for GtkKde`, /repo/src/elements/kde.rs:77-93. -/
def readGtk : Reader GtkKde := Rd.run do
  let i ← Rd.gread (readLE 16)
  let gtk ← Rd.remaining
  Rd.toEnd
  pure ⟨⟨i⟩, gtk⟩

/-- `TryIntoCtx for GtkKde`, /repo/src/elements/kde.rs:99-109. -/
def writeGtk (k : GtkKde) : Writer := Wr.run do
  Wr.gwrite (writeLE k.gtk_info.bits)
  Wr.gwrite (writeBytes k.gtk)

/-- `MeasureWith for GtkKde`, /repo/src/elements/kde.rs:94-98. -/
def measureGtk (k : GtkKde) : Nat := 2 + k.gtk.length

/-- `Element for GtkKde`, /repo/src/elements/kde.rs:110-113. -/
def gtkElem (k : GtkKde) : Elem := ⟨kdeId 1, ⟨writeGtk k, measureGtk k⟩⟩
/-- `GtkKde` as parsed. -/
def gtkKind : ElementKind GtkKde := ⟨kdeId 1, readGtk⟩

/-! ## OWE transition mode -/

/-- `BandAndChannelInfo`, /repo/src/elements/owe_transition.rs:14-21. -/
structure BandAndChannelInfo where
  band : Byte
  channel : Byte
  deriving DecidableEq, Repr

/-- The derived `Pread` of `BandAndChannelInfo`. -/
def readBandAndChannelInfo : Reader BandAndChannelInfo := Rd.run do
  let band ← Rd.gread readU8
  let channel ← Rd.gread readU8
  pure { band, channel }

/-- The derived `Pwrite` of `BandAndChannelInfo`. -/
def writeBandAndChannelInfo (b : BandAndChannelInfo) : Writer := Wr.run do
  Wr.gwrite (writeU8 b.band)
  Wr.gwrite (writeU8 b.channel)

/-- `OWETransitionModeElement`, /repo/src/elements/owe_transition.rs:23-39. -/
structure OWETransitionModeElement where
  bssid : Mac
  ssid : Str
  band_and_channel_info : Option BandAndChannelInfo
  deriving DecidableEq

/-- `TryFromCtx`, /repo/src/elements/owe_transition.rs:54-74. -/
def readOWE : Reader OWETransitionModeElement := Rd.run do
  let bssid ← Rd.gread readMac
  let ssid_len ← Rd.gread readU8
  let ssid ← Rd.gread (readStr ssid_len.toNat)
  let band_and_channel_info ← Rd.greadOk readBandAndChannelInfo
  pure { bssid, ssid, band_and_channel_info }

/-- `MeasureWith`, /repo/src/elements/owe_transition.rs:75-85. -/
def measureOWE (e : OWETransitionModeElement) : Nat :=
  6 + 1 + e.ssid.len + if e.band_and_channel_info.isSome then 2 else 0

/-- `TryIntoCtx`, /repo/src/elements/owe_transition.rs:86-100; `as u8` truncates. -/
def writeOWE (e : OWETransitionModeElement) : Writer := Wr.run do
  Wr.gwrite (writeBytes e.bssid.val)
  Wr.gwrite (writeU8 (BitVec.ofNat 8 e.ssid.len))
  Wr.gwrite (writeBytes e.ssid.bytes)
  match e.band_and_channel_info with
  | some b => Wr.gwrite (writeBandAndChannelInfo b)
  | none => pure ()

/-- The ID of the element, /repo/src/elements/owe_transition.rs:102-109. -/
def oweId : ElementID := .VendorSpecific (WIFI_ALLIANCE_OUI ++ [0x1c])

/-- `Element`, /repo/src/elements/owe_transition.rs:101-111. -/
def oweElem (e : OWETransitionModeElement) : Elem := ⟨oweId, ⟨writeOWE e, measureOWE e⟩⟩
/-- The element as parsed. -/
def oweKind : ElementKind OWETransitionModeElement := ⟨oweId, readOWE⟩

end Verif
