import Verif.Model.Elements.Simple
import Verif.Model.Elements.Rates
import Verif.Model.Elements.Tim
import Verif.Model.Elements.Ht
import Verif.Model.Elements.Rsn
import Verif.Model.Elements.Vendor
import Verif.Model.Elements.MeshPeering
import Verif.Model.Frames.Mgmt
import Verif.Model.Frames.Control
import Verif.Model.Frames.Data
import Verif.Model.Crypto.CryptoHeader
import Verif.Model.Crypto.Eapol
/-!
# The parsers of the library, and what is asked of all of them

`Parser r`: `r` is one of the library's parsers (`TryFromCtx` implementations).  Left out are the few
for which C41 is violated: they have theorems of their own.
-/
namespace Verif.Spec

/-- Parsing any bytes gives a value or an error. -/
def NoPanic {α : Type} (r : Reader α) : Prop := ∀ inp, (∃ v n, r inp = .ok (v, n)) ∨ ∃ e, r inp = .err e

/-- The reported length is within the input. -/
def WithinInput {α : Type} (r : Reader α) : Prop := ∀ inp v n, r inp = .ok (v, n) → n ≤ inp.length

/-- What is parsed depends on nothing but the bytes reported as consumed. -/
def IgnoresSuffix {α : Type} (r : Reader α) : Prop := ∀ inp v n, r inp = .ok (v, n) →
  (∀ more, r (inp ++ more) = .ok (v, n)) ∧ r (inp.take n) = .ok (v, n)

variable [ScrollRule] [Crc32]

/-- The parsers which report no more than they are given. -/
inductive Parser : {α : Type} → Reader α → Prop
  -- elements
  | rawElement : Parser readRawElement
  | rawExtElement : Parser readRawExtElement
  | typedExtElement {α : Type} (r : Reader α) : Parser r → Parser (readTypedExtElement r)
  | vendorSpecific : Parser readVendorSpecificElement
  | elements : Parser readElements
  | ssid : Parser readSSID
  | supportedRates : Parser readSupportedRates
  | extendedSupportedRates : Parser readExtendedSupportedRates
  | dsss : Parser readDSSS
  | ibss : Parser readIBSS
  | bssLoad : Parser readBSSLoad
  | timBitmap : Parser readTIMBitmap
  | tim : Parser readTIM
  | htCapabilities : Parser readHTCapabilities
  | vhtCapabilities : Parser readVHTCapabilities
  | vhtOperation : Parser readVHTOperation
  | meshConfiguration : Parser readMeshConfiguration
  | cipherSuite : Parser readCipherSuite
  | akm : Parser readAkm
  | pmkid : Parser readPmkid
  | rsn : Parser readRsn
  | gtk : Parser readGtk
  | bandAndChannel : Parser readBandAndChannelInfo
  | owe : Parser readOWE
  -- frames
  | mgmtHeader (f : FCFFlags) : Parser (readMgmtHeader f)
  | associationRequest : Parser readAssociationRequest
  | associationResponse : Parser readAssociationResponse
  | authentication : Parser readAuthentication
  | beaconLike : Parser readBeaconLike
  | disassociation : Parser readDisassociation
  | deauthentication : Parser readDeauthentication
  | probeRequest : Parser readProbeRequest
  | rawAction : Parser readRawAction
  | vendorAction : Parser readVendorAction
  | meshPeeringOpen : Parser readMeshPeeringOpen
  | meshPeeringConfirm : Parser readMeshPeeringConfirm
  | meshPeeringClose : Parser readMeshPeeringClose
  | mgmtFrame {β : Type} (r : Reader β) : Parser r → Parser (readMgmtFrame r false)
  | control (s : ControlFrameSubtype) (f : FCFFlags) : Parser (readControlFrame s f)
  | dataHeader : Parser readDataHeader
  | dataFrame : Parser (readDataFrame false)
  | dataPayload (is_amsdu : Bool) : Parser (readDataFramePayload is_amsdu)
  | empty : Parser readEmpty
  -- security
  | cryptoHeader : Parser readCryptoHeader
  | eapolKey (akm : IEEE80211AkmType) : Parser (readEapolKeyFrame akm)

end Verif.Spec
