import Verif.Model.Elements.Simple
import Verif.Model.Elements.Rates
import Verif.Model.Elements.Ht
import Verif.Model.Elements.Tim
import Verif.Model.Elements.Rsn
import Verif.Model.Elements.MeshPeering
/-!
# The `Element` implementations: element IDs, as written and as looked up

RSN, mesh peering management, the key data encapsulations and OWE transition mode have theirs beside
the element.
-/
namespace Verif

variable [ScrollRule]

/-- `Element for SSIDElement`, /repo/src/elements/ssid.rs:92-97,148-150. -/
def ssidElem (e : SSIDLikeElement) : Elem := ⟨.Id 0x00, ⟨writeSSID e, measureSSID e⟩⟩
/-- `SSIDElement` as parsed. -/
def ssidKind : ElementKind SSIDLikeElement := ⟨.Id 0x00, readSSID⟩

/-- `Element for MeshIDElement`, /repo/src/elements/ssid.rs:92-97,160-162. -/
def meshIdElem (e : SSIDLikeElement) : Elem := ⟨.Id 0x72, ⟨writeSSID e, measureSSID e⟩⟩
/-- `MeshIDElement` as parsed. -/
def meshIdKind : ElementKind SSIDLikeElement := ⟨.Id 0x72, readSSID⟩

/-- `Element for SupportedRatesElement`, /repo/src/elements/rates/supported_rates.rs:103-106. -/
def supportedRatesElem (e : RatesElement) : Elem := ⟨.Id 0x01, ⟨writeSupportedRates e, measureRates e⟩⟩
/-- `SupportedRatesElement` as parsed. -/
def supportedRatesKind : ElementKind RatesReadIterator := ⟨.Id 0x01, readSupportedRates⟩

/-- `Element for ExtendedSupportedRatesElement`,
/repo/src/elements/rates/extended_supported_rates.rs:102-105. -/
def extendedSupportedRatesElem (e : RatesElement) : Elem :=
  ⟨.Id 0x32, ⟨writeExtendedSupportedRates e, measureRates e⟩⟩
/-- `ExtendedSupportedRatesElement` as parsed. -/
def extendedSupportedRatesKind : ElementKind RatesReadIterator := ⟨.Id 0x32, readExtendedSupportedRates⟩

/-- `Element for DSSSParameterSetElement`, /repo/src/elements/dsss_parameter_set.rs:42-45. -/
def dsssElem (e : DSSSParameterSetElement) : Elem := ⟨.Id 0x03, ⟨writeDSSS e, measureDSSS e⟩⟩
/-- `DSSSParameterSetElement` as parsed. -/
def dsssKind : ElementKind DSSSParameterSetElement := ⟨.Id 0x03, readDSSS⟩

/-- `Element for TIMElement`, /repo/src/elements/tim.rs:608-614; measuring a map may panic. -/
def timElem (e : TIMElement) : Res Elem := do
  let m ← measureTIM e
  pure ⟨.Id 5, ⟨writeTIM e, m⟩⟩
/-- `TIMElement` as parsed. -/
def timKind : ElementKind TIMElement := ⟨.Id 5, readTIM⟩

/-- `Element for IBSSParameterSetElement`, /repo/src/elements/ibss_parameter_set.rs:55-58. -/
def ibssElem (e : IBSSParameterSetElement) : Elem := ⟨.Id 0x06, ⟨writeIBSS e, measureIBSS e⟩⟩
/-- `IBSSParameterSetElement` as parsed. -/
def ibssKind : ElementKind IBSSParameterSetElement := ⟨.Id 0x06, readIBSS⟩

/-- `Element for BSSLoadElement`, /repo/src/elements/bss_load.rs:62-65. -/
def bssLoadElem (e : BSSLoadElement) : Elem := ⟨.Id 0x0b, ⟨writeBSSLoad e, measureBSSLoad e⟩⟩
/-- `BSSLoadElement` as parsed. -/
def bssLoadKind : ElementKind BSSLoadElement := ⟨.Id 0x0b, readBSSLoad⟩

/-- `Element for HTCapabilitiesElement`, /repo/src/elements/ht/capabilities.rs:334-337. -/
def htCapabilitiesElem (e : HTCapabilitiesElement) : Elem :=
  ⟨.Id 0x2d, ⟨writeHTCapabilities e, measureHTCapabilities e⟩⟩
/-- `HTCapabilitiesElement` as parsed. -/
def htCapabilitiesKind : ElementKind HTCapabilitiesElement := ⟨.Id 0x2d, readHTCapabilities⟩

/-- `Element for HTOperationElement`, /repo/src/elements/ht/operation.rs:142-145. -/
def htOperationElem (e : HTOperationElement) : Elem :=
  ⟨.Id 0x3d, ⟨writeHTOperation e, measureHTOperation e⟩⟩
/-- `HTOperationElement` as parsed. -/
def htOperationKind : ElementKind HTOperationElement := ⟨.Id 0x3d, readHTOperation⟩

/-- `Element for MeshConfigurationElement`, /repo/src/elements/mesh/mesh_configuration.rs:178-181. -/
def meshConfigurationElem (e : MeshConfigurationElement) : Elem :=
  ⟨.Id 113, ⟨writeMeshConfiguration e, measureMeshConfiguration e⟩⟩
/-- `MeshConfigurationElement` as parsed. -/
def meshConfigurationKind : ElementKind MeshConfigurationElement := ⟨.Id 113, readMeshConfiguration⟩

/-- `Element for VHTCapabilitiesElement`, /repo/src/elements/vht.rs:186-189. -/
def vhtCapabilitiesElem (e : VHTCapabilitiesElement) : Elem :=
  ⟨.Id 0xbf, ⟨writeVHTCapabilities e, measureVHTCapabilities e⟩⟩
/-- `VHTCapabilitiesElement` as parsed. -/
def vhtCapabilitiesKind : ElementKind VHTCapabilitiesElement := ⟨.Id 0xbf, readVHTCapabilities⟩

/-- `Element for VHTOperationElement`, /repo/src/elements/vht.rs:251-254. -/
def vhtOperationElem (e : VHTOperationElement) : Elem :=
  ⟨.Id 0xc0, ⟨writeVHTOperation e, measureVHTOperation e⟩⟩
/-- `VHTOperationElement` as parsed. -/
def vhtOperationKind : ElementKind VHTOperationElement := ⟨.Id 0xc0, readVHTOperation⟩

/-- `Element for VendorSpecificElement`, /repo/src/elements/vendor_specific_element.rs:76-81. -/
def vendorElem (payload : Obj) : Elem := ⟨.Id 0xdd, vendorSpecificElement payload⟩
/-- `VendorSpecificElement` as parsed: any vendor's element, prefix included. -/
def vendorKind : ElementKind Bytes := ⟨.Id 0xdd, readVendorSpecificElement⟩

end Verif
