import Verif.Model.Elements.Ht
import Verif.Model.Elements.Rsn
import Verif.Model.Elements.Tim
import Verif.Model.Elements.Rates
import Verif.Model.Elements.Vendor
import Verif.Model.Frames.Mgmt
import Verif.Model.Frames.Data
/-!
# `Default`

`#[derive(Default)]` takes the default of each field, and the variant marked `#[default]` of an enumeration.  The
default of a packed field is that of its bits: zero, except where `bitfield` is given a default (`AssociationID`,
`HtSig`).  A container of elements or a payload is a parameter: the default of its own type.  The crypto header is in
`Model/Crypto/CryptoHeader.lean`, the RSN element in `Model/Elements/Rsn.lean`.
-/
namespace Verif

/-! ## Enumerations -/

/-- `#[default]`, /repo/src/elements/ht/capabilities.rs:20-21. -/
def SmPwSave.default : SmPwSave := .Disabled
/-- `#[default]`, /repo/src/elements/ht/capabilities.rs:73-75. -/
def MAXAMpduLength.default : MAXAMpduLength := .Small
/-- `#[default]`, /repo/src/elements/ht/capabilities.rs:90-91. -/
def MpduDensity.default : MpduDensity := .NoRestriction
/-- `#[default]`, /repo/src/elements/ht/capabilities.rs:137-138. -/
def BeamformingCalibration.default : BeamformingCalibration := .NotSupported
/-- `#[default]`, /repo/src/elements/ht/capabilities.rs:149-150. -/
def BeamformingFeedback.default : BeamformingFeedback := .NotSupported
/-- `#[default]`, /repo/src/elements/ht/capabilities.rs:161-162. -/
def GroupingCapability.default : GroupingCapability := .NoGrouping
/-- `#[default]`, /repo/src/elements/ht/operation.rs:25-27. -/
def SecondaryChannelOffset.default : SecondaryChannelOffset := .NotPresent
/-- `#[default]`, /repo/src/elements/ht/operation.rs:40-42. -/
def HTProtectionMode.default : HTProtectionMode := .None
/-- `#[default]`, /repo/src/elements/vht.rs:78-79. -/
def VHTMCSSupport.default : VHTMCSSupport := .NotSupported
/-- `#[default]`, /repo/src/elements/rsn.rs:297-299. -/
def OptionalFeatureConfig.default : OptionalFeatureConfig := .Disabled
/-- `#[default]`, /repo/src/common/reason.rs:9-10. -/
def IEEE80211Reason.default : IEEE80211Reason := .Unspecified
/-- `#[default]`, /repo/src/common/status_code.rs:9-10. -/
def IEEE80211StatusCode.default : IEEE80211StatusCode := .Success
/-- `#[default]`, /repo/src/common/auth_algo_num.rs:8-9. -/
def IEEE80211AuthenticationAlgorithmNumber.default : IEEE80211AuthenticationAlgorithmNumber := .OpenSystem
/-- `#[default]`, /repo/src/common/subtypes/data.rs:21-22. -/
def DataFrameSubtype.default : DataFrameSubtype := .Data
/-- `#[default]`, /repo/src/frames/mgmt_frame/body/action/mod.rs:38-39. -/
def CategoryCode.default : CategoryCode := .VendorSpecific

/-! ## Elements -/

/-- Derived, /repo/src/elements/dsss_parameter_set.rs:9. -/
def DSSSParameterSetElement.default : DSSSParameterSetElement := ⟨0⟩
/-- Derived, /repo/src/elements/ibss_parameter_set.rs:13. -/
def IBSSParameterSetElement.default : IBSSParameterSetElement := ⟨0⟩
/-- Derived, of a name held as `&str`, /repo/src/elements/ssid.rs:20. -/
def SSIDLikeElement.default : SSIDLikeElement := ⟨⟨[], by decide⟩⟩
/-- Derived, of rates held in a list, /repo/src/elements/rates/supported_rates.rs:13, extended_supported_rates.rs:13. -/
def RatesElement.default : RatesElement := ⟨[]⟩
/-- Derived, /repo/src/elements/tim.rs:490. -/
def TIMElement.default : TIMElement := ⟨0, 0, none⟩
/-- Derived, /repo/src/elements/tim.rs:169. -/
def TIMBitmap.default : TIMBitmap := ⟨⟨0⟩, none⟩
/-- `Default for StaticBitmap`, /repo/src/elements/tim.rs:115-119. -/
def TIMBits.defaultStatic : TIMBits := .static (List.replicate 251 0) 0
/-- `Default for ConstBitmap`, /repo/src/elements/tim.rs:151-155. -/
def TIMBits.defaultConst : TIMBits := .const (List.replicate 251 0) 0 0
/-- Derived, /repo/src/elements/ht/mcs_set.rs:54. -/
def SupportedMCSSet.default : SupportedMCSSet := ⟨Arr.zero 10, ⟨0⟩⟩
/-- Derived, /repo/src/elements/ht/capabilities.rs:253. -/
def HTCapabilitiesElement.default : HTCapabilitiesElement := ⟨⟨0⟩, ⟨0⟩, .default, ⟨0⟩, ⟨0⟩, ⟨0⟩⟩
/-- Derived, /repo/src/elements/ht/operation.rs:90. -/
def HTOperationElement.default : HTOperationElement := ⟨0, ⟨0⟩, .default⟩
/-- Derived, /repo/src/elements/vht.rs:82. -/
def VHTMCSMap.default : VHTMCSMap := ⟨0⟩
/-- Derived, /repo/src/elements/vht.rs:141. -/
def VHTCapabilitiesElement.default : VHTCapabilitiesElement := ⟨⟨0⟩, ⟨0⟩⟩
/-- Derived, of a name held as `&str`, /repo/src/elements/owe_transition.rs:23. -/
def OWETransitionModeElement.default : OWETransitionModeElement := ⟨Arr.zero 6, ⟨[], by decide⟩, none⟩

/-! ## Frames -/

/-- Generated by `bitfield`, /repo/src/common/aid.rs:5-17. -/
def AssociationID.default : AssociationID := .new
/-- Derived, /repo/src/frames/mgmt_frame/header.rs:10. -/
def ManagementFrameHeader.default : ManagementFrameHeader :=
  ⟨⟨0⟩, 0, Arr.zero 6, Arr.zero 6, Arr.zero 6, ⟨0⟩, none⟩
/-- Derived, /repo/src/frames/mgmt_frame/body/assoc.rs:14. -/
def AssociationRequestBody.default {ε : Type} (e : ε) : AssociationRequestBody ε := ⟨⟨0⟩, 0, e⟩
/-- Derived, /repo/src/frames/mgmt_frame/body/assoc.rs:76. -/
def AssociationResponseBody.default {ε : Type} (e : ε) : AssociationResponseBody ε := ⟨⟨0⟩, .default, none, e⟩
/-- Derived, /repo/src/frames/mgmt_frame/body/auth.rs:14. -/
def AuthenticationBody.default {ε : Type} (e : ε) : AuthenticationBody ε := ⟨.default, 0, .default, e⟩
/-- Derived, /repo/src/frames/mgmt_frame/body/beacon.rs:18. -/
def BeaconLikeBody.default {ε : Type} (e : ε) : BeaconLikeBody ε := ⟨0, 0, ⟨0⟩, e⟩
/-- Derived, /repo/src/frames/mgmt_frame/body/disassoc.rs:11, deauth.rs:11. -/
def ReasonBody.default {ε : Type} (e : ε) : ReasonBody ε := ⟨.default, e⟩
/-- Derived, /repo/src/frames/mgmt_frame/body/probe.rs:13. -/
def ProbeRequestBody.default {ε : Type} (e : ε) : ProbeRequestBody ε := ⟨e⟩
/-- Derived, /repo/src/frames/mgmt_frame/body/action/mod.rs:52. -/
def RawActionBody.default : RawActionBody := ⟨.default, []⟩
/-- Derived, /repo/src/frames/mgmt_frame/body/action/vendor.rs:13. -/
def VendorActionBody.default {ε : Type} (e : ε) : VendorActionBody ε := ⟨Arr.zero 3, e⟩
/-- Derived, /repo/src/frames/mgmt_frame/body/action/self_protected.rs:29. -/
def MeshPeeringOpenBody.default {ε : Type} (e : ε) : MeshPeeringOpenBody ε := ⟨⟨0⟩, e⟩
/-- Derived, /repo/src/frames/mgmt_frame/body/action/self_protected.rs:115. -/
def MeshPeeringConfirmBody.default {ε : Type} (e : ε) : MeshPeeringConfirmBody ε := ⟨⟨0⟩, .default, e⟩
/-- Derived, /repo/src/frames/mgmt_frame/body/action/self_protected.rs:209. -/
def MeshPeeringCloseBody.default {ε : Type} (e : ε) : MeshPeeringCloseBody ε := ⟨e⟩
/-- Derived, /repo/src/frames/data_frame/header.rs:11. -/
def DataFrameHeader.default : DataFrameHeader :=
  ⟨.default, ⟨0⟩, 0, Arr.zero 6, Arr.zero 6, Arr.zero 6, ⟨0⟩, none, none, none⟩
/-- Derived, /repo/src/frames/data_frame/mod.rs:102. -/
def DataFrame.default {π : Type} : DataFrame π := ⟨.default, none⟩
/-- Derived, /repo/src/frames/data_frame/amsdu.rs:8. -/
def AMSDUSubframe.default {π : Type} (p : π) : AMSDUSubframe π := ⟨Arr.zero 6, Arr.zero 6, p⟩

/-! ## Iterators -/

/-- Derived, /repo/src/common/read_iterator.rs:8. -/
def ReadIterator.default : ReadIterator := ⟨none⟩
/-- Derived, /repo/src/elements/rates/rate_iter.rs:8. -/
def RatesReadIterator.default : RatesReadIterator := ⟨.default⟩
/-- Derived, /repo/src/frames/data_frame/amsdu.rs:78. -/
def SubframeIter.default : SubframeIter := ⟨none⟩

end Verif
