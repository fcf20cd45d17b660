import Verif.Spec.Codes
/-!
# C02: enumerated codes never change value when parsed and written back

Each theorem says, for one enumeration: the codes of the standard (tables in
`Spec/Codes.lean`) decode to the variant of that name and encode back to the same
number; any other code is kept as `Unknown(code)`; encoding after decoding is the
identity on all codes.
-/
namespace Verif

/-- Proves `CodeEnum` for a generated enumeration. -/
macro "code_enum " n:ident : tactic => do
  let nm := n.getId
  let tab := Lean.mkIdentFrom n (nm ++ `table)
  let fb := Lean.mkIdentFrom n (nm ++ `fromBits)
  let a := Lean.mkIdentFrom n (nm ++ `table_intoBits)
  let b := Lean.mkIdentFrom n (nm ++ `table_nodup)
  `(tactic| exact codeEnum_of (tab := $tab)
      (by intro v; unfold $fb; cases lookupCode v $tab <;> rfl) $a (fun _ => rfl) $b (by rfl)
      (by intro e; cases e <;> first | exact .inr ⟨_, rfl⟩ | (left; decide)))

theorem c02_ManagementFrameSubtype : Spec.CodeEnum ManagementFrameSubtype.fromBits ManagementFrameSubtype.intoBits ManagementFrameSubtype.Unknown
    Spec.codesManagementFrameSubtype := by
  code_enum ManagementFrameSubtype

theorem c02_ControlFrameSubtype : Spec.CodeEnum ControlFrameSubtype.fromBits ControlFrameSubtype.intoBits ControlFrameSubtype.Unknown
    Spec.codesControlFrameSubtype := by
  code_enum ControlFrameSubtype

theorem c02_DataFrameCF : Spec.CodeEnum DataFrameCF.fromBits DataFrameCF.intoBits DataFrameCF.Unknown
    Spec.codesDataFrameCF := by
  code_enum DataFrameCF

theorem c02_DataFrameSubtype : Spec.CodeEnum DataFrameSubtype.fromBits DataFrameSubtype.intoBits DataFrameSubtype.Unknown
    Spec.codesDataFrameSubtype := by
  code_enum DataFrameSubtype

theorem c02_IEEE80211Reason : Spec.CodeEnum IEEE80211Reason.fromBits IEEE80211Reason.intoBits IEEE80211Reason.Unknown
    Spec.codesIEEE80211Reason := by
  code_enum IEEE80211Reason

theorem c02_IEEE80211StatusCode : Spec.CodeEnum IEEE80211StatusCode.fromBits IEEE80211StatusCode.intoBits IEEE80211StatusCode.Unknown
    Spec.codesIEEE80211StatusCode := by
  code_enum IEEE80211StatusCode

theorem c02_IEEE80211AuthenticationAlgorithmNumber : Spec.CodeEnum IEEE80211AuthenticationAlgorithmNumber.fromBits IEEE80211AuthenticationAlgorithmNumber.intoBits IEEE80211AuthenticationAlgorithmNumber.Unknown
    Spec.codesIEEE80211AuthenticationAlgorithmNumber := by
  code_enum IEEE80211AuthenticationAlgorithmNumber

theorem c02_SmPwSave : Spec.CodeEnum SmPwSave.fromBits SmPwSave.intoBits SmPwSave.Unknown
    Spec.codesSmPwSave := by
  code_enum SmPwSave

theorem c02_MAXAMpduLength : Spec.CodeEnum MAXAMpduLength.fromBits MAXAMpduLength.intoBits MAXAMpduLength.Unknown
    Spec.codesMAXAMpduLength := by
  code_enum MAXAMpduLength

theorem c02_MpduDensity : Spec.CodeEnum MpduDensity.fromBits MpduDensity.intoBits MpduDensity.Unknown
    Spec.codesMpduDensity := by
  code_enum MpduDensity

theorem c02_BeamformingCalibration : Spec.CodeEnum BeamformingCalibration.fromBits BeamformingCalibration.intoBits BeamformingCalibration.Unknown
    Spec.codesBeamformingCalibration := by
  code_enum BeamformingCalibration

theorem c02_BeamformingFeedback : Spec.CodeEnum BeamformingFeedback.fromBits BeamformingFeedback.intoBits BeamformingFeedback.Unknown
    Spec.codesBeamformingFeedback := by
  code_enum BeamformingFeedback

theorem c02_GroupingCapability : Spec.CodeEnum GroupingCapability.fromBits GroupingCapability.intoBits GroupingCapability.Unknown
    Spec.codesGroupingCapability := by
  code_enum GroupingCapability

theorem c02_SecondaryChannelOffset : Spec.CodeEnum SecondaryChannelOffset.fromBits SecondaryChannelOffset.intoBits SecondaryChannelOffset.Unknown
    Spec.codesSecondaryChannelOffset := by
  code_enum SecondaryChannelOffset

theorem c02_HTProtectionMode : Spec.CodeEnum HTProtectionMode.fromBits HTProtectionMode.intoBits HTProtectionMode.Unknown
    Spec.codesHTProtectionMode := by
  code_enum HTProtectionMode

theorem c02_VHTMCSSupport : Spec.CodeEnum VHTMCSSupport.fromBits VHTMCSSupport.intoBits VHTMCSSupport.Unknown
    Spec.codesVHTMCSSupport := by
  code_enum VHTMCSSupport

theorem c02_ChannelWidth : Spec.CodeEnum ChannelWidth.fromBits ChannelWidth.intoBits ChannelWidth.Unknown
    Spec.codesChannelWidth := by
  code_enum ChannelWidth

theorem c02_MeshConfigurationActivePathSelectionProtocolIdentifier : Spec.CodeEnum MeshConfigurationActivePathSelectionProtocolIdentifier.fromBits MeshConfigurationActivePathSelectionProtocolIdentifier.intoBits MeshConfigurationActivePathSelectionProtocolIdentifier.Unknown
    Spec.codesMeshConfigurationActivePathSelectionProtocolIdentifier := by
  code_enum MeshConfigurationActivePathSelectionProtocolIdentifier

theorem c02_MeshConfigurationActivePathSelectionMetricIdentifier : Spec.CodeEnum MeshConfigurationActivePathSelectionMetricIdentifier.fromBits MeshConfigurationActivePathSelectionMetricIdentifier.intoBits MeshConfigurationActivePathSelectionMetricIdentifier.Unknown
    Spec.codesMeshConfigurationActivePathSelectionMetricIdentifier := by
  code_enum MeshConfigurationActivePathSelectionMetricIdentifier

theorem c02_MeshConfigurationCongestionControlModeIdentifier : Spec.CodeEnum MeshConfigurationCongestionControlModeIdentifier.fromBits MeshConfigurationCongestionControlModeIdentifier.intoBits MeshConfigurationCongestionControlModeIdentifier.Unknown
    Spec.codesMeshConfigurationCongestionControlModeIdentifier := by
  code_enum MeshConfigurationCongestionControlModeIdentifier

theorem c02_MeshConfigurationSynchronizationMethodIdentifier : Spec.CodeEnum MeshConfigurationSynchronizationMethodIdentifier.fromBits MeshConfigurationSynchronizationMethodIdentifier.intoBits MeshConfigurationSynchronizationMethodIdentifier.Unknown
    Spec.codesMeshConfigurationSynchronizationMethodIdentifier := by
  code_enum MeshConfigurationSynchronizationMethodIdentifier

theorem c02_MeshConfigurationAuthenticationProtocolIdentifier : Spec.CodeEnum MeshConfigurationAuthenticationProtocolIdentifier.fromBits MeshConfigurationAuthenticationProtocolIdentifier.intoBits MeshConfigurationAuthenticationProtocolIdentifier.Unknown
    Spec.codesMeshConfigurationAuthenticationProtocolIdentifier := by
  code_enum MeshConfigurationAuthenticationProtocolIdentifier

theorem c02_MeshPeeringProtocolIdentifier : Spec.CodeEnum MeshPeeringProtocolIdentifier.fromBits MeshPeeringProtocolIdentifier.intoBits MeshPeeringProtocolIdentifier.Unknown
    Spec.codesMeshPeeringProtocolIdentifier := by
  code_enum MeshPeeringProtocolIdentifier

theorem c02_CategoryCode : Spec.CodeEnum CategoryCode.fromBits CategoryCode.intoBits CategoryCode.Unknown
    Spec.codesCategoryCode := by
  code_enum CategoryCode

theorem c02_SelfProtectedActionCode : Spec.CodeEnum SelfProtectedActionCode.fromBits SelfProtectedActionCode.intoBits SelfProtectedActionCode.Unknown
    Spec.codesSelfProtectedActionCode := by
  code_enum SelfProtectedActionCode

theorem c02_KeyDescriptorVersion : Spec.CodeEnum KeyDescriptorVersion.fromBits KeyDescriptorVersion.intoBits KeyDescriptorVersion.Unknown
    Spec.codesKeyDescriptorVersion := by
  code_enum KeyDescriptorVersion

/-- A concrete case: status code 200 is not named and survives, code 17 is named. -/
example : IEEE80211StatusCode.fromBits 200 = .Unknown 200 ∧
    IEEE80211StatusCode.fromBits 17 = .DeniedNoMoreStas := by decide +kernel

end Verif
