import Verif.Model.Elements.Core
import Verif.Model.ElementTypes
/-!
# Elements of simple layout

`/repo/src/elements/{dsss_parameter_set,ibss_parameter_set,bss_load,ssid,vht}.rs` and
`/repo/src/elements/mesh/mesh_configuration.rs`.
-/
namespace Verif

variable [ScrollRule]

/-! ## DSSS parameter set -/

/-- `DSSSParameterSetElement`, /repo/src/elements/dsss_parameter_set.rs:11-13. -/
structure DSSSParameterSetElement where
  current_channel : Byte
  deriving DecidableEq, Repr

/-- `TryFromCtx`, /repo/src/elements/dsss_parameter_set.rs:24-34. -/
def readDSSS : Reader DSSSParameterSetElement := fun inp => do
  let current_channel ← pread readU8 0 inp
  pure ({ current_channel }, 1)

/-- `TryIntoCtx`, /repo/src/elements/dsss_parameter_set.rs:35-40. -/
def writeDSSS (e : DSSSParameterSetElement) : Writer := pwrite (writeU8 e.current_channel) 0

/-- `MeasureWith`, /repo/src/elements/dsss_parameter_set.rs:14-23. -/
def measureDSSS (_ : DSSSParameterSetElement) : Nat := 1

/-- `SizeWith`, /repo/src/elements/dsss_parameter_set.rs:14-18. -/
def sizeDSSS : Nat := 1

/-! ## IBSS parameter set -/

/-- `IBSSParameterSetElement`, /repo/src/elements/ibss_parameter_set.rs:15-19. -/
structure IBSSParameterSetElement where
  atim_window : BitVec 16
  deriving DecidableEq, Repr

/-- `TU` in microseconds, /repo/src/common/mod.rs:30. -/
def tuMicros : Nat := 1024

/-- `IBSSParameterSetElement::atim_window_in_tu`, /repo/src/elements/ibss_parameter_set.rs:22-24, as
microseconds. -/
def IBSSParameterSetElement.atimWindowMicros (e : IBSSParameterSetElement) : Nat :=
  tuMicros * e.atim_window.toNat

/-- `IBSSParameterSetElement::new`, /repo/src/elements/ibss_parameter_set.rs:26-30, from a duration in
microseconds; `as u16` truncates. -/
def IBSSParameterSetElement.new (micros : Nat) : IBSSParameterSetElement :=
  ⟨BitVec.ofNat 16 (micros / tuMicros)⟩

/-- `TryFromCtx`, /repo/src/elements/ibss_parameter_set.rs:37-47. -/
def readIBSS : Reader IBSSParameterSetElement := fun inp => do
  let atim_window ← pread (readLE 16) 0 inp
  pure ({ atim_window }, 2)

/-- `TryIntoCtx`, /repo/src/elements/ibss_parameter_set.rs:48-53. -/
def writeIBSS (e : IBSSParameterSetElement) : Writer := pwrite (writeLE e.atim_window) 0

/-- `MeasureWith`, /repo/src/elements/ibss_parameter_set.rs:32-36. -/
def measureIBSS (_ : IBSSParameterSetElement) : Nat := 2

/-! ## BSS load -/

/-- `BSSLoadElement`, /repo/src/elements/bss_load.rs:11-20. -/
structure BSSLoadElement where
  station_count : BitVec 16
  channel_utilization : Byte
  available_admission_capacity : BitVec 16
  deriving DecidableEq, Repr

/-- `TryFromCtx`, /repo/src/elements/bss_load.rs:26-44. -/
def readBSSLoad : Reader BSSLoadElement := Rd.run do
  let station_count ← Rd.gread (readLE 16)
  let channel_utilization ← Rd.gread readU8
  let available_admission_capacity ← Rd.gread (readLE 16)
  pure { station_count, channel_utilization, available_admission_capacity }

/-- `TryIntoCtx`, /repo/src/elements/bss_load.rs:45-60. -/
def writeBSSLoad (e : BSSLoadElement) : Writer := Wr.run do
  Wr.gwrite (writeLE e.station_count)
  Wr.gwrite (writeU8 e.channel_utilization)
  Wr.gwrite (writeLE e.available_admission_capacity)

/-- `MeasureWith`, /repo/src/elements/bss_load.rs:21-25. -/
def measureBSSLoad (_ : BSSLoadElement) : Nat := 5

/-! ## SSID and mesh ID -/

/-- `SSIDLikeElement`, /repo/src/elements/ssid.rs:20-25.  The marker type only selects the element ID. -/
structure SSIDLikeElement where
  ssid : Str
  deriving DecidableEq

/-- `SSIDLikeElement::new`, /repo/src/elements/ssid.rs:45-54 (and `const_new`, :30-39). -/
def SSIDLikeElement.new (ssid : Str) : Option SSIDLikeElement :=
  if ssid.len ≤ 32 then some ⟨ssid⟩ else none

/-- `SSIDLikeElement::is_hidden`, /repo/src/elements/ssid.rs:82-84. -/
def SSIDLikeElement.isHidden (e : SSIDLikeElement) : Bool := e.ssid.bytes.isEmpty

/-- `SSIDLikeElement::length_in_bytes` and `MeasureWith`, /repo/src/elements/ssid.rs:88-90,130-136. -/
def measureSSID (e : SSIDLikeElement) : Nat := e.ssid.len

/-- `TryFromCtx for SSIDLikeElement`, /repo/src/elements/ssid.rs:116-129. -/
def readSSID : Reader SSIDLikeElement := fun inp => do
  if 32 < inp.length then .err .tooBig
  else do
    let (ssid, len) ← readStr inp.length inp
    pure (⟨ssid⟩, len)

/-- `TryIntoCtx for SSIDLikeElement`, /repo/src/elements/ssid.rs:137-143. -/
def writeSSID (e : SSIDLikeElement) : Writer := pwrite (writeBytes e.ssid.bytes) 0

/-! ## VHT -/

/-- `VHTCapabilitiesInfo::maximum_mpdu_length_in_bytes`, /repo/src/elements/vht.rs:48-55. -/
def VHTCapabilitiesInfo.maximumMpduLengthInBytes (i : VHTCapabilitiesInfo) : Option (BitVec 16) :=
  match i.maximum_mpdu_length.toNat with
  | 0 => some 3895
  | 1 => some 7991
  | 2 => some 11454
  | _ => none

/-- `VHTCapabilitiesInfo::with_maximum_mpdu_length_in_bytes` and the setter, which assigns its
result, /repo/src/elements/vht.rs:56-69. -/
def VHTCapabilitiesInfo.withMaximumMpduLengthInBytes (i : VHTCapabilitiesInfo) (len : BitVec 16) :
    VHTCapabilitiesInfo :=
  i.with_maximum_mpdu_length
    (if len = 3895 then 0 else if len = 7991 then 1 else if len = 11454 then 2 else 3)

/-- `VHTMCSMap`, /repo/src/elements/vht.rs:82-91. -/
structure VHTMCSMap where
  bits : BitVec 16
  deriving DecidableEq, Repr

/-- `VHTMCSMap::vht_mcs_support_for_nss`, /repo/src/elements/vht.rs:93-101. -/
def VHTMCSMap.supportForNss (m : VHTMCSMap) (nss : Nat) : Option VHTMCSSupport :=
  if 1 ≤ nss ∧ nss < 9 then
    some (.fromBits (((m.bits >>> ((nss - 1) * 2)) &&& 0b11).truncate 8))
  else none

/-- `VHTMCSMap::vht_mcs_support_iter`, /repo/src/elements/vht.rs:103-105. -/
def VHTMCSMap.supportIter (m : VHTMCSMap) : List VHTMCSSupport :=
  [1, 2, 3, 4, 5, 6, 7, 8].filterMap m.supportForNss

/-- The fold of `VHTMCSMap::from_vht_mcs_iter`, /repo/src/elements/vht.rs:108-115, from index `i`.  The
shift is done on `u8`: by eight or more it panics, by less it drops the bits shifted out. -/
def VHTMCSMap.foldSupport : Nat → BitVec 16 → List VHTMCSSupport → Res (BitVec 16)
  | _, acc, [] => .ok acc
  | i, acc, s :: l =>
    if i * 2 < 8 then foldSupport (i + 1) (acc ||| (s.intoBits <<< (i * 2)).zeroExtend 16) l
    else .panic

/-- `VHTMCSMap::from_vht_mcs_iter`, /repo/src/elements/vht.rs:107-116. -/
def VHTMCSMap.fromIter (l : List VHTMCSSupport) : Res VHTMCSMap := do
  let bits ← foldSupport 0 0 (l.take 8)
  pure ⟨bits⟩

/-- `SupportedVHTMCSAndNSSSet::rx_vht_mcs_map`, /repo/src/elements/vht.rs:126-127. -/
def SupportedVHTMCSAndNSSSet.rxMap (s : SupportedVHTMCSAndNSSSet) : VHTMCSMap := ⟨s.rx_vht_mcs_map⟩

/-- `SupportedVHTMCSAndNSSSet::tx_vht_mcs_map`, /repo/src/elements/vht.rs:132-133. -/
def SupportedVHTMCSAndNSSSet.txMap (s : SupportedVHTMCSAndNSSSet) : VHTMCSMap := ⟨s.tx_vht_mcs_map⟩

/-- `VHTCapabilitiesElement`, /repo/src/elements/vht.rs:141-146. -/
structure VHTCapabilitiesElement where
  vht_capabilities_info : VHTCapabilitiesInfo
  supported_vht_mcs_and_nss_set : SupportedVHTMCSAndNSSSet
  deriving DecidableEq, Repr

/-- `TryFromCtx`, /repo/src/elements/vht.rs:147-163. -/
def readVHTCapabilities : Reader VHTCapabilitiesElement := Rd.run do
  let info ← Rd.gread (readLE 32)
  let set ← Rd.gread (readLE 64)
  pure { vht_capabilities_info := ⟨info⟩, supported_vht_mcs_and_nss_set := ⟨set⟩ }

/-- `TryIntoCtx`, /repo/src/elements/vht.rs:169-185. -/
def writeVHTCapabilities (e : VHTCapabilitiesElement) : Writer := Wr.run do
  Wr.gwrite (writeLE e.vht_capabilities_info.bits)
  Wr.gwrite (writeLE e.supported_vht_mcs_and_nss_set.bits)

/-- `MeasureWith`, /repo/src/elements/vht.rs:164-168. -/
def measureVHTCapabilities (_ : VHTCapabilitiesElement) : Nat := 12

/-- `VHTOperationElement`, /repo/src/elements/vht.rs:199-206. -/
structure VHTOperationElement where
  channel_bandwidth : ChannelWidth
  channel_center_frequency_segment_0 : Byte
  channel_center_frequency_segment_1 : Byte
  basic_vht_mcs_and_nss_set : VHTMCSMap
  deriving DecidableEq, Repr

/-- `TryFromCtx`, /repo/src/elements/vht.rs:207-228. -/
def readVHTOperation : Reader VHTOperationElement := Rd.run do
  let channel_bandwidth ← Rd.gread readU8
  let channel_center_frequency_segment_0 ← Rd.gread readU8
  let channel_center_frequency_segment_1 ← Rd.gread readU8
  let map ← Rd.gread (readLE 16)
  pure {
    channel_bandwidth := .fromBits channel_bandwidth
    channel_center_frequency_segment_0 := channel_center_frequency_segment_0
    channel_center_frequency_segment_1 := channel_center_frequency_segment_1
    basic_vht_mcs_and_nss_set := ⟨map⟩ }

/-- `TryIntoCtx`, /repo/src/elements/vht.rs:234-250. -/
def writeVHTOperation (e : VHTOperationElement) : Writer := Wr.run do
  Wr.gwrite (writeU8 e.channel_bandwidth.intoBits)
  Wr.gwrite (writeU8 e.channel_center_frequency_segment_0)
  Wr.gwrite (writeU8 e.channel_center_frequency_segment_1)
  Wr.gwrite (writeLE e.basic_vht_mcs_and_nss_set.bits)

/-- `MeasureWith`, /repo/src/elements/vht.rs:229-233. -/
def measureVHTOperation (_ : VHTOperationElement) : Nat := 5

/-! ## Mesh configuration -/

/-- `MeshConfigurationElement`, /repo/src/elements/mesh/mesh_configuration.rs:88-101. -/
structure MeshConfigurationElement where
  active_path_selection_protocol_identifier : MeshConfigurationActivePathSelectionProtocolIdentifier
  active_path_selection_metric_identifier : MeshConfigurationActivePathSelectionMetricIdentifier
  congestion_control_mode_identifier : MeshConfigurationCongestionControlModeIdentifier
  syncronization_method_identifier : MeshConfigurationSynchronizationMethodIdentifier
  authentication_protocol_identifier : MeshConfigurationAuthenticationProtocolIdentifier
  mesh_formation_info : MeshFormationInfo
  mesh_capability : MeshCapability
  deriving DecidableEq, Repr

/-- `TryFromCtx`, /repo/src/elements/mesh/mesh_configuration.rs:109-143. -/
def readMeshConfiguration : Reader MeshConfigurationElement := Rd.run do
  let a ← Rd.gread readU8
  let b ← Rd.gread readU8
  let c ← Rd.gread readU8
  let d ← Rd.gread readU8
  let e ← Rd.gread readU8
  let f ← Rd.gread readU8
  let g ← Rd.gread readU8
  pure {
    active_path_selection_protocol_identifier := .fromBits a
    active_path_selection_metric_identifier := .fromBits b
    congestion_control_mode_identifier := .fromBits c
    syncronization_method_identifier := .fromBits d
    authentication_protocol_identifier := .fromBits e
    mesh_formation_info := ⟨f⟩
    mesh_capability := ⟨g⟩ }

/-- `TryIntoCtx`, /repo/src/elements/mesh/mesh_configuration.rs:146-176. -/
def writeMeshConfiguration (e : MeshConfigurationElement) : Writer := Wr.run do
  Wr.gwrite (writeU8 e.active_path_selection_protocol_identifier.intoBits)
  Wr.gwrite (writeU8 e.active_path_selection_metric_identifier.intoBits)
  Wr.gwrite (writeU8 e.congestion_control_mode_identifier.intoBits)
  Wr.gwrite (writeU8 e.syncronization_method_identifier.intoBits)
  Wr.gwrite (writeU8 e.authentication_protocol_identifier.intoBits)
  Wr.gwrite (writeU8 e.mesh_formation_info.bits)
  Wr.gwrite (writeU8 e.mesh_capability.bits)

/-- `MeasureWith`, /repo/src/elements/mesh/mesh_configuration.rs:103-107. -/
def measureMeshConfiguration (_ : MeshConfigurationElement) : Nat := 7

end Verif
