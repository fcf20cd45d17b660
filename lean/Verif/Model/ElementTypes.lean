import Verif.Basic
/-!
# Enumerations and packed fields of the elements, action bodies and EAPOL frames
-/
namespace Verif

/-- `SmPwSave`, /repo/src/elements/ht/capabilities.rs:12-23. -/
rust_enum SmPwSave : 8 where
  | Static => 0
  | Dynamic => 1
  | Reserved => 2
  | Disabled => 3

/-- `MAXAMpduLength`, /repo/src/elements/ht/capabilities.rs:68-83. -/
rust_enum MAXAMpduLength : 8 where
  | Small => 0
  | Medium => 1
  | Large => 2
  | VeryLarge => 3

/-- `MpduDensity`, /repo/src/elements/ht/capabilities.rs:85-100. -/
rust_enum MpduDensity : 8 where
  | NoRestriction => 0
  | Quarter => 1
  | Half => 2
  | One => 3
  | Two => 4
  | Four => 5
  | Eight => 6
  | Sixteen => 7

/-- `BeamformingCalibration`, /repo/src/elements/ht/capabilities.rs:132-143. -/
rust_enum BeamformingCalibration : 8 where
  | NotSupported => 0
  | CanRespondButCantInitiate => 1
  | Reserved => 2
  | CanRespondAndInitiate => 3

/-- `BeamformingFeedback`, /repo/src/elements/ht/capabilities.rs:144-155. -/
rust_enum BeamformingFeedback : 8 where
  | NotSupported => 0
  | DelayedFeedback => 1
  | ImmediateFeedback => 2
  | DelayedAndImmediateFeedback => 3

/-- `GroupingCapability`, /repo/src/elements/ht/capabilities.rs:156-167. -/
rust_enum GroupingCapability : 8 where
  | NoGrouping => 0
  | GroupsOfTwo => 1
  | GroupsOfFour => 2
  | GroupsOfTwoAndFour => 3

/-- `HTCapabilitiesInfo`, /repo/src/elements/ht/capabilities.rs:24-66. -/
bitfield HTCapabilitiesInfo : 16 where
  | ldpc_coding_capability : 1
  | supported_channel_width_set : 1
  | sm_power_save : 2
  | green_field : 1
  | short_gi_20mhz : 1
  | short_gi_40mhz : 1
  | tx_stbc : 1
  | rx_stbc : 2
  | pad1 : 1
  | is_max_amsdu_large : 1
  | dsss_40mhz : 1
  | pad2 : 1
  | forty_mhz_intolerant : 1
  | pad3 : 1

/-- `AMpduParameters`, /repo/src/elements/ht/capabilities.rs:101-115. -/
bitfield AMpduParameters : 8 where
  | max_a_mpdu_length : 2
  | mpdu_density : 3
  | pad1 : 3

/-- `HTExtendedCapabilities`, /repo/src/elements/ht/capabilities.rs:116-131. -/
bitfield HTExtendedCapabilities : 16 where
  | pad1 : 8
  | mcs_feedback : 2
  | plus_htc_support : 1
  | rd_responder : 1
  | pad2 : 4

/-- `TransmitBeamformingCapabilities`, /repo/src/elements/ht/capabilities.rs:168-231. -/
bitfield TransmitBeamformingCapabilities : 32 where
  | implicit_transmit_beamforming_receiving_capable : 1
  | receive_staggered_sounding_capable : 1
  | transmit_staggered_sounding_capable : 1
  | receive_ndp_capable : 1
  | transmit_ndp_capable : 1
  | implicit_transmit_beamforming_capable : 1
  | calibration : 2
  | explicit_csi_transmit_beamforming_capable : 1
  | explicit_noncompressed_steering_capable : 1
  | explicit_compressed_steering_capable : 1
  | explicit_transmit_beamforming_csi_feedback : 2
  | explicit_noncompressed_beamforming_feedback_capable : 2
  | explicit_compressed_beamforming_feedback_capable : 2
  | minimal_grouping : 2
  | csi_number_of_beamformer_antennas_supported : 2
  | noncompresssed_steering_number_of_beamformer_antennas_supported : 2
  | compresssed_steering_number_of_beamformer_antennas_supported : 2
  | csi_max_number_of_rows_beamformer_supported : 2
  | channel_estimation_capability : 2
  | pad1 : 3

/-- `ASELCapability`, /repo/src/elements/ht/capabilities.rs:232-251. -/
bitfield ASELCapability : 8 where
  | antenna_selection_capable : 1
  | explicit_csi_feedback_based_transmit_asel_capable : 1
  | antenna_indices_feedback_based_transmit_asel_capable : 1
  | explicit_csi_feedback_capable : 1
  | antenna_indices_feedback_capable : 1
  | receive_asel_capable : 1
  | transmit_sounding_ppdus_capable : 1
  | reserved : 1

/-- `SupportedMCSSetFlags`, /repo/src/elements/ht/mcs_set.rs:17-32. -/
bitfield SupportedMCSSetFlags : 32 where
  | rx_highest_supported_data_rate : 10
  | pad1 : 6
  | tx_mcs_set_defined : 1
  | tx_rx_mcs_set_not_equal : 1
  | tx_maximum_number_spatial_streams_supported : 2
  | tx_unequal_modulation_supported : 1
  | pad2 : 11

/-- `SecondaryChannelOffset`, /repo/src/elements/ht/operation.rs:12-34. -/
rust_enum SecondaryChannelOffset : 8 where
  | NotPresent => 0x00
  | Above => 0x01
  | Reserved => 0x02
  | Below => 0x03

/-- `HTProtectionMode`, /repo/src/elements/ht/operation.rs:36-50. -/
rust_enum HTProtectionMode : 8 where
  | None => 0x00
  | NonMember => 0x01
  | TwentyMHz => 0x02
  | NonHTMixed => 0x03

/-- `HTOperationInformation`, /repo/src/elements/ht/operation.rs:52-87. -/
bitfield HTOperationInformation : 64 where
  | secondary_channel_offset : 2
  | any_channel_width : 1
  | rifs_permitted : 1
  | pad1 : 4
  | ht_protection_mode : 2
  | nongreenfield_ht_sta_present : 1
  | pad2 : 1
  | obss_non_ht_sta_present : 1
  | channel_center_frequency_segment_2 : 8
  | pad3 : 9
  | dual_beacon : 1
  | dual_cts_protection : 1
  | stbc_beacon : 1
  | pad4 : 31

/-- `VHTMCSSupport`, /repo/src/elements/vht.rs:71-81. -/
rust_enum VHTMCSSupport : 8 where
  | ZeroToSeven => 0
  | ZeroToEight => 1
  | ZeroToNine => 2
  | NotSupported => 3

/-- `ChannelWidth`, /repo/src/elements/vht.rs:190-198. -/
rust_enum ChannelWidth : 8 where
  | TwentyOrFourtyMHz => 0
  | EightyOneSixtyOrEightyPlusEightyMhz => 1
  | OneSixtyMHz => 2
  | NonContiguousEightyPlusEightyMHz => 3

/-- `VHTCapabilitiesInfo`, /repo/src/elements/vht.rs:14-46. -/
bitfield VHTCapabilitiesInfo : 32 where
  | maximum_mpdu_length : 2
  | supported_channel_width_set : 2
  | rx_ldpc : 1
  | short_gi_80mhz : 1
  | short_gi_160mhz : 1
  | tx_stbc : 1
  | rx_stbc : 3
  | su_beamformer_capable : 1
  | su_beamformee_capable : 1
  | beamformee_sts_capability : 3
  | number_of_sounding_dimensions : 3
  | mu_beamformer_capable : 1
  | mu_beamformee_capable : 1
  | txop_ps : 1
  | htc_vht_capable : 1
  | maximum_ampdu_length_exponent : 3
  | vht_link_adaptation_capable : 2
  | rx_antenna_pattern_consistency : 1
  | tx_antenna_pattern_consistency : 1
  | extended_nss_bw_support : 2

/-- `SupportedVHTMCSAndNSSSet`, /repo/src/elements/vht.rs:123-139. -/
bitfield SupportedVHTMCSAndNSSSet : 64 where
  | rx_vht_mcs_map : 16
  | rx_highest_supported_long_gi_data_rate : 13
  | maximum_nsts_total : 3
  | tx_vht_mcs_map : 16
  | tx_highest_supported_long_gi_data_rate : 13
  | vht_extended_nss_bw_capable : 1
  | pad1 : 2

/-- `MeshConfigurationActivePathSelectionProtocolIdentifier`, /repo/src/elements/mesh/mesh_configuration.rs:12-20. -/
rust_enum MeshConfigurationActivePathSelectionProtocolIdentifier : 8 where
  | HWMP => 1
  | VendorSpecific => 255

/-- `MeshConfigurationActivePathSelectionMetricIdentifier`, /repo/src/elements/mesh/mesh_configuration.rs:22-31. -/
rust_enum MeshConfigurationActivePathSelectionMetricIdentifier : 8 where
  | AirtimeLinkMetric => 1
  | HighPHYRateAirtimeLinkMetric => 2
  | VendorSpecific => 255

/-- `MeshConfigurationCongestionControlModeIdentifier`, /repo/src/elements/mesh/mesh_configuration.rs:33-42. -/
rust_enum MeshConfigurationCongestionControlModeIdentifier : 8 where
  | NotActivated => 0
  | SignalingProtocol => 1
  | VendorSpecific => 255

/-- `MeshConfigurationSynchronizationMethodIdentifier`, /repo/src/elements/mesh/mesh_configuration.rs:44-52. -/
rust_enum MeshConfigurationSynchronizationMethodIdentifier : 8 where
  | NeighborOffsetSynchronization => 1
  | VendorSpecific => 255

/-- `MeshConfigurationAuthenticationProtocolIdentifier`, /repo/src/elements/mesh/mesh_configuration.rs:54-64. -/
rust_enum MeshConfigurationAuthenticationProtocolIdentifier : 8 where
  | NoAuthentication => 0
  | SAE => 1
  | IEEE80211XAuthentication => 2
  | VendorSpecific => 255

/-- `MeshFormationInfo`, /repo/src/elements/mesh/mesh_configuration.rs:66-73. -/
bitfield MeshFormationInfo : 8 where
  | connected_to_mesh_gate : 1
  | num_peerings : 6
  | connected_to_as : 1

/-- `MeshCapability`, /repo/src/elements/mesh/mesh_configuration.rs:75-86. -/
bitfield MeshCapability : 8 where
  | accept_additional_mesh_peerings : 1
  | mcca_supported : 1
  | mcca_enabled : 1
  | forwarding : 1
  | mbca_enabled : 1
  | tbtt_adjusting : 1
  | mesh_power_save_level : 1
  | pad1 : 1

/-- `MeshPeeringProtocolIdentifier`, /repo/src/elements/mesh/mesh_peering_management.rs:13-21. -/
rust_enum MeshPeeringProtocolIdentifier : 16 where
  | MeshPeeringManagementProtocol => 0
  | AuthenticatedMeshPeeringExchangeProtocol => 1
  | VendorSpecific => 255

/-- `EncodedRate`, /repo/src/elements/rates/mod.rs:14-26. -/
bitfield EncodedRate : 8 where
  | rate : 7
  | is_b : 1

/-- `TIMBitmapControl`, /repo/src/elements/tim.rs:61-72. -/
bitfield TIMBitmapControl : 8 where
  | traffic_indicator : 1
  | bitmap_offset : 7

/-- `RsnCapabilities`, /repo/src/elements/rsn.rs:338-365. -/
bitfield RsnCapabilities : 16 where
  | supports_preauthentication : 1
  | no_pairwise_key : 1
  | ptksa_replay_counter : 2
  | gtksa_replay_counter : 2
  | mfp_config : 2
  | joint_multi_band_rsna_capable : 1
  | peer_key_enabled_handshake_capable : 1
  | spp_ampdu_config : 2
  | pbac_capable : 1
  | ext_key_id_for_individually_addressed_frames : 1
  | ocv_capable : 1
  | pad1 : 1

/-- `GtkInfo`, /repo/src/elements/kde.rs:64-71. -/
bitfield GtkInfo : 16 where
  | key_id : 2
  | tx : 1
  | pad1 : 13

/-- `CategoryCode`, /repo/src/frames/mgmt_frame/body/action/mod.rs:29-41. -/
rust_enum CategoryCode : 8 where
  | Mesh => 13
  | Multihop => 14
  | SelfProtected => 15
  | VendorSpecific => 127

/-- `SelfProtectedActionCode`, /repo/src/frames/mgmt_frame/body/action/self_protected.rs:16-26. -/
rust_enum SelfProtectedActionCode : 8 where
  | MeshPeeringOpen => 1
  | MeshPeeringConfirm => 2
  | MeshPeeringClose => 3
  | MeshGroupKeyInform => 4
  | MeshGroupKeyAcknowledge => 5

/-- `KeyDescriptorVersion`, /repo/src/crypto/eapol.rs:18-30. -/
rust_enum KeyDescriptorVersion : 8 where
  | Rc4HmacMd5 => 1
  | AesHmacSha1 => 2
  | AesCmac => 3

/-- `KeyInformation`, /repo/src/crypto/eapol.rs:32-64. -/
bitfield KeyInformation : 16 where
  | key_descriptor_version : 3
  | is_pairwise : 1
  | pad1 : 2
  | install : 1
  | key_ack : 1
  | key_mic : 1
  | secure : 1
  | error : 1
  | request : 1
  | encrypted_key_data : 1
  | pad2 : 3

end Verif
