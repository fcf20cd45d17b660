import Verif.Spec.Basic
import Verif.Model.CommonTypes
import Verif.Model.ElementTypes
/-!
# C03: bit-field accessors read and write only their own bits

One theorem per packed struct: each accessor pair addresses exactly the bits that
the standard assigns to the field (positions counted from the least significant
bit).  The general consequences (a field reads back what was set, other fields
are unchanged) are `c03_get_set` and `c03_get_set_other` below.
-/
namespace Verif

open Spec

/-- Any field reads back what was set and leaves disjoint fields alone. -/
theorem c03_get_set {S : Type} {w len len' : Nat} {bits : S → BitVec w} {get : S → BitVec len}
    {set : S → BitVec len → S} {off : Nat} {get' : S → BitVec len'} {set' : S → BitVec len' → S}
    {off' : Nat} (h : FieldAt bits get set off) (h' : FieldAt bits get' set' off')
    (hd : off + len ≤ off' ∨ off' + len' ≤ off) (s : S) (v : BitVec len) :
    get (set s v) = v ∧ get' (set s v) = get' s :=
  ⟨h.get_set s v, h.get_set_other h' hd s v⟩

/-- The same for flags. -/
theorem c03_get_set_flag {S : Type} {w : Nat} {bits : S → BitVec w} {get get' : S → Bool}
    {set set' : S → Bool → S} {off off' : Nat} (h : BitAt bits get set off)
    (h' : BitAt bits get' set' off') (hd : off ≠ off') (s : S) (v : Bool) :
    get (set s v) = v ∧ get' (set s v) = get' s :=
  ⟨h.get_set s v, h.get_set_other h' hd s v⟩

/-- Flags and fields do not disturb each other. -/
theorem c03_flag_field {S : Type} {w len : Nat} {bits : S → BitVec w} {get : S → Bool}
    {set : S → Bool → S} {off : Nat} {get' : S → BitVec len} {set' : S → BitVec len → S}
    {off' : Nat} (h : BitAt bits get set off) (h' : FieldAt bits get' set' off')
    (hd : off < off' ∨ off' + len ≤ off) (s : S) (b : Bool) (v : BitVec len) :
    get' (set s b) = get' s ∧ get (set' s v) = get s :=
  ⟨h.get_set_field h' hd s b, h'.get_set_bit h hd s v⟩

theorem c03_FCFFlags :
    BitAt FCFFlags.bits FCFFlags.to_ds FCFFlags.with_to_ds 0 ∧
    BitAt FCFFlags.bits FCFFlags.from_ds FCFFlags.with_from_ds 1 ∧
    BitAt FCFFlags.bits FCFFlags.more_fragments FCFFlags.with_more_fragments 2 ∧
    BitAt FCFFlags.bits FCFFlags.retry FCFFlags.with_retry 3 ∧
    BitAt FCFFlags.bits FCFFlags.pwr_mgmt FCFFlags.with_pwr_mgmt 4 ∧
    BitAt FCFFlags.bits FCFFlags.more_data FCFFlags.with_more_data 5 ∧
    BitAt FCFFlags.bits FCFFlags.protected_ FCFFlags.with_protected_ 6 ∧
    BitAt FCFFlags.bits FCFFlags.order FCFFlags.with_order 7 := by
  bitfield_layout

theorem c03_FrameControlField :
    FieldAt FrameControlField.bits FrameControlField.version FrameControlField.with_version 0 ∧
    FieldAt FrameControlField.bits FrameControlField.frame_type FrameControlField.with_frame_type 2 ∧
    FieldAt FrameControlField.bits FrameControlField.flags FrameControlField.with_flags 8 := by
  bitfield_layout

theorem c03_SequenceControl :
    FieldAt SequenceControl.bits SequenceControl.fragment_number SequenceControl.with_fragment_number 0 ∧
    FieldAt SequenceControl.bits SequenceControl.sequence_number SequenceControl.with_sequence_number 4 := by
  bitfield_layout

theorem c03_CapabilitiesInformation :
    BitAt CapabilitiesInformation.bits CapabilitiesInformation.is_ess CapabilitiesInformation.with_is_ess 0 ∧
    BitAt CapabilitiesInformation.bits CapabilitiesInformation.is_ibss CapabilitiesInformation.with_is_ibss 1 ∧
    BitAt CapabilitiesInformation.bits CapabilitiesInformation.is_confidentiality_required CapabilitiesInformation.with_is_confidentiality_required 4 ∧
    BitAt CapabilitiesInformation.bits CapabilitiesInformation.is_short_preamble_allowed CapabilitiesInformation.with_is_short_preamble_allowed 5 ∧
    BitAt CapabilitiesInformation.bits CapabilitiesInformation.is_spectrum_management_implemented CapabilitiesInformation.with_is_spectrum_management_implemented 8 ∧
    BitAt CapabilitiesInformation.bits CapabilitiesInformation.is_qos_implemented CapabilitiesInformation.with_is_qos_implemented 9 ∧
    BitAt CapabilitiesInformation.bits CapabilitiesInformation.is_short_time_slot_in_use CapabilitiesInformation.with_is_short_time_slot_in_use 10 ∧
    BitAt CapabilitiesInformation.bits CapabilitiesInformation.is_auto_power_save_implemented CapabilitiesInformation.with_is_auto_power_save_implemented 11 ∧
    BitAt CapabilitiesInformation.bits CapabilitiesInformation.is_radio_measurement_implemented CapabilitiesInformation.with_is_radio_measurement_implemented 12 ∧
    BitAt CapabilitiesInformation.bits CapabilitiesInformation.is_epd_implemented CapabilitiesInformation.with_is_epd_implemented 13 := by
  bitfield_layout

theorem c03_HtSig :
    FieldAt HtSig.bits HtSig.mcs HtSig.with_mcs 0 ∧
    BitAt HtSig.bits HtSig.is_40mhz HtSig.with_is_40mhz 7 ∧
    FieldAt HtSig.bits HtSig.ht_length HtSig.with_ht_length 8 ∧
    BitAt HtSig.bits HtSig.smoothing_recommended HtSig.with_smoothing_recommended 24 ∧
    BitAt HtSig.bits HtSig.not_sounding HtSig.with_not_sounding 25 ∧
    BitAt HtSig.bits HtSig.reserved HtSig.with_reserved 26 ∧
    BitAt HtSig.bits HtSig.is_ampdu HtSig.with_is_ampdu 27 ∧
    FieldAt HtSig.bits HtSig.spatial_stream_count HtSig.with_spatial_stream_count 28 ∧
    BitAt HtSig.bits HtSig.is_ldpc HtSig.with_is_ldpc 30 ∧
    BitAt HtSig.bits HtSig.short_gi HtSig.with_short_gi 31 := by
  bitfield_layout

theorem c03_AssociationID :
    FieldAt AssociationID.bits AssociationID.internal_aid AssociationID.with_internal_aid 0 := by
  bitfield_layout

theorem c03_HTCapabilitiesInfo :
    BitAt HTCapabilitiesInfo.bits HTCapabilitiesInfo.ldpc_coding_capability HTCapabilitiesInfo.with_ldpc_coding_capability 0 ∧
    BitAt HTCapabilitiesInfo.bits HTCapabilitiesInfo.supported_channel_width_set HTCapabilitiesInfo.with_supported_channel_width_set 1 ∧
    FieldAt HTCapabilitiesInfo.bits HTCapabilitiesInfo.sm_power_save HTCapabilitiesInfo.with_sm_power_save 2 ∧
    BitAt HTCapabilitiesInfo.bits HTCapabilitiesInfo.green_field HTCapabilitiesInfo.with_green_field 4 ∧
    BitAt HTCapabilitiesInfo.bits HTCapabilitiesInfo.short_gi_20mhz HTCapabilitiesInfo.with_short_gi_20mhz 5 ∧
    BitAt HTCapabilitiesInfo.bits HTCapabilitiesInfo.short_gi_40mhz HTCapabilitiesInfo.with_short_gi_40mhz 6 ∧
    BitAt HTCapabilitiesInfo.bits HTCapabilitiesInfo.tx_stbc HTCapabilitiesInfo.with_tx_stbc 7 ∧
    FieldAt HTCapabilitiesInfo.bits HTCapabilitiesInfo.rx_stbc HTCapabilitiesInfo.with_rx_stbc 8 ∧
    BitAt HTCapabilitiesInfo.bits HTCapabilitiesInfo.is_max_amsdu_large HTCapabilitiesInfo.with_is_max_amsdu_large 11 ∧
    BitAt HTCapabilitiesInfo.bits HTCapabilitiesInfo.dsss_40mhz HTCapabilitiesInfo.with_dsss_40mhz 12 ∧
    BitAt HTCapabilitiesInfo.bits HTCapabilitiesInfo.forty_mhz_intolerant HTCapabilitiesInfo.with_forty_mhz_intolerant 14 := by
  bitfield_layout

theorem c03_AMpduParameters :
    FieldAt AMpduParameters.bits AMpduParameters.max_a_mpdu_length AMpduParameters.with_max_a_mpdu_length 0 ∧
    FieldAt AMpduParameters.bits AMpduParameters.mpdu_density AMpduParameters.with_mpdu_density 2 := by
  bitfield_layout

theorem c03_HTExtendedCapabilities :
    FieldAt HTExtendedCapabilities.bits HTExtendedCapabilities.mcs_feedback HTExtendedCapabilities.with_mcs_feedback 8 ∧
    BitAt HTExtendedCapabilities.bits HTExtendedCapabilities.plus_htc_support HTExtendedCapabilities.with_plus_htc_support 10 ∧
    BitAt HTExtendedCapabilities.bits HTExtendedCapabilities.rd_responder HTExtendedCapabilities.with_rd_responder 11 := by
  bitfield_layout

theorem c03_TransmitBeamformingCapabilities :
    BitAt TransmitBeamformingCapabilities.bits TransmitBeamformingCapabilities.implicit_transmit_beamforming_receiving_capable TransmitBeamformingCapabilities.with_implicit_transmit_beamforming_receiving_capable 0 ∧
    BitAt TransmitBeamformingCapabilities.bits TransmitBeamformingCapabilities.receive_staggered_sounding_capable TransmitBeamformingCapabilities.with_receive_staggered_sounding_capable 1 ∧
    BitAt TransmitBeamformingCapabilities.bits TransmitBeamformingCapabilities.transmit_staggered_sounding_capable TransmitBeamformingCapabilities.with_transmit_staggered_sounding_capable 2 ∧
    BitAt TransmitBeamformingCapabilities.bits TransmitBeamformingCapabilities.receive_ndp_capable TransmitBeamformingCapabilities.with_receive_ndp_capable 3 ∧
    BitAt TransmitBeamformingCapabilities.bits TransmitBeamformingCapabilities.transmit_ndp_capable TransmitBeamformingCapabilities.with_transmit_ndp_capable 4 ∧
    BitAt TransmitBeamformingCapabilities.bits TransmitBeamformingCapabilities.implicit_transmit_beamforming_capable TransmitBeamformingCapabilities.with_implicit_transmit_beamforming_capable 5 ∧
    FieldAt TransmitBeamformingCapabilities.bits TransmitBeamformingCapabilities.calibration TransmitBeamformingCapabilities.with_calibration 6 ∧
    BitAt TransmitBeamformingCapabilities.bits TransmitBeamformingCapabilities.explicit_csi_transmit_beamforming_capable TransmitBeamformingCapabilities.with_explicit_csi_transmit_beamforming_capable 8 ∧
    BitAt TransmitBeamformingCapabilities.bits TransmitBeamformingCapabilities.explicit_noncompressed_steering_capable TransmitBeamformingCapabilities.with_explicit_noncompressed_steering_capable 9 ∧
    BitAt TransmitBeamformingCapabilities.bits TransmitBeamformingCapabilities.explicit_compressed_steering_capable TransmitBeamformingCapabilities.with_explicit_compressed_steering_capable 10 ∧
    FieldAt TransmitBeamformingCapabilities.bits TransmitBeamformingCapabilities.explicit_transmit_beamforming_csi_feedback TransmitBeamformingCapabilities.with_explicit_transmit_beamforming_csi_feedback 11 ∧
    FieldAt TransmitBeamformingCapabilities.bits TransmitBeamformingCapabilities.explicit_noncompressed_beamforming_feedback_capable TransmitBeamformingCapabilities.with_explicit_noncompressed_beamforming_feedback_capable 13 ∧
    FieldAt TransmitBeamformingCapabilities.bits TransmitBeamformingCapabilities.explicit_compressed_beamforming_feedback_capable TransmitBeamformingCapabilities.with_explicit_compressed_beamforming_feedback_capable 15 ∧
    FieldAt TransmitBeamformingCapabilities.bits TransmitBeamformingCapabilities.minimal_grouping TransmitBeamformingCapabilities.with_minimal_grouping 17 ∧
    FieldAt TransmitBeamformingCapabilities.bits TransmitBeamformingCapabilities.csi_number_of_beamformer_antennas_supported TransmitBeamformingCapabilities.with_csi_number_of_beamformer_antennas_supported 19 ∧
    FieldAt TransmitBeamformingCapabilities.bits TransmitBeamformingCapabilities.noncompresssed_steering_number_of_beamformer_antennas_supported TransmitBeamformingCapabilities.with_noncompresssed_steering_number_of_beamformer_antennas_supported 21 ∧
    FieldAt TransmitBeamformingCapabilities.bits TransmitBeamformingCapabilities.compresssed_steering_number_of_beamformer_antennas_supported TransmitBeamformingCapabilities.with_compresssed_steering_number_of_beamformer_antennas_supported 23 ∧
    FieldAt TransmitBeamformingCapabilities.bits TransmitBeamformingCapabilities.csi_max_number_of_rows_beamformer_supported TransmitBeamformingCapabilities.with_csi_max_number_of_rows_beamformer_supported 25 ∧
    FieldAt TransmitBeamformingCapabilities.bits TransmitBeamformingCapabilities.channel_estimation_capability TransmitBeamformingCapabilities.with_channel_estimation_capability 27 := by
  bitfield_layout

theorem c03_ASELCapability :
    BitAt ASELCapability.bits ASELCapability.antenna_selection_capable ASELCapability.with_antenna_selection_capable 0 ∧
    BitAt ASELCapability.bits ASELCapability.explicit_csi_feedback_based_transmit_asel_capable ASELCapability.with_explicit_csi_feedback_based_transmit_asel_capable 1 ∧
    BitAt ASELCapability.bits ASELCapability.antenna_indices_feedback_based_transmit_asel_capable ASELCapability.with_antenna_indices_feedback_based_transmit_asel_capable 2 ∧
    BitAt ASELCapability.bits ASELCapability.explicit_csi_feedback_capable ASELCapability.with_explicit_csi_feedback_capable 3 ∧
    BitAt ASELCapability.bits ASELCapability.antenna_indices_feedback_capable ASELCapability.with_antenna_indices_feedback_capable 4 ∧
    BitAt ASELCapability.bits ASELCapability.receive_asel_capable ASELCapability.with_receive_asel_capable 5 ∧
    BitAt ASELCapability.bits ASELCapability.transmit_sounding_ppdus_capable ASELCapability.with_transmit_sounding_ppdus_capable 6 ∧
    BitAt ASELCapability.bits ASELCapability.reserved ASELCapability.with_reserved 7 := by
  bitfield_layout

theorem c03_SupportedMCSSetFlags :
    FieldAt SupportedMCSSetFlags.bits SupportedMCSSetFlags.rx_highest_supported_data_rate SupportedMCSSetFlags.with_rx_highest_supported_data_rate 0 ∧
    BitAt SupportedMCSSetFlags.bits SupportedMCSSetFlags.tx_mcs_set_defined SupportedMCSSetFlags.with_tx_mcs_set_defined 16 ∧
    BitAt SupportedMCSSetFlags.bits SupportedMCSSetFlags.tx_rx_mcs_set_not_equal SupportedMCSSetFlags.with_tx_rx_mcs_set_not_equal 17 ∧
    FieldAt SupportedMCSSetFlags.bits SupportedMCSSetFlags.tx_maximum_number_spatial_streams_supported SupportedMCSSetFlags.with_tx_maximum_number_spatial_streams_supported 18 ∧
    BitAt SupportedMCSSetFlags.bits SupportedMCSSetFlags.tx_unequal_modulation_supported SupportedMCSSetFlags.with_tx_unequal_modulation_supported 20 := by
  bitfield_layout

theorem c03_HTOperationInformation :
    FieldAt HTOperationInformation.bits HTOperationInformation.secondary_channel_offset HTOperationInformation.with_secondary_channel_offset 0 ∧
    BitAt HTOperationInformation.bits HTOperationInformation.any_channel_width HTOperationInformation.with_any_channel_width 2 ∧
    BitAt HTOperationInformation.bits HTOperationInformation.rifs_permitted HTOperationInformation.with_rifs_permitted 3 ∧
    FieldAt HTOperationInformation.bits HTOperationInformation.ht_protection_mode HTOperationInformation.with_ht_protection_mode 8 ∧
    BitAt HTOperationInformation.bits HTOperationInformation.nongreenfield_ht_sta_present HTOperationInformation.with_nongreenfield_ht_sta_present 10 ∧
    BitAt HTOperationInformation.bits HTOperationInformation.obss_non_ht_sta_present HTOperationInformation.with_obss_non_ht_sta_present 12 ∧
    FieldAt HTOperationInformation.bits HTOperationInformation.channel_center_frequency_segment_2 HTOperationInformation.with_channel_center_frequency_segment_2 13 ∧
    BitAt HTOperationInformation.bits HTOperationInformation.dual_beacon HTOperationInformation.with_dual_beacon 30 ∧
    BitAt HTOperationInformation.bits HTOperationInformation.dual_cts_protection HTOperationInformation.with_dual_cts_protection 31 ∧
    BitAt HTOperationInformation.bits HTOperationInformation.stbc_beacon HTOperationInformation.with_stbc_beacon 32 := by
  bitfield_layout

theorem c03_VHTCapabilitiesInfo :
    FieldAt VHTCapabilitiesInfo.bits VHTCapabilitiesInfo.maximum_mpdu_length VHTCapabilitiesInfo.with_maximum_mpdu_length 0 ∧
    FieldAt VHTCapabilitiesInfo.bits VHTCapabilitiesInfo.supported_channel_width_set VHTCapabilitiesInfo.with_supported_channel_width_set 2 ∧
    BitAt VHTCapabilitiesInfo.bits VHTCapabilitiesInfo.rx_ldpc VHTCapabilitiesInfo.with_rx_ldpc 4 ∧
    BitAt VHTCapabilitiesInfo.bits VHTCapabilitiesInfo.short_gi_80mhz VHTCapabilitiesInfo.with_short_gi_80mhz 5 ∧
    BitAt VHTCapabilitiesInfo.bits VHTCapabilitiesInfo.short_gi_160mhz VHTCapabilitiesInfo.with_short_gi_160mhz 6 ∧
    BitAt VHTCapabilitiesInfo.bits VHTCapabilitiesInfo.tx_stbc VHTCapabilitiesInfo.with_tx_stbc 7 ∧
    FieldAt VHTCapabilitiesInfo.bits VHTCapabilitiesInfo.rx_stbc VHTCapabilitiesInfo.with_rx_stbc 8 ∧
    BitAt VHTCapabilitiesInfo.bits VHTCapabilitiesInfo.su_beamformer_capable VHTCapabilitiesInfo.with_su_beamformer_capable 11 ∧
    BitAt VHTCapabilitiesInfo.bits VHTCapabilitiesInfo.su_beamformee_capable VHTCapabilitiesInfo.with_su_beamformee_capable 12 ∧
    FieldAt VHTCapabilitiesInfo.bits VHTCapabilitiesInfo.beamformee_sts_capability VHTCapabilitiesInfo.with_beamformee_sts_capability 13 ∧
    FieldAt VHTCapabilitiesInfo.bits VHTCapabilitiesInfo.number_of_sounding_dimensions VHTCapabilitiesInfo.with_number_of_sounding_dimensions 16 ∧
    BitAt VHTCapabilitiesInfo.bits VHTCapabilitiesInfo.mu_beamformer_capable VHTCapabilitiesInfo.with_mu_beamformer_capable 19 ∧
    BitAt VHTCapabilitiesInfo.bits VHTCapabilitiesInfo.mu_beamformee_capable VHTCapabilitiesInfo.with_mu_beamformee_capable 20 ∧
    BitAt VHTCapabilitiesInfo.bits VHTCapabilitiesInfo.txop_ps VHTCapabilitiesInfo.with_txop_ps 21 ∧
    BitAt VHTCapabilitiesInfo.bits VHTCapabilitiesInfo.htc_vht_capable VHTCapabilitiesInfo.with_htc_vht_capable 22 ∧
    FieldAt VHTCapabilitiesInfo.bits VHTCapabilitiesInfo.maximum_ampdu_length_exponent VHTCapabilitiesInfo.with_maximum_ampdu_length_exponent 23 ∧
    FieldAt VHTCapabilitiesInfo.bits VHTCapabilitiesInfo.vht_link_adaptation_capable VHTCapabilitiesInfo.with_vht_link_adaptation_capable 26 ∧
    BitAt VHTCapabilitiesInfo.bits VHTCapabilitiesInfo.rx_antenna_pattern_consistency VHTCapabilitiesInfo.with_rx_antenna_pattern_consistency 28 ∧
    BitAt VHTCapabilitiesInfo.bits VHTCapabilitiesInfo.tx_antenna_pattern_consistency VHTCapabilitiesInfo.with_tx_antenna_pattern_consistency 29 ∧
    FieldAt VHTCapabilitiesInfo.bits VHTCapabilitiesInfo.extended_nss_bw_support VHTCapabilitiesInfo.with_extended_nss_bw_support 30 := by
  bitfield_layout

theorem c03_SupportedVHTMCSAndNSSSet :
    FieldAt SupportedVHTMCSAndNSSSet.bits SupportedVHTMCSAndNSSSet.rx_vht_mcs_map SupportedVHTMCSAndNSSSet.with_rx_vht_mcs_map 0 ∧
    FieldAt SupportedVHTMCSAndNSSSet.bits SupportedVHTMCSAndNSSSet.rx_highest_supported_long_gi_data_rate SupportedVHTMCSAndNSSSet.with_rx_highest_supported_long_gi_data_rate 16 ∧
    FieldAt SupportedVHTMCSAndNSSSet.bits SupportedVHTMCSAndNSSSet.maximum_nsts_total SupportedVHTMCSAndNSSSet.with_maximum_nsts_total 29 ∧
    FieldAt SupportedVHTMCSAndNSSSet.bits SupportedVHTMCSAndNSSSet.tx_vht_mcs_map SupportedVHTMCSAndNSSSet.with_tx_vht_mcs_map 32 ∧
    FieldAt SupportedVHTMCSAndNSSSet.bits SupportedVHTMCSAndNSSSet.tx_highest_supported_long_gi_data_rate SupportedVHTMCSAndNSSSet.with_tx_highest_supported_long_gi_data_rate 48 ∧
    BitAt SupportedVHTMCSAndNSSSet.bits SupportedVHTMCSAndNSSSet.vht_extended_nss_bw_capable SupportedVHTMCSAndNSSSet.with_vht_extended_nss_bw_capable 61 := by
  bitfield_layout

theorem c03_MeshFormationInfo :
    BitAt MeshFormationInfo.bits MeshFormationInfo.connected_to_mesh_gate MeshFormationInfo.with_connected_to_mesh_gate 0 ∧
    FieldAt MeshFormationInfo.bits MeshFormationInfo.num_peerings MeshFormationInfo.with_num_peerings 1 ∧
    BitAt MeshFormationInfo.bits MeshFormationInfo.connected_to_as MeshFormationInfo.with_connected_to_as 7 := by
  bitfield_layout

theorem c03_MeshCapability :
    BitAt MeshCapability.bits MeshCapability.accept_additional_mesh_peerings MeshCapability.with_accept_additional_mesh_peerings 0 ∧
    BitAt MeshCapability.bits MeshCapability.mcca_supported MeshCapability.with_mcca_supported 1 ∧
    BitAt MeshCapability.bits MeshCapability.mcca_enabled MeshCapability.with_mcca_enabled 2 ∧
    BitAt MeshCapability.bits MeshCapability.forwarding MeshCapability.with_forwarding 3 ∧
    BitAt MeshCapability.bits MeshCapability.mbca_enabled MeshCapability.with_mbca_enabled 4 ∧
    BitAt MeshCapability.bits MeshCapability.tbtt_adjusting MeshCapability.with_tbtt_adjusting 5 ∧
    BitAt MeshCapability.bits MeshCapability.mesh_power_save_level MeshCapability.with_mesh_power_save_level 6 := by
  bitfield_layout

theorem c03_EncodedRate :
    FieldAt EncodedRate.bits EncodedRate.rate EncodedRate.with_rate 0 ∧
    BitAt EncodedRate.bits EncodedRate.is_b EncodedRate.with_is_b 7 := by
  bitfield_layout

theorem c03_TIMBitmapControl :
    BitAt TIMBitmapControl.bits TIMBitmapControl.traffic_indicator TIMBitmapControl.with_traffic_indicator 0 ∧
    FieldAt TIMBitmapControl.bits TIMBitmapControl.bitmap_offset TIMBitmapControl.with_bitmap_offset 1 := by
  bitfield_layout

theorem c03_RsnCapabilities :
    BitAt RsnCapabilities.bits RsnCapabilities.supports_preauthentication RsnCapabilities.with_supports_preauthentication 0 ∧
    BitAt RsnCapabilities.bits RsnCapabilities.no_pairwise_key RsnCapabilities.with_no_pairwise_key 1 ∧
    FieldAt RsnCapabilities.bits RsnCapabilities.ptksa_replay_counter RsnCapabilities.with_ptksa_replay_counter 2 ∧
    FieldAt RsnCapabilities.bits RsnCapabilities.gtksa_replay_counter RsnCapabilities.with_gtksa_replay_counter 4 ∧
    FieldAt RsnCapabilities.bits RsnCapabilities.mfp_config RsnCapabilities.with_mfp_config 6 ∧
    BitAt RsnCapabilities.bits RsnCapabilities.joint_multi_band_rsna_capable RsnCapabilities.with_joint_multi_band_rsna_capable 8 ∧
    BitAt RsnCapabilities.bits RsnCapabilities.peer_key_enabled_handshake_capable RsnCapabilities.with_peer_key_enabled_handshake_capable 9 ∧
    FieldAt RsnCapabilities.bits RsnCapabilities.spp_ampdu_config RsnCapabilities.with_spp_ampdu_config 10 ∧
    BitAt RsnCapabilities.bits RsnCapabilities.pbac_capable RsnCapabilities.with_pbac_capable 12 ∧
    BitAt RsnCapabilities.bits RsnCapabilities.ext_key_id_for_individually_addressed_frames RsnCapabilities.with_ext_key_id_for_individually_addressed_frames 13 ∧
    BitAt RsnCapabilities.bits RsnCapabilities.ocv_capable RsnCapabilities.with_ocv_capable 14 := by
  bitfield_layout

theorem c03_GtkInfo :
    FieldAt GtkInfo.bits GtkInfo.key_id GtkInfo.with_key_id 0 ∧
    BitAt GtkInfo.bits GtkInfo.tx GtkInfo.with_tx 2 := by
  bitfield_layout

theorem c03_KeyInformation :
    FieldAt KeyInformation.bits KeyInformation.key_descriptor_version KeyInformation.with_key_descriptor_version 0 ∧
    BitAt KeyInformation.bits KeyInformation.is_pairwise KeyInformation.with_is_pairwise 3 ∧
    BitAt KeyInformation.bits KeyInformation.install KeyInformation.with_install 6 ∧
    BitAt KeyInformation.bits KeyInformation.key_ack KeyInformation.with_key_ack 7 ∧
    BitAt KeyInformation.bits KeyInformation.key_mic KeyInformation.with_key_mic 8 ∧
    BitAt KeyInformation.bits KeyInformation.secure KeyInformation.with_secure 9 ∧
    BitAt KeyInformation.bits KeyInformation.error KeyInformation.with_error 10 ∧
    BitAt KeyInformation.bits KeyInformation.request KeyInformation.with_request 11 ∧
    BitAt KeyInformation.bits KeyInformation.encrypted_key_data KeyInformation.with_encrypted_key_data 12 := by
  bitfield_layout

/-- A concrete case: retry is bit 3, and setting it leaves the other flags of 0x41 alone. -/
example : (FCFFlags.with_retry ⟨0x41⟩ true).bits = 0x49 ∧ (FCFFlags.mk 0x49).retry = true ∧
    (FCFFlags.mk 0x49).protected_ = true ∧ (FCFFlags.mk 0x49).order = false := by decide

end Verif
