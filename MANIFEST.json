{
 "claims": [
  {
   "property": "C01",
   "status": "partial",
   "theorems": [
    "Verif.c01_decode",
    "Verif.c01_decode_valid",
    "Verif.c01_encode",
    "Verif.c01_bits_roundtrip",
    "Verif.c01_value_roundtrip_partial",
    "Verif.c01_frame_control_field",
    "Verif.c01_frame_control_decode",
    "Verif.c01_invalid_subtype"
   ],
   "note": "All six-bit patterns, and all frame type values with a wire form (c01_value_roundtrip_partial). The full statement asks it of every value: violation proved, an Unknown subtype of 16 or more is changed by the round trip and the frame control setter panics on it (c01_invalid_subtype)."
  },
  {
   "property": "C02",
   "status": "partial",
   "theorems": [
    "Verif.c02_ManagementFrameSubtype",
    "Verif.c02_ControlFrameSubtype",
    "Verif.c02_DataFrameCF",
    "Verif.c02_DataFrameSubtype",
    "Verif.c02_IEEE80211Reason",
    "Verif.c02_IEEE80211StatusCode",
    "Verif.c02_IEEE80211AuthenticationAlgorithmNumber",
    "Verif.c02_SmPwSave",
    "Verif.c02_MAXAMpduLength",
    "Verif.c02_MpduDensity",
    "Verif.c02_BeamformingCalibration",
    "Verif.c02_BeamformingFeedback",
    "Verif.c02_GroupingCapability",
    "Verif.c02_SecondaryChannelOffset",
    "Verif.c02_HTProtectionMode",
    "Verif.c02_VHTMCSSupport",
    "Verif.c02_ChannelWidth",
    "Verif.c02_MeshConfigurationActivePathSelectionProtocolIdentifier",
    "Verif.c02_MeshConfigurationActivePathSelectionMetricIdentifier",
    "Verif.c02_MeshConfigurationCongestionControlModeIdentifier",
    "Verif.c02_MeshConfigurationSynchronizationMethodIdentifier",
    "Verif.c02_MeshConfigurationAuthenticationProtocolIdentifier",
    "Verif.c02_MeshPeeringProtocolIdentifier",
    "Verif.c02_CategoryCode",
    "Verif.c02_SelfProtectedActionCode",
    "Verif.c02_KeyDescriptorVersion",
    "Verif.c02_IEEE80211CipherSuiteSelector",
    "Verif.c02_IEEE80211AkmType",
    "Verif.c02_OptionalFeatureConfig_partial",
    "Verif.c02_OptionalFeatureConfig_changed"
   ],
   "note": "Every serializable_enum of the crate and both RSN selector types against code tables of the standard, all raw codes. Violated for OptionalFeatureConfig, whose codes 2 and 3 are exchanged (c02_OptionalFeatureConfig_changed)."
  },
  {
   "property": "C03",
   "status": "proved",
   "theorems": [
    "Verif.c03_get_set",
    "Verif.c03_get_set_flag",
    "Verif.c03_flag_field",
    "Verif.c03_FCFFlags",
    "Verif.c03_FrameControlField",
    "Verif.c03_SequenceControl",
    "Verif.c03_CapabilitiesInformation",
    "Verif.c03_HtSig",
    "Verif.c03_AssociationID",
    "Verif.c03_HTCapabilitiesInfo",
    "Verif.c03_AMpduParameters",
    "Verif.c03_HTExtendedCapabilities",
    "Verif.c03_TransmitBeamformingCapabilities",
    "Verif.c03_ASELCapability",
    "Verif.c03_SupportedMCSSetFlags",
    "Verif.c03_HTOperationInformation",
    "Verif.c03_VHTCapabilitiesInfo",
    "Verif.c03_SupportedVHTMCSAndNSSSet",
    "Verif.c03_MeshFormationInfo",
    "Verif.c03_MeshCapability",
    "Verif.c03_EncodedRate",
    "Verif.c03_TIMBitmapControl",
    "Verif.c03_RsnCapabilities",
    "Verif.c03_GtkInfo",
    "Verif.c03_KeyInformation"
   ],
   "note": "One layout theorem per packed struct (22 structs), consequences for every pair of fields stated generally."
  },
  {
   "property": "C04",
   "status": "proved",
   "theorems": [
    "Verif.c04_new_checked",
    "Verif.c04_aid",
    "Verif.c04_reparse",
    "Verif.c04_refused",
    "Verif.c04_macro"
   ],
   "note": "All 16-bit inputs."
  },
  {
   "property": "C05",
   "status": "partial",
   "theorems": [
    "Verif.c05_accepts_iff",
    "Verif.c05_rejects_with",
    "Verif.c05_rejects",
    "Verif.c05_trailer_corruption",
    "Verif.c05_attach",
    "Verif.c05_attach_short",
    "Verif.c05_attach_then_validate",
    "Verif.c05_short_panics_iff",
    "Verif.c05_short_not_error"
   ],
   "note": "Holds for any checksum. The clause about buffers shorter than four bytes is violated by the code: c05_short_panics_iff and c05_short_not_error."
  },
  {
   "property": "C06",
   "status": "partial",
   "theorems": [
    "Verif.c06_written",
    "Verif.c06_exact_buffer",
    "Verif.c06_iterate",
    "Verif.c06_roundtrip",
    "Verif.c06_overlong",
    "Verif.c06_append",
    "Verif.c06_element_chain",
    "Verif.c06_strict_loses_empty_last"
   ],
   "note": "All chains of plain, extended, vendor and raw elements. Under the strict scroll rule an empty last element is lost when iterating (c06_strict_loses_empty_last); with the other rule there is no exception."
  },
  {
   "property": "C07",
   "status": "partial",
   "theorems": [
    "Verif.c07_contents",
    "Verif.c07_matches",
    "Verif.c07_matching_raw",
    "Verif.c07_first_raw",
    "Verif.c07_matching",
    "Verif.c07_first_some",
    "Verif.c07_first_none",
    "Verif.c07_first_partial",
    "Verif.c07_first_wrong",
    "Verif.c07_parse_raw_panics"
   ],
   "note": "Lookup is exactly filter-and-parse over the raw elements. The clause 'parse of the first matching element' is violated when that one does not parse: c07_first_wrong; c07_first_partial and c07_first_some give the exact behaviour."
  },
  {
   "property": "C08",
   "status": "proved",
   "theorems": [
    "Verif.c08_iterate",
    "Verif.c08_collect",
    "Verif.c08_contiguous",
    "Verif.c08_safe",
    "Verif.c08_lookup_safe"
   ],
   "note": "All byte strings."
  },
  {
   "property": "C09",
   "status": "partial",
   "theorems": [
    "Verif.c09_consequences",
    "Verif.c09_fixed_size",
    "Verif.c09_ssid_partial",
    "Verif.c09_rates_partial",
    "Verif.c09_rates_wrong",
    "Verif.c09_tim_partial",
    "Verif.c09_tim_wrong",
    "Verif.c09_tim_exact_partial",
    "Verif.c09_rsn_partial",
    "Verif.c09_rsn_wrong",
    "Verif.c09_mesh_peering_partial",
    "Verif.c09_vendor_partial",
    "Verif.c09_wrapped_partial",
    "Verif.c09_raw_element_partial",
    "Verif.c09_chain_partial",
    "Verif.c09_chain_wrong",
    "Verif.c09_bodies_partial",
    "Verif.c09_bodies_wrong",
    "Verif.c09_mgmt_frame_partial",
    "Verif.c09_data_frame_partial",
    "Verif.c09_control_partial",
    "Verif.c09_ack_wrong",
    "Verif.c09_amsdu_wrong",
    "Verif.c09_crypto_header",
    "Verif.c09_crypto_wrapper_partial",
    "Verif.c09_crypto_wrapper_wrong",
    "Verif.c09_eapol_partial",
    "Verif.c09_eapol_data_frame_partial",
    "Verif.c09_bytes",
    "Verif.c09_strict_spare_byte"
   ],
   "note": "Exactness (measured size = bytes written, exactly that size suffices, any smaller buffer errs, the rest is untouched) is proved for every fixed-size type, SSID, rates, TIM, RSN, mesh peering, vendor, wrapped and raw elements, element chains ending in a typed element, the element-carrying bodies, management, control and data frames, the CCMP header, crypto wrapper without MIC and EAPOL-Key. The property is false of the code elsewhere, and this is proved: static TIM bitmaps, TIM with only the traffic indicator, RSN with PMKIDs, more than eight unchecked rates, chains ending in a raw element, mesh peering and vendor action bodies, Ack, padded A-MSDU, and (by panic) the crypto wrapper with MIC; under scroll 0.12 an empty last write needs a spare byte."
  },
  {
   "property": "C10",
   "status": "proved",
   "theorems": [
    "Verif.c10_new",
    "Verif.c10_parse",
    "Verif.c10_parse_error",
    "Verif.c10_write",
    "Verif.c10_round_trip",
    "Verif.c10_hidden"
   ],
   "note": "All byte strings; UTF-8 validity stated by the encoding of Unicode scalar values."
  },
  {
   "property": "C11",
   "status": "proved",
   "theorems": [
    "Verif.c11_new_supported",
    "Verif.c11_new_extended",
    "Verif.c11_parse_supported",
    "Verif.c11_parse_extended",
    "Verif.c11_write_supported",
    "Verif.c11_write_extended",
    "Verif.c11_round_trip_supported",
    "Verif.c11_round_trip_extended",
    "Verif.c11_unchecked"
   ],
   "note": "All rate lists and all inputs. The extended parser accepts up to 255 rates while creation stops at 251; c11_unchecked records that the unchecked constructor's extra rates are dropped when writing."
  },
  {
   "property": "C12",
   "status": "partial",
   "theorems": [
    "Verif.c12_dsss",
    "Verif.c12_ibss",
    "Verif.c12_bss_load",
    "Verif.c12_vht_capabilities",
    "Verif.c12_vht_operation",
    "Verif.c12_mesh_configuration",
    "Verif.c12_parse_write",
    "Verif.c12_ibss_duration",
    "Verif.c12_ibss_duration_wraps",
    "Verif.c12_unknown_named"
   ],
   "note": "All values and all inputs of the six element types. Exception: an enumeration value Unknown(c) with c the code of a named variant is read back as that variant (c12_unknown_named). c12_ibss_duration_wraps records that durations of 65536 time units or more wrap."
  },
  {
   "property": "C13",
   "status": "partial",
   "theorems": [
    "Verif.c13_write",
    "Verif.c13_round_trip",
    "Verif.c13_short",
    "Verif.c13_parse_write",
    "Verif.c13_mcs_set_overreports",
    "Verif.c13_mcs_set_round_trip"
   ],
   "note": "HT capabilities proved in both directions for all values and inputs. The MCS set parser on its own claims 16 bytes when given 14 or 15 (c13_mcs_set_overreports), against the last clause."
  },
  {
   "property": "C14",
   "status": "partial",
   "theorems": [
    "Verif.c14_parse",
    "Verif.c14_short",
    "Verif.c14_overreports",
    "Verif.c14_write_partial",
    "Verif.c14_round_trip_partial",
    "Verif.c14_round_trip_fails",
    "Verif.c14_rewrite"
   ],
   "note": "Violated: read is little-endian, write emits the top of the big-endian form (c14_round_trip_fails, c14_rewrite). Exact behaviour of both directions proved; also over-reports consumed length at 20 and 21 bytes."
  },
  {
   "property": "C15",
   "status": "partial",
   "theorems": [
    "Verif.c15_support",
    "Verif.c15_iter",
    "Verif.c15_rebuild_panics",
    "Verif.c15_build_five_panics",
    "Verif.c15_build_partial",
    "Verif.c15_mpdu_length"
   ],
   "note": "Reading proved for all maps. Building from five or more values panics, so the eight values read out can never be built again (c15_rebuild_panics); c15_build_partial covers up to four."
  },
  {
   "property": "C16",
   "status": "partial",
   "theorems": [
    "Verif.c16_aid_iter_partial",
    "Verif.c16_first_bit_missed",
    "Verif.c16_static_exact",
    "Verif.c16_static_empty",
    "Verif.c16_static_partial",
    "Verif.c16_static_truncates",
    "Verif.c16_static_wrong",
    "Verif.c16_listing_exact",
    "Verif.c16_listing_misses",
    "Verif.c16_listing_zero_panics",
    "Verif.c16_range_exact",
    "Verif.c16_new_raw",
    "Verif.c16_parse",
    "Verif.c16_parse_short",
    "Verif.c16_bad_dtim",
    "Verif.c16_write",
    "Verif.c16_round_trip",
    "Verif.c16_static_measure",
    "Verif.c16_wrapped_static_truncated"
   ],
   "note": "Violated in several ways (c16_first_bit_missed, c16_static_wrong, c16_listing_misses, c16_listing_zero_panics, c16_wrapped_static_truncated); for each construction the exact set read back is proved for all AID sets, with the exact condition under which it is right."
  },
  {
   "property": "C17",
   "status": "partial",
   "theorems": [
    "Verif.c17_write",
    "Verif.c17_read",
    "Verif.c17_round_trip",
    "Verif.c17_version",
    "Verif.c17_accepts",
    "Verif.c17_parse_write",
    "Verif.c17_parsed_from_partial",
    "Verif.c17_round_trip_exact",
    "Verif.c17_measure_partial",
    "Verif.c17_measure_pmkid",
    "Verif.c17_standard_partial",
    "Verif.c17_pmkid_count",
    "Verif.c17_pmkid_misread",
    "Verif.c17_pmkid_shifted",
    "Verif.c17_pmkid_element",
    "Verif.c17_builders",
    "Verif.c17_builder_fields",
    "Verif.c17_empty_wf",
    "Verif.c17_constants_partial",
    "Verif.c17_constants_bytes",
    "Verif.c17_owe_lost",
    "Verif.c17_empty_list_strict"
   ],
   "note": "Write, read, round trip, any-input parsing, parse-then-write, builders and constants proved. Violations: PMKIDs are counted and measured in units of 4 bytes (c17_pmkid_count, c17_pmkid_misread, c17_measure_pmkid, c17_pmkid_element); the OWE constant is not well formed and loses its group management suite (c17_owe_lost). An empty list as last field needs a nonempty remainder when scroll refuses empty reads at the end (c17_empty_list_strict)."
  },
  {
   "property": "C18",
   "status": "partial",
   "theorems": [
    "Verif.c18_cipher_codes",
    "Verif.c18_akm_codes",
    "Verif.c18_group_dependent_wrong",
    "Verif.c18_cipher_wire",
    "Verif.c18_akm_wire",
    "Verif.c18_tk_len",
    "Verif.c18_mic_len",
    "Verif.c18_kck_len_partial",
    "Verif.c18_kek_len_partial",
    "Verif.c18_kck2_len",
    "Verif.c18_kek2_len",
    "Verif.c18_key_mic_len_partial",
    "Verif.c18_sha384_missing",
    "Verif.c18_feature_bits_partial",
    "Verif.c18_feature_bits_changed",
    "Verif.c18_feature_write_read",
    "Verif.c18_mfp_required_lost",
    "Verif.c18_mfp_standard_partial",
    "Verif.c18_spp_standard_partial",
    "Verif.c18_spp_written",
    "Verif.c18_mfp_written_partial",
    "Verif.c18_compatible_iff",
    "Verif.c18_compatible_sound_partial",
    "Verif.c18_capable_incompatible"
   ],
   "note": "Selector code tables, wire form and key lengths proved; the lengths of types 7, 10, 16 and 17 are taken from the crate's table. Violations: no lengths for the SHA-384 suites 19 and 20 (c18_sha384_missing), OptionalFeatureConfig bits are swapped between reading and writing (c18_feature_bits_changed, c18_mfp_required_lost), the bits of management frame protection are not those of the standard, neither read nor written (c18_mfp_standard_partial, c18_mfp_written_partial), and those of payload protection not when read (c18_spp_standard_partial); is_compatible refuses two capable peers (c18_capable_incompatible)."
  },
  {
   "property": "C19",
   "status": "partial",
   "theorems": [
    "Verif.c19_new_open",
    "Verif.c19_new_confirm",
    "Verif.c19_new_close",
    "Verif.c19_write",
    "Verif.c19_read",
    "Verif.c19_read_short",
    "Verif.c19_read_long_panics",
    "Verif.c19_no_panic_partial",
    "Verif.c19_as_open",
    "Verif.c19_as_confirm",
    "Verif.c19_as_close",
    "Verif.c19_as_no_panic",
    "Verif.c19_round_trip",
    "Verif.c19_open",
    "Verif.c19_confirm",
    "Verif.c19_close",
    "Verif.c19_distinct",
    "Verif.c19_confirm_close_ambiguous",
    "Verif.c19_element"
   ],
   "note": "Construction, writing, reading, the role parsers and round trips are proved for all inputs. The full claim fails: the parser panics on payloads longer than 24 bytes (c19_read_long_panics), and a confirm without PMK has the same length as a close, so the role cannot be told from the bytes (c19_confirm_close_ambiguous). c19_no_panic_partial covers payloads up to 24 bytes."
  },
  {
   "property": "C20",
   "status": "partial",
   "theorems": [
    "Verif.c20_mac_address",
    "Verif.c20_pmkid",
    "Verif.c20_nonce",
    "Verif.c20_lifetime",
    "Verif.c20_gtk",
    "Verif.c20_gtk_any",
    "Verif.c20_owe_write",
    "Verif.c20_owe_read_partial",
    "Verif.c20_owe_hidden_strict",
    "Verif.c20_owe_parse",
    "Verif.c20_distinct"
   ],
   "note": "Wire form, lookup by prefix and round trip are proved for every value that fits an element. One corner fails: with scroll's strict offset rule an OWE transition element with empty SSID and no band and channel is written but not parsed (c20_owe_hidden_strict), so c20_owe_read_partial excludes it."
  },
  {
   "property": "C21",
   "status": "partial",
   "theorems": [
    "Verif.c21_offsets",
    "Verif.c21_write",
    "Verif.c21_length",
    "Verif.c21_fixed",
    "Verif.c21_parse",
    "Verif.c21_round_trip_partial",
    "Verif.c21_round_trip_wrong",
    "Verif.c21_order_without_ht"
   ],
   "note": "Exact layout, lengths, fixed size, error on short input and parse inversion for every header; round trip for headers whose HT control presence agrees with the order flag. The writer emits HT control whatever the flag says, so the full round trip is false (c21_round_trip_wrong)."
  },
  {
   "property": "C22",
   "status": "partial",
   "theorems": [
    "Verif.c22_round_trip_partial",
    "Verif.c22_association_request",
    "Verif.c22_authentication",
    "Verif.c22_beacon",
    "Verif.c22_disassociation",
    "Verif.c22_deauthentication",
    "Verif.c22_mesh_peering_open",
    "Verif.c22_mesh_peering_close",
    "Verif.c22_association_response",
    "Verif.c22_mesh_peering_confirm",
    "Verif.c22_probe_request",
    "Verif.c22_measure",
    "Verif.c22_measure_wrong",
    "Verif.c22_no_elements_strict"
   ],
   "note": "All eleven bodies: written layout, read back, parse inversion, short input is an error, no panic. Round trip needs at least one element byte under the strict scroll rule (c22_no_elements_strict shows the failure). Measure exact for eight bodies; the three mesh peering bodies report one byte too few (c22_measure_wrong)."
  },
  {
   "property": "C23",
   "status": "partial",
   "theorems": [
    "Verif.c23_write",
    "Verif.c23_fcs_length",
    "Verif.c23_read",
    "Verif.c23_round_trip_partial",
    "Verif.c23_parse",
    "Verif.c23_wrong_type",
    "Verif.c23_wrong_fcs",
    "Verif.c23_safe",
    "Verif.c23_short_fcs",
    "Verif.c23_measure",
    "Verif.c23_subtypes",
    "Verif.c23_other_subtype_accepted"
   ],
   "note": "Typed management frames: written bytes, read back, FCS attached and checked, other frame types and damaged checksums refused, never panics except in the FCS check. Restricted to headers whose HT control agrees with the order flag and bodies with enough element bytes under the strict scroll rule. Violations proved: another management subtype is accepted (c23_other_subtype_accepted); fewer than four bytes panic when an FCS is expected (c23_short_fcs)."
  },
  {
   "property": "C24",
   "status": "partial",
   "theorems": [
    "Verif.c24_new",
    "Verif.c24_new_panics_iff",
    "Verif.c24_always",
    "Verif.c24_address2",
    "Verif.c24_address3",
    "Verif.c24_sequence_control",
    "Verif.c24_kinds",
    "Verif.c24_safe",
    "Verif.c24_mgmt",
    "Verif.c24_data",
    "Verif.c24_control",
    "Verif.c24_rts_address2"
   ],
   "note": "Generic accessors agree with the typed management, data and control parses; fields absent exactly when the kind lacks them or the bytes are too short; no panics from ten bytes on; new accepts exactly frames of ten bytes with right FCS. Against the standard the second address is left out for exactly six kinds of control frames (c24_kinds): violation proved for RTS (c24_rts_address2)."
  },
  {
   "property": "C25",
   "status": "partial",
   "theorems": [
    "Verif.c25_mgmt",
    "Verif.c25_control_data",
    "Verif.c25_exclusive_partial",
    "Verif.c25_types_exclusive",
    "Verif.c25_raw_action_overlaps",
    "Verif.c25_parse_to_typed",
    "Verif.c25_arms",
    "Verif.c25_no_arm",
    "Verif.c25_match_frames",
    "Verif.c25_with_fcs_false"
   ],
   "note": "matches is true exactly for frames of the kind (type, subtype, action category and code); kinds exclude each other except the documented raw action overlap (c25_raw_action_overlaps); the first matching arm gets the parse of the whole frame. Control frames: only the matching, since ControlFrame has no bool-context parser and cannot be an arm. Violation proved: with_fcs: false still demands a check sequence (c25_with_fcs_false)."
  },
  {
   "property": "C26",
   "status": "partial",
   "theorems": [
    "Verif.c26_write",
    "Verif.c26_round_trip",
    "Verif.c26_parse",
    "Verif.c26_safe",
    "Verif.c26_length_partial",
    "Verif.c26_ack_length",
    "Verif.c26_fcf",
    "Verif.c26_addresses",
    "Verif.c26_short_body"
   ],
   "note": "Write order, exact round trip, exact acceptance, errors, addresses for all control frames. Violation proved: an Ack reports 14 bytes and writes 8 (c26_ack_length)."
  },
  {
   "property": "C27",
   "status": "partial",
   "theorems": [
    "Verif.c27_subtypes",
    "Verif.c27_valid",
    "Verif.c27_write",
    "Verif.c27_round_trip",
    "Verif.c27_parse",
    "Verif.c27_rewrite",
    "Verif.c27_safe",
    "Verif.c27_errors",
    "Verif.c27_length",
    "Verif.c27_length_read",
    "Verif.c27_accepts_iff",
    "Verif.c27_order_without_qos",
    "Verif.c27_measure_wrong",
    "Verif.c27_fcf"
   ],
   "note": "Header presence rules, round trip, exact acceptance, rewrite, errors, length. Violations proved: HT control is read for any frame with the order flag, QoS or not (c27_order_without_qos); the measure counts the frame control field which the header writer does not write (c27_measure_wrong)."
  },
  {
   "property": "C28",
   "status": "partial",
   "theorems": [
    "Verif.c28_amsdu",
    "Verif.c28_receiver_transmitter",
    "Verif.c28_destination",
    "Verif.c28_source",
    "Verif.c28_bssid_partial",
    "Verif.c28_bssid_both",
    "Verif.c28_set_destination",
    "Verif.c28_set_source",
    "Verif.c28_put_roles",
    "Verif.c28_set_get_destination",
    "Verif.c28_set_get_source",
    "Verif.c28_set_get_bssid_partial",
    "Verif.c28_set_get_bssid_wrong"
   ],
   "note": "Destination and source accessors agree with the table for all flags, A-MSDU or not; their mutable accessors designate the same field; set then get. BSSID restricted: violations proved for both DS flags (c28_bssid_both) and for setting the BSSID of an A-MSDU (c28_set_get_bssid_wrong)."
  },
  {
   "property": "C29",
   "status": "partial",
   "theorems": [
    "Verif.c29_flags",
    "Verif.c29_subtype",
    "Verif.c29_valid",
    "Verif.c29_addresses_partial",
    "Verif.c29_direction",
    "Verif.c29_no_qos",
    "Verif.c29_roles_partial",
    "Verif.c29_usual_partial",
    "Verif.c29_from_ds_swapped",
    "Verif.c29_qos_improper",
    "Verif.c29_amsdu_unmarked",
    "Verif.c29_missing_address4",
    "Verif.c29_order_improper",
    "Verif.c29_no_replacing",
    "Verif.c29_once",
    "Verif.c29_replaced",
    "Verif.c29_payload",
    "Verif.c29_null_payload",
    "Verif.c29_proper_iff",
    "Verif.c29_null_to_ds_unbuildable",
    "Verif.c29_category_first",
    "Verif.c29_payload_to_ds_unbuildable"
   ],
   "note": "Flags, direction and subtype are as chosen for every program; every address field is the one given by the table of roles, and the role accessors return it, unless the direction is from-DS and destination_address is called (full statement has no exception: c29_from_ds_swapped proves that the program in the documentation exchanges source and BSSID). Violations proved: QoS frames have no QoS field (c29_qos_improper), A-MSDU not marked, fourth address may be missing, order flag without HT control, null frames to the DS cannot be built at all."
  },
  {
   "property": "C30",
   "status": "partial",
   "theorems": [
    "Verif.c30_iterate",
    "Verif.c30_write",
    "Verif.c30_round_trip_partial",
    "Verif.c30_measure",
    "Verif.c30_measure_wrong",
    "Verif.c30_write_beyond",
    "Verif.c30_next",
    "Verif.c30_no_panic_partial",
    "Verif.c30_unpadded_panics",
    "Verif.c30_length_little_endian",
    "Verif.c30_length_wraps"
   ],
   "note": "Written subframes are read back in order for every list and buffer with room, when payloads fit the 16-bit length (c30_round_trip_partial); any padded sequence iterates to its subframes (c30_iterate); iteration over bytes whose number is a multiple of four never panics (c30_no_panic_partial), exact panic condition in c30_next. Violations proved: an unpadded last subframe panics the iterator, size reported excludes padding, writer reports more bytes than the buffer has, length little-endian, length wraps at 65536."
  },
  {
   "property": "C31",
   "status": "partial",
   "theorems": [
    "Verif.c31_new_iff",
    "Verif.c31_new_partial",
    "Verif.c31_accepts_out_of_range",
    "Verif.c31_default",
    "Verif.c31_refuses",
    "Verif.c31_write_any",
    "Verif.c31_write",
    "Verif.c31_parse",
    "Verif.c31_short",
    "Verif.c31_key_id_wrong",
    "Verif.c31_key_id_lost",
    "Verif.c31_round_trip_partial"
   ],
   "note": "new accepts a value out of range whenever the other is in range (c31_new_iff, c31_accepts_out_of_range) and the parser loses the key id (c31_key_id_wrong, c31_key_id_lost); layout and packet number proved for all values, round trip holds exactly for key id 0."
  },
  {
   "property": "C32",
   "status": "partial",
   "theorems": [
    "Verif.c32_write_partial",
    "Verif.c32_write_short",
    "Verif.c32_write_panics",
    "Verif.c32_measure",
    "Verif.c32_sizes",
    "Verif.c32_parse",
    "Verif.c32_round_trip_partial",
    "Verif.c32_read_panics_iff",
    "Verif.c32_unprotected",
    "Verif.c32_none",
    "Verif.c32_protected",
    "Verif.c32_payload_panics",
    "Verif.c32_payload_panics_example",
    "Verif.c32_wrap"
   ],
   "note": "Layout, parsing and payload access proved for all inputs; the no-panic part is false: c32_write_panics, c32_read_panics_iff, c32_payload_panics."
  },
  {
   "property": "C33",
   "status": "proved",
   "theorems": [
    "Verif.c33_block",
    "Verif.c33_block_bijective",
    "Verif.c33_michael",
    "Verif.c33_michael_bytes",
    "Verif.c33_key_injective",
    "Verif.c33_one_word",
    "Verif.c33_key_exists"
   ],
   "note": "Equal to the specification on byte strings for all keys and messages, block function bijective, a bijection of keys and codes for every message, and every change within one word of the message changes the code. u32::to_be modelled for a little-endian machine."
  },
  {
   "property": "C34",
   "status": "proved",
   "theorems": [
    "Verif.c34_length",
    "Verif.c34_bytes",
    "Verif.c34_prf",
    "Verif.c34_prefix",
    "Verif.c34_pieces",
    "Verif.c34_counter",
    "Verif.c34_ptk"
   ],
   "note": "For any HMAC with 20 bytes of output (parameter). Beyond 256 blocks the one-octet counter wraps and the output repeats (c34_counter), which is outside the property."
  },
  {
   "property": "C35",
   "status": "proved",
   "theorems": [
    "Verif.c35_sort",
    "Verif.c35_input",
    "Verif.c35_symmetric"
   ],
   "note": "For any HMAC."
  },
  {
   "property": "C36",
   "status": "proved",
   "theorems": [
    "Verif.c36_partition",
    "Verif.c36_none_iff",
    "Verif.c36_derived"
   ],
   "note": "All suites and PTKs; the model has no panic path here because every step of the code is a checked one."
  },
  {
   "property": "C37",
   "status": "partial",
   "theorems": [
    "Verif.c37_write",
    "Verif.c37_measure",
    "Verif.c37_length_fields",
    "Verif.c37_lengths_partial",
    "Verif.c37_length_wraps",
    "Verif.c37_offsets",
    "Verif.c37_read",
    "Verif.c37_round_trip_partial",
    "Verif.c37_parse",
    "Verif.c37_safe",
    "Verif.c37_errors",
    "Verif.c37_version_ignored",
    "Verif.c37_empty_strict"
   ],
   "note": "Written bytes, field offsets, lengths, measuring, round trip, inversion of accepted input, errors and absence of panics are proved for all frames and inputs. False parts, with witnesses: other protocol versions are accepted (c37_version_ignored), frames without key data are refused under the strict offset rule of scroll (c37_empty_strict), and a body of 65536 bytes or more is written with a wrong length (c37_length_wraps)."
  },
  {
   "property": "C38",
   "status": "proved",
   "theorems": [
    "Verif.c38_write",
    "Verif.c38_ranges",
    "Verif.c38_ranges_written",
    "Verif.c38_no_payload"
   ],
   "note": "For every header, MIC, key data and with or without check sequence: c38_ranges says that writing succeeds with a subtype that has a wire form, c38_ranges_written needs only that it succeeded. The SNAP header comes from the crate llc-rs and is assumed to be its standard eight bytes."
  },
  {
   "property": "C39",
   "status": "partial",
   "theorems": [
    "Verif.c39_serialise",
    "Verif.c39_deserialise",
    "Verif.c39_round_trip_partial",
    "Verif.c39_no_panic_partial",
    "Verif.c39_panics",
    "Verif.c39_round_trip_wrong"
   ],
   "note": "Serialised output given exactly (c39_serialise); deserialising any well-formed protected frame (c39_deserialise); round trip for a zeroed 16-byte MIC field and non-empty encrypted key data, with any key wrap that satisfies unwrap(wrap)=id (c39_round_trip_partial); no panic under EapolSafe (c39_no_panic_partial). The full claim is false: c39_round_trip_wrong and c39_panics are witnesses."
  },
  {
   "property": "C40",
   "status": "partial",
   "theorems": [
    "Verif.c40_accepted",
    "Verif.c40_key_data",
    "Verif.c40_mismatch_partial",
    "Verif.c40_long_mic_panics",
    "Verif.c40_unflagged_accepted",
    "Verif.c40_zero_length_accepted"
   ],
   "note": "Accepted flagged frames have the right MIC (c40_accepted); complete frames with a wrong MIC of up to 20 bytes give the MIC error and nothing else (c40_mismatch_partial), for any HMAC. Violation: with the suites whose MIC has 24 bytes every complete flagged frame panics instead (c40_long_mic_panics). Frames without the flag, and suites with MIC length zero, are accepted unchecked (witnesses)."
  },
  {
   "property": "C41",
   "status": "partial",
   "theorems": [
    "Verif.c41_no_panic_partial",
    "Verif.c41_no_panic_overreporting",
    "Verif.c41_with_fcs",
    "Verif.c41_mesh_peering",
    "Verif.c41_crypto_wrapper",
    "Verif.c41_violations"
   ],
   "note": "Every parser in the inductive list Spec.Parser, plus the two that over-report their length, never panics on any input. False of the code, with witnesses, for the FCS-checking entry points on fewer than four bytes, the mesh peering element over 24 bytes and the crypto wrapper; the exact panicking inputs are characterised."
  },
  {
   "property": "C42",
   "status": "partial",
   "theorems": [
    "Verif.c42_fixed_layout",
    "Verif.c42_raw_element_partial",
    "Verif.c42_raw_element_strict",
    "Verif.c42_eapol_suffix",
    "Verif.c42_eapol_short"
   ],
   "note": "Proved for all fixed-layout parsers, for raw elements (under the lax offset rule both halves, under the strict rule all but the empty last element, whose loss is proved) and for EAPOL-Key suffixes; the converse half is false for EAPOL-Key frames whose declared body length exceeds the contents (witness)."
  },
  {
   "property": "C43",
   "status": "partial",
   "theorems": [
    "Verif.c43_within_input_partial",
    "Verif.c43_with_fcs",
    "Verif.c43_mcs_set",
    "Verif.c43_ht_operation",
    "Verif.c43_subframe_partial",
    "Verif.c43_subframe_wrong"
   ],
   "note": "Proved for every parser in Spec.Parser and for the FCS-checking entry points. False, with witnesses, for the supported MCS set and the HT operation element (which over-report) and for A-MSDU subframes whose padding is cut off."
  },
  {
   "property": "C44",
   "status": "partial",
   "theorems": [
    "Verif.c44_yields",
    "Verif.c44_fixed_items",
    "Verif.c44_fused",
    "Verif.c44_terminates",
    "Verif.c44_empty_items_never_end",
    "Verif.c44_len_partial",
    "Verif.c44_len_finished",
    "Verif.c44_len_bound",
    "Verif.c44_len_wrong"
   ],
   "note": "Yield order, fusion and termination proved for any item reader; the len() clause is violated (c44_len_wrong), c44_len_partial says what it returns."
  },
  {
   "property": "C45",
   "status": "proved",
   "theorems": [
    "Verif.c45_dynamic",
    "Verif.c45_equal",
    "Verif.c45_bodies",
    "Verif.c45_beacon",
    "Verif.c45_into_dynamic"
   ],
   "note": "c45_dynamic: for every frame and element list the step by step program writes the frame bytes with the elements appended and, if asked, the check sequence over all of it, and errs in smaller buffers; c45_equal and c45_bodies: equal to the frame written at once with the chain."
  },
  {
   "property": "C46",
   "status": "partial",
   "theorems": [
    "Verif.c46_indices",
    "Verif.c46_generate_partial",
    "Verif.c46_generate_loses_76",
    "Verif.c46_listing",
    "Verif.c46_range"
   ],
   "note": "Reading proved for all bitmaps; building proved except index 76, which generate_supported_rx_mcs_set loses (c46_generate_loses_76)."
  },
  {
   "property": "C47",
   "status": "partial",
   "theorems": [
    "Verif.c47_round_trip",
    "Verif.c47_rounds_down",
    "Verif.c47_panics_iff",
    "Verif.c47_panics",
    "Verif.c47_wraps",
    "Verif.c47_decode_encode"
   ],
   "note": "Multiples of 500 up to 63500 proved; 'other inputs do not panic' violated exactly as c47_panics_iff says."
  },
  {
   "property": "C48",
   "status": "partial",
   "theorems": [
    "Verif.c48_raw_write",
    "Verif.c48_raw_round_trip",
    "Verif.c48_raw_parse",
    "Verif.c48_raw_measure",
    "Verif.c48_vendor_write",
    "Verif.c48_vendor_round_trip",
    "Verif.c48_vendor_parse",
    "Verif.c48_vendor_errors",
    "Verif.c48_vendor_measure_wrong",
    "Verif.c48_strip",
    "Verif.c48_match_vendor",
    "Verif.c48_match_oui",
    "Verif.c48_match_self_protected",
    "Verif.c48_match_exclusive"
   ],
   "note": "Round trips, exact acceptance, errors, matching and measure of raw bodies. Violation proved: RawVendorSpecificActionBody measures one byte too few (c48_vendor_measure_wrong). The returned offset is that of the payload, not the end."
  },
  {
   "property": "C49",
   "status": "partial",
   "theorems": [
    "Verif.c49_write",
    "Verif.c49_read",
    "Verif.c49_round_trip",
    "Verif.c49_parse",
    "Verif.c49_wrong_fcs",
    "Verif.c49_panics_iff",
    "Verif.c49_from_header",
    "Verif.c49_measure"
   ],
   "note": "Round trip with and without FCS, exact acceptance, damaged FCS refused, measure. Panics exactly when an FCS is expected in fewer than four bytes (c49_panics_iff), which is a violation of totality; the offset returned excludes the payload."
  },
  {
   "property": "C50",
   "status": "proved",
   "theorems": [
    "Verif.c50_pmkid",
    "Verif.c50_pmkid_short",
    "Verif.c50_psk"
   ],
   "note": "For any HMAC and PBKDF2 (parameters); the PSK statement assumes that the pbkdf2 crate computes PBKDF2 of RFC 8018, written out in the specification. generate_pmkid panics for an HMAC with under 16 bytes of output (c50_pmkid_short), which none of the three used has."
  },
  {
   "property": "C51",
   "status": "partial",
   "theorems": [
    "Verif.c51_complete_partial",
    "Verif.c51_computes",
    "Verif.c51_violations"
   ],
   "note": "Violated in all three predicates (c51_violations); c51_computes says exactly what they compute."
  },
  {
   "property": "C52",
   "status": "partial",
   "theorems": [
    "Verif.c52_type_matches",
    "Verif.c52_type_matches_wire",
    "Verif.c52_subtype",
    "Verif.c52_reserved_inconsistent"
   ],
   "note": "Proved for type matching and for every subtype but the reserved value 13, for which the predicates contradict each other (c52_reserved_inconsistent)."
  },
  {
   "property": "C53",
   "status": "partial",
   "theorems": [
    "Verif.c53_exact",
    "Verif.c53_not_key"
   ],
   "note": "Exact recognition of the ethertype is proved for all frames; that only key frames are reported is false (c53_not_key)."
  },
  {
   "property": "C54",
   "status": "partial",
   "theorems": [
    "Verif.c54_write_find",
    "Verif.c54_numbers",
    "Verif.c54_ssid",
    "Verif.c54_mesh_id",
    "Verif.c54_supported_rates",
    "Verif.c54_extended_rates",
    "Verif.c54_dsss",
    "Verif.c54_ibss",
    "Verif.c54_bss_load",
    "Verif.c54_vht_capabilities",
    "Verif.c54_vht_operation",
    "Verif.c54_mesh_configuration",
    "Verif.c54_ht_capabilities",
    "Verif.c54_ht_operation_partial",
    "Verif.c54_tim_partial",
    "Verif.c54_rsn_partial",
    "Verif.c54_mesh_peering",
    "Verif.c54_vendor",
    "Verif.c54_hidden_ssid_strict",
    "Verif.c54_hidden_never_strict",
    "Verif.c54_identifier",
    "Verif.c54_raw_ext_write",
    "Verif.c54_raw_ext_read",
    "Verif.c54_prefix"
   ],
   "note": "Proved for every element type; restricted for HT operation (round trip broken), TIM (dynamic bitmaps), RSN (no PMKIDs); a hidden SSID in last place is not found under the strict reading of scroll (c54_hidden_ssid_strict)."
  },
  {
   "property": "C55",
   "status": "partial",
   "theorems": [
    "Verif.c55_rsn",
    "Verif.c55_rsn_equivalence",
    "Verif.c55_containers",
    "Verif.c55_rsn_lists",
    "Verif.c55_rsn_parsed",
    "Verif.c55_rsn_parsed_parsed",
    "Verif.c55_rsn_round_trip",
    "Verif.c55_rsn_equal_different",
    "Verif.c55_rates",
    "Verif.c55_rates_round_trip",
    "Verif.c55_rates_bytes",
    "Verif.c55_tim",
    "Verif.c55_tim_true",
    "Verif.c55_tim_equal_written",
    "Verif.c55_tim_panics",
    "Verif.c55_tim_round_trip",
    "Verif.c55_tim_measure_wrong"
   ],
   "note": "The comparison is exact, total and an equivalence for all containers (arrays, slices, received bytes), and round trips compare equal. Violated: equal parsed RSN elements may be written differently because bytes behind the last whole PMKID are ignored (c55_rsn_equal_different), equal TIM elements may report different sizes (c55_tim_measure_wrong); an unusable ConstBitmap panics (c55_tim_panics)."
  },
  {
   "property": "C56",
   "status": "partial",
   "theorems": [
    "Verif.c56_errors_distinct",
    "Verif.c56_temporary_buffer",
    "Verif.c56_no_payload",
    "Verif.c56_buffer_short",
    "Verif.c56_wrapped_short",
    "Verif.c56_missing_kek",
    "Verif.c56_temporary_buffer_panics",
    "Verif.c56_missing_kck",
    "Verif.c56_mic_length_panics",
    "Verif.c56_read_header",
    "Verif.c56_read_no_type",
    "Verif.c56_read_type",
    "Verif.c56_read_no_info",
    "Verif.c56_read_akm",
    "Verif.c56_read_missing_kck",
    "Verif.c56_read_mic_short",
    "Verif.c56_read_key_frame",
    "Verif.c56_read_no_length",
    "Verif.c56_read_length_panics",
    "Verif.c56_read_missing_kek",
    "Verif.c56_read_panics",
    "Verif.c56_read_unwrap_wrong",
    "Verif.c56_unwrap_wrong_witness"
   ],
   "note": "Every refusal is proved for all inputs of its kind. The claim that no refusal is a panic and that unwrap failures are not blamed on the buffer is false: c56_temporary_buffer_panics, c56_mic_length_panics, c56_read_no_info, c56_read_length_panics, c56_read_panics and c56_read_unwrap_wrong are the violations."
  },
  {
   "property": "C57",
   "status": "partial",
   "theorems": [
    "Verif.c57_length",
    "Verif.c57_beacon_interval",
    "Verif.c57_timestamp",
    "Verif.c57_ssid_some",
    "Verif.c57_ssid_none",
    "Verif.c57_ssid_total",
    "Verif.c57_beacon_partial"
   ],
   "note": "All accessors are proved for all received bytes. The round trip from name to name assumes that the HT control field agrees with the order bit (C21) and, under the strict offset rule of scroll, that neither the name nor the last element is empty."
  },
  {
   "property": "C58",
   "status": "partial",
   "theorems": [
    "Verif.c58_iterator",
    "Verif.c58_elements",
    "Verif.c58_empty",
    "Verif.c58_payload_read",
    "Verif.c58_payload_write",
    "Verif.c58_subframes_length",
    "Verif.c58_payload_view_partial",
    "Verif.c58_payload_view_strict",
    "Verif.c58_wrapper_object",
    "Verif.c58_default_header",
    "Verif.c58_vht_maps",
    "Verif.c58_multicast",
    "Verif.c58_type_sizes",
    "Verif.c58_subframe_length",
    "Verif.c58_set_payload"
   ],
   "note": "Sizes, rewriting and views of received parts, stated against byte positions of the input. Violated: under the strict offset rule of scroll the empty contents of a frame are not seen, and those of a protected frame make the view panic (c58_payload_view_strict)."
  },
  {
   "property": "C59",
   "status": "proved",
   "theorems": [
    "Verif.c59_burst",
    "Verif.c59_bytes",
    "Verif.c59_attached",
    "Verif.c59_management",
    "Verif.c59_data",
    "Verif.c59_generic"
   ],
   "note": "CRC-32 is the concrete function of Spec/Crc.lean; c59_burst is the algebra, the others carry it to every reader that checks a frame."
  },
  {
   "property": "C60",
   "status": "partial",
   "theorems": [
    "Verif.c60_lawful",
    "Verif.c60_unwrap_iff",
    "Verif.c60_received",
    "Verif.c60_changed",
    "Verif.c60_round_trip_partial",
    "Verif.c60_wrap_eapol",
    "Verif.c60_wrap_eapol_length",
    "Verif.c60_wrap_eapol_injective",
    "Verif.c60_wrap_eapol_refused"
   ],
   "note": "The key wrap law is proved of AES-128/RFC 3394. Violated: wrap_eapol_key_data applies RFC 5649, which every receiver refuses (c60_wrap_eapol_refused, for all keys and all key data over eight bytes; key data of at most eight bytes is not covered). The round trip keeps the conditions of C39."
  },
  {
   "property": "C61",
   "status": "partial",
   "theorems": [
    "Verif.c61_nearest_even",
    "Verif.c61_rate",
    "Verif.c61_rate_exact",
    "Verif.c61_rate_decimal",
    "Verif.c61_rate_too_large",
    "Verif.c61_rate_wraps",
    "Verif.c61_rate_negative",
    "Verif.c61_supported_rates",
    "Verif.c61_extended_supported_rates",
    "Verif.c61_ssid",
    "Verif.c61_frame_type",
    "Verif.c61_ht_sig"
   ],
   "note": "All clauses proved, except that literals of 128 and more compile and wrap around (c61_rate_wraps) and negative ones compile to the rate zero (c61_rate_negative)."
  },
  {
   "property": "C62",
   "status": "partial",
   "theorems": [
    "Verif.c62_aid",
    "Verif.c62_rate",
    "Verif.c62_rate_injective",
    "Verif.c62_pmkid",
    "Verif.c62_pmkid_injective",
    "Verif.c62_pmkid_short_wrong",
    "Verif.c62_pmkid_columns",
    "Verif.c62_tim_bitmap",
    "Verif.c62_tim_element",
    "Verif.c62_tim_format",
    "Verif.c62_tim_format_wrong",
    "Verif.c62_items",
    "Verif.c62_items_total",
    "Verif.c62_vht_map",
    "Verif.c62_vht_range",
    "Verif.c62_vht_map_injective",
    "Verif.c62_aid_format",
    "Verif.c62_pmkid_format",
    "Verif.c62_tim_element_format",
    "Verif.c62_owe",
    "Verif.c62_ssid"
   ],
   "note": "Violated: leading zeros of a PMKID are not shown (c62_pmkid_short_wrong), and a logged bitmap with AIDs is followed by a second, empty list and omits the group traffic (c62_tim_format_wrong, c62_tim_format). The rest is proved. Which AIDs the iterator yields is C16."
  },
  {
   "property": "C63",
   "status": "partial",
   "theorems": [
    "Verif.c63_padded",
    "Verif.c63_not_padding",
    "Verif.c63_lookup",
    "Verif.c63_protected_partial",
    "Verif.c63_message_partial",
    "Verif.c63_group_key_partial",
    "Verif.c63_ssid_wrong"
   ],
   "note": "Proved for chains of any length, for every element kind except SSID (the padding imitates an empty SSID: c63_ssid_wrong). The corollary for message 3 takes RSN elements without PMKIDs (C17). Key lengths other than 16 bytes are outside the crate's own interface, which takes 16-byte keys."
  },
  {
   "property": "C64",
   "status": "partial",
   "theorems": [
    "Verif.c64_feed",
    "Verif.c64_rates",
    "Verif.c64_rsn_lists",
    "Verif.c64_rsn_partial",
    "Verif.c64_rsn_wrong",
    "Verif.c64_tim_received",
    "Verif.c64_tim_static",
    "Verif.c64_tim_macro",
    "Verif.c64_tim_wrong",
    "Verif.c64_tim_const_wrong",
    "Verif.c64_rates_separates",
    "Verif.c64_rsn_separates",
    "Verif.c64_received_list_separates",
    "Verif.c64_tim_separates"
   ],
   "note": "Proved for rates and RSN elements over lists, received TIM elements and maps made by new_static and tim_bitmap!. Received RSN elements only with whole PMKIDs: with left over bytes the code violates the contract (c64_rsn_wrong). TIM bitmaps put together through the public fields of StaticBitmap and ConstBitmap violate it too (c64_tim_wrong, c64_tim_const_wrong)."
  },
  {
   "property": "C65",
   "status": "partial",
   "theorems": [
    "Verif.c65_kind",
    "Verif.c65_not_taken",
    "Verif.c65_mgmt",
    "Verif.c65_arrives",
    "Verif.c65_bodies_partial",
    "Verif.c65_actions_partial",
    "Verif.c65_data",
    "Verif.c65_data_partial"
   ],
   "note": "c65_bodies_partial: the eleven bodies with elements; c65_actions_partial: raw and vendor action frames; c65_data_partial and c65_data: data frames; c65_mgmt and c65_kind: any body. Partial: HT control must agree with the order bit (C21), codes must be canonical, the last element must not be empty under the strict rule. Control frames cannot be arms: they have no parser for whole frames."
  },
  {
   "property": "C66",
   "status": "partial",
   "theorems": [
    "Verif.c66_accepted_partial",
    "Verif.c66_sent_partial",
    "Verif.c66_null_accepted"
   ],
   "note": "c66_sent_partial and c66_accepted_partial for subtypes that carry a payload and the conditions of C39. Violated for the others: c66_null_accepted."
  },
  {
   "property": "C67",
   "status": "proved",
   "theorems": [
    "Verif.c67_fixed_size",
    "Verif.c67_body",
    "Verif.c67_mgmt_header",
    "Verif.c67_mgmt_frame",
    "Verif.c67_data_header",
    "Verif.c67_data_frame",
    "Verif.c67_control",
    "Verif.c67_raw_action",
    "Verif.c67_mesh_peering",
    "Verif.c67_eapol_key",
    "Verif.c67_elements",
    "Verif.c67_owe"
   ],
   "note": "Fixed-size elements, the eleven management bodies, management headers and frames, data headers and frames, control frames, raw action bodies, mesh peering, EAPOL key frames, sequences of elements and OWE transition mode, as equivalences. RSN elements: c17_round_trip_exact, listed under C17."
  },
  {
   "property": "C68",
   "status": "partial",
   "theorems": [
    "Verif.c68_amsdu_partial",
    "Verif.c68_protected_partial",
    "Verif.c68_protected_amsdu_partial",
    "Verif.c68_empty_panics",
    "Verif.c68_built_partial"
   ],
   "note": "All steps are proved for every input that the code handles. Partial because the code violates the rest: key ids other than 0 are lost (c31, stated as an iff), under the strict offset rule asking for the payload of an encrypted frame without content panics (c68_empty_panics), and frames of the builder with QoS, the order flag, a missing fourth address, or a destination named for a frame from the DS are not proper (C29)."
  },
  {
   "property": "C69",
   "status": "partial",
   "theorems": [
    "Verif.c69_mgmt",
    "Verif.c69_mesh_peering_confirm",
    "Verif.c69_association_response",
    "Verif.c69_raw_action",
    "Verif.c69_vendor_action",
    "Verif.c69_data",
    "Verif.c69_control",
    "Verif.c69_eapol",
    "Verif.c69_data_changed",
    "Verif.c69_eapol_version",
    "Verif.c69_mgmt_changed",
    "Verif.c69_aid_changed"
   ],
   "note": "The claim is false of some inputs and the theorems give the exact conditions: the protocol version of a management or data frame is lost (c69_mgmt_changed, c69_data_changed), a management frame of another subtype is accepted and sent under the type's own subtype, the top bits of an association ID are set (c69_aid_changed), bytes after the header of a Null frame are dropped, an EAPOL frame of another version than 2 comes out as version 2 (c69_eapol_version). Elements are carried as bytes (C07 has their own round trip)."
  },
  {
   "property": "C70",
   "status": "partial",
   "theorems": [
    "Verif.c70_only_matching",
    "Verif.c70_only_parsing",
    "Verif.c70_append",
    "Verif.c70_insert",
    "Verif.c70_change",
    "Verif.c70_take",
    "Verif.c70_take_lookup",
    "Verif.c70_agree",
    "Verif.c70_ssid",
    "Verif.c70_following_byte",
    "Verif.c70_cut_silent"
   ],
   "note": "Whether an empty element is seen depends, with the strict offset rule, on whether a byte follows it (c70_following_byte); the theorems carry this as a side condition. A cut-off element is dropped without an error (c70_cut_silent)."
  },
  {
   "property": "C71",
   "status": "partial",
   "theorems": [
    "Verif.c71_swap_swap",
    "Verif.c71_swap_same",
    "Verif.c71_little",
    "Verif.c71_data_header",
    "Verif.c71_sequence_control",
    "Verif.c71_rsn",
    "Verif.c71_mesh_read",
    "Verif.c71_mesh_write",
    "Verif.c71_mesh_confirm",
    "Verif.c71_mesh_close",
    "Verif.c71_data_round_trip",
    "Verif.c71_data_survives",
    "Verif.c71_data_wrong",
    "Verif.c71_rsn_round_trip",
    "Verif.c71_rsn_wrong",
    "Verif.c71_close_same_machine",
    "Verif.c71_confirm_same_machine",
    "Verif.c71_close_other_machine",
    "Verif.c71_close_wrong"
   ],
   "note": "The full statement is false of the code: four places use the machine's own byte order (c71_data_wrong, c71_rsn_wrong, c71_close_other_machine, c71_close_wrong, c71_sequence_control). Proved exactly what a big-endian machine makes of the same bytes, that everything else is the same, and that mesh peering elements round trip on one machine of either kind. That all other accesses name their byte order was established by reading the source, not in Lean."
  },
  {
   "property": "C72",
   "status": "partial",
   "theorems": [
    "Verif.c72_handshake_partial",
    "Verif.c72_wrong_pmk",
    "Verif.c72_no_key_data_strict"
   ],
   "note": "The handshake succeeds for equal PMKs and stops at message 2 for different ones; under the strict offset rule only when messages 1, 2 and 4 carry some key data, without which it is proved never to succeed (violation)."
  },
  {
   "property": "C73",
   "status": "partial",
   "theorems": [
    "Verif.c73_oblivious_partial",
    "Verif.c73_dynamic",
    "Verif.c73_amsdu_leaks",
    "Verif.c73_amsdu_iff",
    "Verif.c73_eapol",
    "Verif.c73_amsdu_witness"
   ],
   "note": "Everything that can be written is oblivious but A-MSDUs, whose padding is old buffer contents (c73_amsdu_leaks, c73_amsdu_iff). EAPOL key data of 65536 bytes or more is left out."
  },
  {
   "property": "C74",
   "status": "partial",
   "theorems": [
    "Verif.c74_fcs",
    "Verif.c74_crypto",
    "Verif.c74_unwrap",
    "Verif.c74_eapol",
    "Verif.c74_mgmt_frame",
    "Verif.c74_rate",
    "Verif.c74_rate_wrong",
    "Verif.c74_rate_macro",
    "Verif.c74_aid",
    "Verif.c74_aid_wrong",
    "Verif.c74_frame_type",
    "Verif.c74_data_frame",
    "Verif.c74_data_frame_wrong",
    "Verif.c74_vht",
    "Verif.c74_vht_keeps",
    "Verif.c74_vht_rebuild",
    "Verif.c74_vht_wrong",
    "Verif.c74_tim",
    "Verif.c74_tim_wrong",
    "Verif.c74_same_partial"
   ],
   "note": "What a debug build returns is proved to be what a release build returns, for every function with an overflow check or a setter whose argument may not fit. The second half fails: from_rate_in_kbps, new_unchecked, with_frame_type (and so data frames), from_vht_mcs_iter and aid_iter go on in a release build with another value, and it is proved which. Assumed: bitfield-struct setters mask their argument when debug assertions are off."
  },
  {
   "property": "C75",
   "status": "partial",
   "theorems": [
    "Verif.c75_result",
    "Verif.c75_error_partial",
    "Verif.c75_changed",
    "Verif.c75_serialise_result",
    "Verif.c75_missing_key_leaks",
    "Verif.c75_failure_damages"
   ],
   "note": "Proved: both transcriptions return the same; every error but one leaves the buffer as it was; on success the exact change. Missing: an error after decryption changes the buffer (c75_failure_damages), and a missing key encryption key leaves the key data in the clear (c75_missing_key_leaks); both are violations."
  },
  {
   "property": "C76",
   "status": "partial",
   "theorems": [
    "Verif.c76_settled",
    "Verif.c76_no_panic_partial",
    "Verif.c76_size",
    "Verif.c76_dynamic",
    "Verif.c76_subtype_panics",
    "Verif.c76_bitmap_panics",
    "Verif.c76_mic_panics",
    "Verif.c76_amsdu_unsettled"
   ],
   "note": "c76_settled and c76_size cover everything the crate writes but for A-MSDUs, for which the negation is proved (c76_amsdu_unsettled). c76_no_panic_partial leaves out subtype numbers above 15, bitmaps reaching beyond their array and payloads with a MIC, for which panics are proved."
  },
  {
   "property": "C77",
   "status": "partial",
   "theorems": [
    "Verif.c77_bytes_partial",
    "Verif.c77_element",
    "Verif.c77_listing_partial",
    "Verif.c77_range_partial",
    "Verif.c77_static_wrong",
    "Verif.c77_static_nobody",
    "Verif.c77_first_missed",
    "Verif.c77_association",
    "Verif.c77_end_to_end_partial",
    "Verif.c77_no_tims"
   ],
   "note": "Proved for TIMs with bytes and from both macros, except that the association ID of the very first bit sent is never read (c77_first_missed). TIMs from new_static: the last byte of the bitmap is outside the element and the bitmap begins at byte 0 whatever N1 says; c77_static_wrong states exactly which stations are told, c77_static_nobody that one station alone is never told."
  },
  {
   "property": "C78",
   "status": "partial",
   "theorems": [
    "Verif.c78_prefix",
    "Verif.c78_wait",
    "Verif.c78_bodies",
    "Verif.c78_fields",
    "Verif.c78_data_header",
    "Verif.c78_data_frame",
    "Verif.c78_mgmt_frame",
    "Verif.c78_frames",
    "Verif.c78_control_other",
    "Verif.c78_raw_element",
    "Verif.c78_vendor_header",
    "Verif.c78_subframe",
    "Verif.c78_eapol_delimited",
    "Verif.c78_eapol_final",
    "Verif.c78_eapol_foreign",
    "Verif.c78_eapol_waits_forever",
    "Verif.c78_generic_cut",
    "Verif.c78_match_cut",
    "Verif.c78_fcs_not_final",
    "Verif.c78_ssid_over_long"
   ],
   "note": "Proved for the thirteen management frame bodies, management, data and control frames without FCS, headers, elements with fixed fields, single elements, A-MSDU subframes and the crypto header; for EAPOL key frames what is invalid stays invalid. Missing because the code violates it: an EAPOL frame announcing too small a length is called too short however many bytes follow, GenericFrame::new and match_frames! call a frame cut below ten bytes invalid, and a name that is too long is called a buffer that is too small. Elements whose length is that of the input (names, rates, TIM, RSN) are always given their exact bytes and are not part of the claim."
  },
  {
   "property": "C79",
   "status": "partial",
   "theorems": [
    "Verif.c79_strip_model",
    "Verif.c79_strip_offset",
    "Verif.c79_strip_moves",
    "Verif.c79_second_oui_missed",
    "Verif.c79_payload_taken_for_header",
    "Verif.c79_copies_partial",
    "Verif.c79_append_model",
    "Verif.c79_append_offset",
    "Verif.c79_append_twice"
   ],
   "note": "Where the two helpers leave the offset and the buffer is proved for all inputs, and that with a copy of the offset for each check the right OUI is found. Violated: a failing check moves the offset by one or four, a failing append leaves the category byte behind and moves the offset by one; proved with witnesses."
  },
  {
   "property": "C80",
   "status": "partial",
   "theorems": [
    "Verif.c80_total",
    "Verif.c80_mic",
    "Verif.c80_window",
    "Verif.c80_lowest_byte",
    "Verif.c80_packet_number_partial",
    "Verif.c80_next_packet",
    "Verif.c80_packet_number_wrong",
    "Verif.c80_version",
    "Verif.c80_replay_counter",
    "Verif.c80_replay_counter_wrong",
    "Verif.c80_payloads"
   ],
   "note": "Total order, MIC states, windows: proved. Packet numbers, key descriptor versions and replay counters: negations proved with the exact condition or a witness."
  },
  {
   "property": "C81",
   "status": "partial",
   "theorems": [
    "Verif.c81_elements",
    "Verif.c81_bodies",
    "Verif.c81_confirm",
    "Verif.c81_actions",
    "Verif.c81_mgmt_header",
    "Verif.c81_data_frame",
    "Verif.c81_owe",
    "Verif.c81_element_bytes",
    "Verif.c81_body_bytes",
    "Verif.c81_data_bytes",
    "Verif.c81_fields_partial",
    "Verif.c81_power_save",
    "Verif.c81_vht_claims",
    "Verif.c81_ht_claims_none",
    "Verif.c81_iterators",
    "Verif.c81_other_iterators",
    "Verif.c81_bitmaps",
    "Verif.c81_bitmap_lost"
   ],
   "note": "proved for elements, headers, action bodies and bodies with elements (the latter and OWE exactly under the lax rule); the code violates it for the default mesh peering confirmation, data frame, bitmap, HT power save and VHT MCS maps (negations proved)"
  },
  {
   "property": "C82",
   "status": "proved",
   "theorems": [
    "Verif.c82_failed_step",
    "Verif.c82_model",
    "Verif.c82_as_if",
    "Verif.c82_exact",
    "Verif.c82_frame"
   ],
   "note": "c82_as_if for all elements of the library and residues; c82_exact and c82_frame give the exact bytes and which calls succeed. That a failing gwrite leaves the offset alone and that a writer touches only the slice it is given is scroll's behaviour, assumed."
  },
  {
   "property": "C83",
   "status": "partial",
   "theorems": [
    "Verif.c83_owe_bytes",
    "Verif.c83_presets_partial",
    "Verif.c83_transition_wrong",
    "Verif.c83_owe_wrong"
   ],
   "note": "Roles and protection proved for five of the six constants as written (c83_presets_partial). Violations: the constant for mixed WPA2 and WPA3 networks requires management frame protection (c83_transition_wrong); OWE holds CCMP as group management suite, sent as soon as a PMKID list is added (c83_owe_wrong)."
  },
  {
   "property": "C84",
   "status": "partial",
   "theorems": [
    "Verif.c84_send",
    "Verif.c84_send_partial",
    "Verif.c84_send_wrong",
    "Verif.c84_wrap_wrong",
    "Verif.c84_receive_partial",
    "Verif.c84_receive_wrong",
    "Verif.c84_scope",
    "Verif.c84_sae_wrong"
   ],
   "note": "Holds for the two suites and the version that have HMAC-SHA-1 and AES key wrap (c84_scope says these are all). For every other entry of the table the MIC sent is wrong and a right one is refused, unless the algorithms agree by chance; with the real AES-CMAC and HMAC-SHA-1 an SAE frame that follows the standard is refused. Key data of version 1 is not encrypted with ARC4."
  },
  {
   "property": "C85",
   "status": "partial",
   "theorems": [
    "Verif.c85_pmkid",
    "Verif.c85_keys",
    "Verif.c85_keys_partial",
    "Verif.c85_scope",
    "Verif.c85_keys_wrong",
    "Verif.c85_sae_wrong",
    "Verif.c85_psk_sha384_lost",
    "Verif.c85_fit_wrong"
   ],
   "note": "Proved for the suites with SHA-1 (802.1X and pre-shared key) and all cipher suites; the PMKID for all three hashes. Violations: the suites with SHA-256 and SHA-384 get the keys of HMAC-SHA-1 (c85_keys_wrong, c85_sae_wrong), suite 20 gets none (c85_psk_sha384_lost), and the keys of the suites with SHA-384 do not fit the EAPOL functions (c85_fit_wrong). That the hmac and sha1 crates compute HMAC-SHA-1 is a hypothesis."
  },
  {
   "property": "C86",
   "status": "partial",
   "theorems": [
    "Verif.c86_handshake_partial",
    "Verif.c86_wrong_key",
    "Verif.c86_schedule_partial",
    "Verif.c86_newest_partial",
    "Verif.c86_once",
    "Verif.c86_authentic",
    "Verif.c86_forged_wrong",
    "Verif.c86_acknowledgement_strict"
   ],
   "note": "Proved for any schedule of deliveries. Violated: a frame without the MIC flag, which anyone can make, is accepted with any group key it holds (c86_forged_wrong), so that the supplicant has to look at the flag itself, as the model of it does; under the strict offset rule an acknowledgement without key data, as the standard has it, is not read (c86_acknowledgement_strict)."
  },
  {
   "property": "C87",
   "status": "partial",
   "theorems": [
    "Verif.c87_read_partial",
    "Verif.c87_unique",
    "Verif.c87_build_partial",
    "Verif.c87_streams_wrong"
   ],
   "note": "All fields but one. Violation: spatial_stream_count, documented as the number of spatial streams, is the STBC field, which is zero for every transmission without space-time coding (c87_streams_wrong)."
  },
  {
   "property": "C88",
   "status": "partial",
   "theorems": [
    "Verif.c88_read",
    "Verif.c88_read_wrong",
    "Verif.c88_traffic_lost",
    "Verif.c88_replay_wrong",
    "Verif.c88_check_partial",
    "Verif.c88_sent_wrong",
    "Verif.c88_own"
   ],
   "note": "The reader and the writer use big-endian order for key_rsc (c88_read_wrong, c88_sent_wrong): after a message that follows the standard, with a packet number whose lower 16 bits are not zero, every group frame counts as a replay (c88_traffic_lost), and old frames can pass (c88_replay_wrong). The statement holds for the packet numbers that read the same in both orders (c88_check_partial), and between two users of the crate the comparison is right (c88_own)."
  },
  {
   "property": "C89",
   "status": "partial",
   "theorems": [
    "Verif.c89_changed_noticed_partial",
    "Verif.c89_unchanged_partial",
    "Verif.c89_bytes_partial",
    "Verif.c89_authentic",
    "Verif.c89_forged_wrong",
    "Verif.c89_added_wrong",
    "Verif.c89_pmkid_wrong"
   ],
   "note": "Positive: whatever beacon was acted on, the supplicant goes on exactly if the element parsed from it has the fields and lists of the access point (c89_changed_noticed_partial), it does so with the access point's own beacon (c89_unchanged_partial), without a PMKID list the accepted element starts with the very bytes of the access point's (c89_bytes_partial), and nothing is accepted without the MIC (c89_authentic). Violated: added bytes (c89_added_wrong), three quarters of a PMKID and the group management cipher suite behind it (c89_pmkid_wrong) are not noticed, and without looking at the MIC flag a forged third message is accepted (c89_forged_wrong)."
  },
  {
   "property": "C90",
   "status": "partial",
   "theorems": [
    "Verif.c90_exact",
    "Verif.c90_key_zero_partial",
    "Verif.c90_in_order_partial",
    "Verif.c90_once",
    "Verif.c90_origin",
    "Verif.c90_key_wrong",
    "Verif.c90_new_key_lost",
    "Verif.c90_receiver_panics"
   ],
   "note": "Exact description of what is taken of any sequence of wrapped frames (c90_exact), equal to the rule of the standard under key 0, and the invariant for arbitrary bytes. The full statement is false: the key is read as 0, so frames under a new key are dropped, and short or unflagged frames panic the receiver (proved)."
  },
  {
   "property": "C91",
   "status": "partial",
   "theorems": [
    "Verif.c91_message_partial",
    "Verif.c91_exact_partial",
    "Verif.c91_agreement_partial",
    "Verif.c91_establishes_partial",
    "Verif.c91_close_partial",
    "Verif.c91_station_panics"
   ],
   "note": "Frames by the crate simulate the protocol exactly (c91_exact_partial); agreement, progress and closing for all sequences of moves. Partial: HT control must agree with the order bit, codes canonical, last element not empty under the strict rule. The full statement is false: an element of more than 24 octets from anyone makes a station panic (c91_station_panics)."
  },
  {
   "property": "C92",
   "status": "partial",
   "theorems": [
    "Verif.c92_heard_partial",
    "Verif.c92_claims_partial",
    "Verif.c92_sent_partial",
    "Verif.c92_join_partial",
    "Verif.c92_feature_wrong",
    "Verif.c92_flag_wrong"
   ],
   "note": "All lists of up to 259 rates are heard as sent; accessors agree with the standard for all octets but membership selectors. The full statement is false: selectors are taken for required rates, so no station joins (c92_feature_wrong), and the flag documented as 802.11b is the basic rate flag (c92_flag_wrong)."
  },
  {
   "property": "C93",
   "status": "partial",
   "theorems": [
    "Verif.c93_piece",
    "Verif.c93_exact",
    "Verif.c93_joined",
    "Verif.c93_sound",
    "Verif.c93_heard",
    "Verif.c93_panics_iff",
    "Verif.c93_built_lost"
   ],
   "note": "Every message arrives once, whole and in order for all sources, patterns of repetition and ways of mixing, and whatever is taken for a message is made of pieces that were heard. Two parts of the statement fail: with check sequences the receiver panics on fewer than four bytes (c93_panics_iff), and the builder can not set sequence or fragment numbers, so a repeated frame it makes is dropped as a copy of another (c93_built_lost). The rules for dropping and joining are a specification; the crate has no code for them."
  },
  {
   "property": "C94",
   "status": "partial",
   "theorems": [
    "Verif.c94_single",
    "Verif.c94_aggregate",
    "Verif.c94_built",
    "Verif.c94_patched",
    "Verif.c94_pass",
    "Verif.c94_route_partial",
    "Verif.c94_taken",
    "Verif.c94_standard_panics",
    "Verif.c94_documented_wrong",
    "Verif.c94_empty_lost"
   ],
   "note": "Proved for ways of any length and for all bytes received. Violations: an A-MSDU made by the standard, without padding after its last subframe, makes the receiver panic (c94_standard_panics); the order of calls in the documentation of the builder gives the access point as source (c94_documented_wrong); under the strict offset rule an empty message gets lost (c94_empty_lost). Messages of 65536 bytes or more are excluded (C30)."
  },
  {
   "property": "C95",
   "status": "partial",
   "theorems": [
    "Verif.c95_answers_partial",
    "Verif.c95_heard_partial",
    "Verif.c95_heard_only",
    "Verif.c95_panics_iff",
    "Verif.c95_scan_partial",
    "Verif.c95_wildcard_lost",
    "Verif.c95_octets_lost",
    "Verif.c95_second_wrong"
   ],
   "note": "Requests are answered and networks found for all UTF-8 names, surrounding elements and other frames; HT control must agree with the order bit (C21), and under the strict rule of scroll names and last elements must not be empty. Arbitrary bytes: c95_heard_only, c95_panics_iff. Violations proved: the wildcard is not understood under the strict rule (c95_wildcard_lost), names that are not UTF-8 are lost (c95_octets_lost) or replaced by a later one (c95_second_wrong)."
  },
  {
   "property": "C96",
   "status": "partial",
   "theorems": [
    "Verif.c96_protect",
    "Verif.c96_unprotect_iff",
    "Verif.c96_changed",
    "Verif.c96_other_key",
    "Verif.c96_code_checked",
    "Verif.c96_one_word",
    "Verif.c96_received",
    "Verif.c96_forged",
    "Verif.c96_sound",
    "Verif.c96_panics_iff",
    "Verif.c96_pieces"
   ],
   "note": "Proved for all keys, messages and changes of one word, single frames and pieces, and arbitrary bytes. Partial because the header must agree with its flags (C27), and because the receiver panics on fewer than four bytes where a check sequence is expected (c96_panics_iff). Encryption is left out; the programs around the crate's functions are part of the specification."
  },
  {
   "property": "C97",
   "status": "partial",
   "theorems": [
    "Verif.c97_heard_partial",
    "Verif.c97_panics_iff",
    "Verif.c97_heard_only",
    "Verif.c97_agree_partial",
    "Verif.c97_joins_partial",
    "Verif.c97_ends_partial",
    "Verif.c97_bare_lost",
    "Verif.c97_nobody_joins_wrong",
    "Verif.c97_leaving_lost",
    "Verif.c97_refusal_lost"
   ],
   "note": "Proved for letters with elements (under the strict rule of scroll) or without (else), and for headers whose HT control agrees with its flag. Letters are not lost on the way: the network is without interference. Violations: letters without elements are not understood under the strict rule (c97_bare_lost, c97_nobody_joins_wrong, c97_leaving_lost), and refusals with a meaningless association ID are not understood at all (c97_refusal_lost)."
  },
  {
   "property": "C98",
   "status": "partial",
   "theorems": [
    "Verif.c98_ack_iff",
    "Verif.c98_ack",
    "Verif.c98_delivered_partial",
    "Verif.c98_all_delivered_partial",
    "Verif.c98_damaged",
    "Verif.c98_short_panics"
   ],
   "note": "Proved for every pattern of losses and all other frames. One part fails: with check sequences both stations panic on fewer than four bytes (c98_short_panics). The crate has no function that writes a whole control frame or gives it a check sequence, so frame control field and check sequence are put together in the specification; frames of the builder can not take part (c93_built_lost). Sending again, acknowledging and joining are a specification."
  },
  {
   "property": "C99",
   "status": "partial",
   "theorems": [
    "Verif.c99_learned_partial",
    "Verif.c99_panics_iff",
    "Verif.c99_leads_partial",
    "Verif.c99_learned_only",
    "Verif.c99_preset_wrong",
    "Verif.c99_preset_lost",
    "Verif.c99_octets_lost",
    "Verif.c99_long_wrong"
   ],
   "note": "Proved for all networks with RSN elements as in C54, names of UTF-8, and any other elements and frames; under the strict rule of scroll with non-empty last elements. Violations: the constant RsnElement::OWE swallows four bytes of the next element (c99_preset_wrong), so a network that uses it is not found (c99_preset_lost); names that are not UTF-8 lose the twin, so that the station stays unencrypted (c99_octets_lost); names longer than 32 bytes are accepted (c99_long_wrong). The station's decisions are a specification."
  },
  {
   "property": "C100",
   "status": "partial",
   "theorems": [
    "Verif.c100_poll_iff",
    "Verif.c100_poll",
    "Verif.c100_answer",
    "Verif.c100_taken",
    "Verif.c100_exact",
    "Verif.c100_conserved",
    "Verif.c100_whole",
    "Verif.c100_delivered_partial",
    "Verif.c100_bitmaps",
    "Verif.c100_standard_lost",
    "Verif.c100_poller_lost"
   ],
   "note": "c100_exact says exactly what happens under every way of making the bitmap: the station of the first bit sent is missed (C16), everything else is as it should be. For bitmaps sent from byte 0 nobody is missed (c100_whole, full statement). With the bitmaps of the standard a station whose number is a multiple of 16 may wait for ever (c100_standard_lost). Nothing is lost, doubled or reordered under any bitmap (c100_conserved). Losses of frames are the matter of C98. The crate has no fields for PS-Poll and transmitter_address does not give its sender (c100_poller_lost)."
  },
  {
   "property": "C101",
   "status": "partial",
   "theorems": [
    "Verif.c101_exact",
    "Verif.c101_understood_partial",
    "Verif.c101_short_wrong",
    "Verif.c101_plans",
    "Verif.c101_heard_partial",
    "Verif.c101_raw_partial",
    "Verif.c101_typed",
    "Verif.c101_typed_item",
    "Verif.c101_twenty_partial",
    "Verif.c101_wide_lost",
    "Verif.c101_panics_iff",
    "Verif.c101_heard_only"
   ],
   "note": "A station that combines the fields of the crate has what the octets say, for all element bytes (c101_exact, where HT operation counts from 20 octets on; c101_understood_partial, c101_short_wrong); all plans can be expressed and are heard (c101_plans, c101_raw_partial, c101_heard_partial). HT operation made with the crate is always heard as 20 MHz (c101_typed), so wider networks are lost (c101_wide_lost)."
  },
  {
   "property": "C102",
   "status": "partial",
   "theorems": [
    "Verif.c102_next",
    "Verif.c102_exact",
    "Verif.c102_beacon_partial",
    "Verif.c102_naps_partial",
    "Verif.c102_zero_wrong",
    "Verif.c102_panics_iff",
    "Verif.c102_heard_only"
   ],
   "note": "All element bytes: the station learns what the octets say (c102_exact, c102_heard_only). Beacons made with the crate lead to exactly the beacons with group traffic (c102_next, c102_beacon_partial, c102_naps_partial). Period 0, reserved by the standard, is written and accepted and makes the station wait for the beacon it has just heard (c102_zero_wrong)."
  },
  {
   "property": "C103",
   "status": "proved",
   "theorems": [
    "Verif.c103_exact",
    "Verif.c103_panics_iff",
    "Verif.c103_poll",
    "Verif.c103_duration_wrong",
    "Verif.c103_exchange",
    "Verif.c103_bystander",
    "Verif.c103_parties"
   ],
   "note": "The stations are written with the functions of the crate; that duration() also answers for PS-Polls, with the association ID, is c103_duration_wrong."
  },
  {
   "property": "C104",
   "status": "partial",
   "theorems": [
    "Verif.c104_times_partial",
    "Verif.c104_agree_partial",
    "Verif.c104_panics_iff",
    "Verif.c104_set_only"
   ],
   "note": "Proved for all runs. Partial because HT control must agree with the order bit (C21), and under the strict rule of scroll names and last elements are not empty (C06)."
  },
  {
   "property": "C105",
   "status": "partial",
   "theorems": [
    "Verif.c105_run_partial",
    "Verif.c105_heard_only"
   ],
   "note": "Proved for all runs and all received bytes. Partial because headers must agree with their flags and payloads with their subtypes (C27, C49)."
  },
  {
   "property": "C106",
   "status": "partial",
   "theorems": [
    "Verif.c106_exact",
    "Verif.c106_offer_partial",
    "Verif.c106_choice_partial",
    "Verif.c106_stations_partial",
    "Verif.c106_octets_lost",
    "Verif.c106_unknown_lost",
    "Verif.c106_second_wrong",
    "Verif.c106_panics_iff",
    "Verif.c106_heard_only"
   ],
   "note": "Proved for all element areas, lists of stations and received bytes. Partial because mesh IDs must be UTF-8 (C10), identifiers canonical (C02) and headers agree with their flags (C21); under the strict rule of scroll the mesh ID and the last element are not empty."
  },
  {
   "property": "C107",
   "status": "partial",
   "theorems": [
    "Verif.c107_none_partial",
    "Verif.c107_own_partial",
    "Verif.c107_standard_wrong",
    "Verif.c107_few_lost",
    "Verif.c107_typed_lost",
    "Verif.c107_panics_iff",
    "Verif.c107_heard_only"
   ],
   "note": "The key is used if the station writes the element as the crate does, in a raw element (c107_own_partial); with the element of the standard only a quarter of the list is seen (c107_standard_wrong, c107_few_lost), and with the typed element nothing (c107_typed_lost)."
  },
  {
   "property": "C108",
   "status": "partial",
   "theorems": [
    "Verif.c108_agree_partial",
    "Verif.c108_required_lost",
    "Verif.c108_station_lost",
    "Verif.c108_capable_wrong",
    "Verif.c108_octets_lost",
    "Verif.c108_panics_iff",
    "Verif.c108_chosen_only",
    "Verif.c108_accepted_only",
    "Verif.c108_preset_lost"
   ],
   "note": "Proved where neither side requires protection, for suites as C17 reads them and HT control as in the frame control field. Where one requires it, the opposite is proved."
  },
  {
   "property": "C109",
   "status": "partial",
   "theorems": [
    "Verif.c109_exact",
    "Verif.c109_choice_partial",
    "Verif.c109_panics_iff",
    "Verif.c109_heard_only",
    "Verif.c109_said"
   ],
   "note": "For all frames with HT control as in the order bit; under the strict rule of scroll, names and last elements are not empty (C21, C06). The reading of elements, the panics and what is taken from received bytes are proved without these limits."
  },
  {
   "property": "C110",
   "status": "partial",
   "theorems": [
    "Verif.c110_exact",
    "Verif.c110_heard_partial",
    "Verif.c110_panics_iff",
    "Verif.c110_heard_only",
    "Verif.c110_said",
    "Verif.c110_built_wrong",
    "Verif.c110_plain_partial"
   ],
   "note": "The choice is exact for all elements; frames need HT control as in the order bit and, under the strict rule of scroll, names and last elements that are not empty. For maps that the crate builds from levels the opposite is proved."
  },
  {
   "property": "C111",
   "status": "partial",
   "theorems": [
    "Verif.c111_packed_partial",
    "Verif.c111_full_partial",
    "Verif.c111_fewest_partial",
    "Verif.c111_measured_wrong",
    "Verif.c111_measured_partial",
    "Verif.c111_exact",
    "Verif.c111_heard_partial",
    "Verif.c111_panics_iff",
    "Verif.c111_heard_only",
    "Verif.c111_said"
   ],
   "note": "The limit is exact for all elements; packing keeps it, fills frames and is the best for all headers of A-MSDUs that agree with their flags and messages that fit the length field. For senders that rely on the crate's measure the opposite is proved, and that without padding they are the same."
  },
  {
   "property": "C112",
   "status": "partial",
   "theorems": [
    "Verif.c112_understood",
    "Verif.c112_exact",
    "Verif.c112_heard_partial",
    "Verif.c112_panics_iff",
    "Verif.c112_heard_only",
    "Verif.c112_built_partial",
    "Verif.c112_last_lost"
   ],
   "note": "The choice and the HT-SIG are exact for all elements; frames need HT control as in the order bit and, under the strict rule of scroll, names and last elements that are not empty. Space-time coding is not used. For sets that the crate builds from flags it is proved that MCS 76 is never used."
  },
  {
   "property": "C113",
   "status": "partial",
   "theorems": [
    "Verif.c113_exact",
    "Verif.c113_heard_partial",
    "Verif.c113_panics_iff",
    "Verif.c113_heard_only",
    "Verif.c113_unprotected",
    "Verif.c113_kept_iff"
   ],
   "note": "Reading is exact for all elements and frames (partial: HT control and the scroll rule); access points that make the element with the crate lose every demand for protection (c113_unprotected, c113_kept_iff)."
  },
  {
   "property": "C114",
   "status": "partial",
   "theorems": [
    "Verif.c114_together",
    "Verif.c114_exact",
    "Verif.c114_heard_partial",
    "Verif.c114_panics_iff",
    "Verif.c114_heard_only",
    "Verif.c114_duration",
    "Verif.c114_duration_partial",
    "Verif.c114_long_lost"
   ],
   "note": "Exact for all elements and frames (partial: HT control and the scroll rule); windows given as durations of 65536 time units or more wrap (c114_long_lost)."
  },
  {
   "property": "C115",
   "status": "partial",
   "theorems": [
    "Verif.c115_exact",
    "Verif.c115_order",
    "Verif.c115_heard_partial",
    "Verif.c115_panics_iff",
    "Verif.c115_heard_only"
   ],
   "note": "Exact for all capabilities and all received bytes; for frames of the crate partial because of HT control and the scroll rule."
  },
  {
   "property": "C116",
   "status": "partial",
   "theorems": [
    "Verif.c116_cut",
    "Verif.c116_fewest",
    "Verif.c116_exact",
    "Verif.c116_item",
    "Verif.c116_apart",
    "Verif.c116_heard_partial",
    "Verif.c116_sent_partial",
    "Verif.c116_panics_iff",
    "Verif.c116_heard_only"
   ],
   "note": "Exact for all elements and all received bytes; for frames of the crate partial because of HT control and the scroll rule."
  },
  {
   "property": "C117",
   "status": "partial",
   "theorems": [
    "Verif.c117_kind",
    "Verif.c117_exact",
    "Verif.c117_one_kind",
    "Verif.c117_heard_partial",
    "Verif.c117_panics_iff",
    "Verif.c117_heard_only"
   ],
   "note": "Exact for all capabilities and all received bytes; for frames of the crate partial because of HT control and the scroll rule."
  },
  {
   "property": "C118",
   "status": "partial",
   "theorems": [
    "Verif.c118_version",
    "Verif.c118_exact",
    "Verif.c118_not_lowered",
    "Verif.c118_heard_partial",
    "Verif.c118_panics_iff",
    "Verif.c118_heard_only"
   ],
   "note": "Exact for all elements and all received bytes; for frames of the crate partial because of HT control and the scroll rule."
  }
 ]
}