import Verif.Basic
/-!
# `/repo/src/common`: enumerations and packed fields
-/
namespace Verif

/-- `ManagementFrameSubtype`, /repo/src/common/subtypes/mgmt.rs:3-19. -/
rust_enum ManagementFrameSubtype : 8 where
  | AssociationRequest => 0b0000
  | AssociationResponse => 0b0001
  | ProbeRequest => 0b0100
  | ProbeResponse => 0b0101
  | Beacon => 0b1000
  | ATIM => 0b1001
  | Disassociation => 0b1010
  | Authentication => 0b1011
  | Deauthentication => 0b1100
  | Action => 0b1101
  | ActionNoACK => 0b1110

/-- `ControlFrameSubtype`, /repo/src/common/subtypes/control.rs:3-24. -/
rust_enum ControlFrameSubtype : 8 where
  | TACK => 0b0011
  | BeamformingReportPoll => 0b0100
  | VHTNDPAnnouncement => 0b0101
  | ControlFrameExtension => 0b0110
  | ControlWrapper => 0b0111
  | BlockAckRequest => 0b1000
  | BlockAck => 0b1001
  | PSPoll => 0b1010
  | RTS => 0b1011
  | CTS => 0b1100
  | Ack => 0b1101
  | CFEnd => 0b1110
  | CFEndAck => 0b1111

/-- `DataFrameCF`, /repo/src/common/subtypes/data.rs:3-14. -/
rust_enum DataFrameCF : 8 where
  | None => 0b00
  | Ack => 0b01
  | Poll => 0b10
  | AckPoll => 0b11

/-- `DataFrameSubtype`, /repo/src/common/subtypes/data.rs:16-38. -/
rust_enum DataFrameSubtype : 8 where
  | Data => 0b0000
  | DataCFAck => 0b0001
  | DataCFPoll => 0b0010
  | DataCFAckCFPoll => 0b0011
  | Null => 0b0100
  | CFAck => 0b0101
  | CFPoll => 0b0110
  | CFAckCFPoll => 0b0111
  | QoSData => 0b1000
  | QoSDataCFAck => 0b1001
  | QoSDataCFPoll => 0b1010
  | QoSDataCFAckCFPoll => 0b1011
  | QoSNull => 0b1100
  | QoSCFPoll => 0b1110
  | QoSCFAckCFPoll => 0b1111

/-- `IEEE80211Reason`, /repo/src/common/reason.rs:3-37. -/
rust_enum IEEE80211Reason : 16 where
  | Unspecified => 1
  | InvalidAuthentication => 2
  | LeavingNetworkDeauth => 3
  | Inactivity => 4
  | NoMoreSTAs => 5
  | InvalidClass2Frame => 6
  | InvalidClass3Frame => 7
  | LeavingNetworkDisassoc => 8
  | MeshPeeringCancelled => 52
  | MeshMaxPeers => 53
  | MeshConfigurationPolicyViolation => 54
  | MeshCloseRcvd => 55
  | MeshMaxRetries => 56
  | MeshConfirmTimeout => 57
  | MeshInvalidGTK => 58
  | MeshInconsistentParameters => 59
  | MeshInvalidSecurityCapability => 60
  | MeshPathErrorNoProxyInformation => 61
  | MeshPathErrorNoForwardingInformation => 62
  | MeshPathErrorDestinationUnreachable => 63
  | MacAddressAlreadyExistsInMBSS => 64
  | MeshChannelSwitchRegulatoryRequirements => 65
  | MeshChannelSwitchUnspecified => 66
  | TransmissionLinkEstablishmentFailed => 67
  | AlternativeChannelOccupied => 68

/-- `IEEE80211StatusCode`, /repo/src/common/status_code.rs:3-122. -/
rust_enum IEEE80211StatusCode : 16 where
  | Success => 0
  | RefusedReasonUnspec => 1
  | TdlsRejectedAlternativeProvided => 2
  | TdlsRejected => 3
  | SecurityDisabled => 5
  | UnacceptableLifetime => 6
  | NotInSameBss => 7
  | RefusedCapabilitiesMismatch => 10
  | DeniedNoAssociationExists => 11
  | DeniedOtherReason => 12
  | UnsupportedAuthAlgorithm => 13
  | TransactionSequenceError => 14
  | ChallengeFailure => 15
  | RejectedSequenceTimeout => 16
  | DeniedNoMoreStas => 17
  | RefusedBasicRatesMismatch => 18
  | DeniedNoShortPreambleSupport => 19
  | RejectedSpectrumManagementRequired => 22
  | RejectedBadPowerCapability => 23
  | RejectedBadSupportedChannels => 24
  | DeniedNoShortSlotTimeSupport => 25
  | DeniedNoHtSupport => 27
  | R0khUnreachable => 28
  | RefusedTemporarily => 30
  | RobustManagementPolicyViolation => 31
  | UnspecifiedQosFailure => 32
  | DeniedInsufficientBandwidth => 33
  | DeniedPoorChannelConditions => 34
  | DeniedQosNotSupported => 35
  | RequestDeclined => 37
  | InvalidParameters => 38
  | RejectedWithSuggestedChanges => 39
  | StatusInvalidElement => 40
  | StatusInvalidGroupCipher => 41
  | StatusInvalidPairwiseCipher => 42
  | StatusInvalidAkmp => 43
  | UnsupportedRsneVersion => 44
  | InvalidRsneCapabilities => 45
  | StatusCipherOutOfPolicy => 46
  | RejectedForDelayPeriod => 47
  | NotPresent => 49
  | NotQosSta => 50
  | DeniedListenIntervalTooLarge => 51
  | StatusInvalidFtActionFrameCount => 52
  | StatusInvalidPmkid => 53
  | StatusInvalidMde => 54
  | StatusInvalidFte => 55
  | RequestedTclasNotSupported => 56
  | InsufficientTclasProcessingResources => 57
  | TryAnotherBss => 58
  | GasAdvertisementProtocolNotSupported => 59
  | NoOutstandingGasRequest => 60
  | GasResponseNotReceivedFrom => 61
  | GasQueryTimeout => 62
  | GasQueryResponseToo => 63
  | RejectedHomeWithSuggestedChanges => 64
  | ServerUnreachable => 65
  | RejectedForSspPermissions => 67
  | RefusedUnauthenticatedAccessNotSupported => 68
  | InvalidRsne => 72
  | UApsdCoexistenceNotSupported => 73
  | UApsdCoexModeNotSupported => 74
  | BadIntervalWithUApsdCoex => 75
  | AntiCloggingTokenRequired => 76
  | UnsupportedFiniteCyclicGroup => 77
  | CannotFindAlternativeTbtt => 78
  | TransmissionFailure => 79
  | RequestedTclasNotSupported2 => 80
  | TclasResourcesExhausted => 81
  | RejectedWithSuggestedBssTransition => 82
  | RejectWithSchedule => 83
  | RejectNoWakeupSpecified => 84
  | SuccessPowerSaveMode => 85
  | PendingAdmittingFstSession => 86
  | PerformingFstNow => 87
  | PendingGapInBaWindow => 88
  | RejectUpidSetting => 89
  | RefusedExternalReason => 92
  | RefusedApOutOfMemory => 93
  | RejectedEmergencyServicesNotSupported => 94
  | QueryResponseOutstanding => 95
  | RejectDseBand => 96
  | TclasProcessingTerminated => 97
  | TsScheduleConflict => 98
  | DeniedWithSuggestedBandAndChannel => 99
  | MccaopReservationConflict => 100
  | MafLimitExceeded => 101
  | MccaTrackLimitExceeded => 102
  | DeniedDueToSpectrumManagement => 103
  | DeniedVhtNotSupported => 104
  | Enablement => 105
  | Restriction => 106
  | Authorization => 107
  | EnergyLimitedOperationNotSupported => 108
  | RejectedNdpBlockAckSuggested => 109
  | RejectedMaxAwayDurationUnacceptable => 110
  | FlowControlOperationSupported => 111
  | FilsAuthenticationFailure => 112
  | UnknownAuthenticationServer => 113
  | DeniedNotificationPeriodAllocation => 116
  | DeniedChannelSplitting => 117
  | DeniedAllocation => 118
  | CmmgFeaturesNotSupported => 119
  | GasFragmentNotAvailable => 120
  | SuccessCagVersionsMatch => 121
  | GlkNotAuthorized => 122
  | UnknownPasswordIdentifier => 123
  | DeniedLocalMacAddressPolicyViolation => 125
  | SaeHashToElement => 126
  | TclasProcessingTerminatedInsufficientQos => 128
  | TclasProcessingTerminatedPolicyConflict => 129

/-- `IEEE80211AuthenticationAlgorithmNumber`, /repo/src/common/auth_algo_num.rs:3-18. -/
rust_enum IEEE80211AuthenticationAlgorithmNumber : 16 where
  | OpenSystem => 0
  | SharedKey => 1
  | FastBSSTransition => 2
  | SimultaneousAuthenticationOfEquals => 3
  | FILSSharedKeyAuthenticationWithout => 4
  | FILSSharedKeyAuthenticationWith => 5
  | FILSPublicKeyAuthentication => 6
  | VendorSpecificUse => 0xffff

/-- `FCFFlags`, /repo/src/common/mod.rs:98-117. -/
bitfield FCFFlags : 8 where
  | to_ds : 1
  | from_ds : 1
  | more_fragments : 1
  | retry : 1
  | pwr_mgmt : 1
  | more_data : 1
  | protected_ : 1
  | order : 1

/-- `FrameControlField`, /repo/src/common/mod.rs:118-128. -/
bitfield FrameControlField : 16 where
  | version : 2
  | frame_type : 6
  | flags : 8

/-- `SequenceControl`, /repo/src/common/mod.rs:129-137. -/
bitfield SequenceControl : 16 where
  | fragment_number : 4
  | sequence_number : 12

/-- `CapabilitiesInformation`, /repo/src/common/capabilities.rs:3-23. -/
bitfield CapabilitiesInformation : 16 where
  | is_ess : 1
  | is_ibss : 1
  | pad1 : 2
  | is_confidentiality_required : 1
  | is_short_preamble_allowed : 1
  | pad2 : 2
  | is_spectrum_management_implemented : 1
  | is_qos_implemented : 1
  | is_short_time_slot_in_use : 1
  | is_auto_power_save_implemented : 1
  | is_radio_measurement_implemented : 1
  | is_epd_implemented : 1
  | pad3 : 2

/-- `HtSig`, /repo/src/common/sig.rs:3-32. -/
bitfield HtSig : 32 where
  | mcs : 7
  | is_40mhz : 1
  | ht_length : 16
  | smoothing_recommended : 1
  | not_sounding : 1
  | reserved : 1
  | is_ampdu : 1
  | spatial_stream_count : 2
  | is_ldpc : 1
  | short_gi : 1

/-- `AssociationID`, /repo/src/common/aid.rs:5-17. -/
bitfield AssociationID : 16 where
  | internal_aid : 14
  | padding : 2

end Verif
