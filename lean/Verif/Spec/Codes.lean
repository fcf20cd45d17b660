import Verif.Spec.Basic
import Verif.Model.CommonTypes
import Verif.Model.ElementTypes
/-!
# Code tables of the standard

Number and name of each code, from the tables of IEEE 802.11-2020 (and 802.1X for
the key descriptor version), restricted to the codes the library names.
-/
namespace Verif.Spec

/-- Codes of `ManagementFrameSubtype`. -/
def codesManagementFrameSubtype : List (Nat × ManagementFrameSubtype) := [
  (0, .AssociationRequest),
  (1, .AssociationResponse),
  (4, .ProbeRequest),
  (5, .ProbeResponse),
  (8, .Beacon),
  (9, .ATIM),
  (10, .Disassociation),
  (11, .Authentication),
  (12, .Deauthentication),
  (13, .Action),
  (14, .ActionNoACK)]

/-- Codes of `ControlFrameSubtype`. -/
def codesControlFrameSubtype : List (Nat × ControlFrameSubtype) := [
  (3, .TACK),
  (4, .BeamformingReportPoll),
  (5, .VHTNDPAnnouncement),
  (6, .ControlFrameExtension),
  (7, .ControlWrapper),
  (8, .BlockAckRequest),
  (9, .BlockAck),
  (10, .PSPoll),
  (11, .RTS),
  (12, .CTS),
  (13, .Ack),
  (14, .CFEnd),
  (15, .CFEndAck)]

/-- Codes of `DataFrameCF`. -/
def codesDataFrameCF : List (Nat × DataFrameCF) := [
  (0, .None),
  (1, .Ack),
  (2, .Poll),
  (3, .AckPoll)]

/-- Codes of `DataFrameSubtype`. -/
def codesDataFrameSubtype : List (Nat × DataFrameSubtype) := [
  (0, .Data),
  (1, .DataCFAck),
  (2, .DataCFPoll),
  (3, .DataCFAckCFPoll),
  (4, .Null),
  (5, .CFAck),
  (6, .CFPoll),
  (7, .CFAckCFPoll),
  (8, .QoSData),
  (9, .QoSDataCFAck),
  (10, .QoSDataCFPoll),
  (11, .QoSDataCFAckCFPoll),
  (12, .QoSNull),
  (14, .QoSCFPoll),
  (15, .QoSCFAckCFPoll)]

/-- Codes of `IEEE80211Reason`. -/
def codesIEEE80211Reason : List (Nat × IEEE80211Reason) := [
  (1, .Unspecified),
  (2, .InvalidAuthentication),
  (3, .LeavingNetworkDeauth),
  (4, .Inactivity),
  (5, .NoMoreSTAs),
  (6, .InvalidClass2Frame),
  (7, .InvalidClass3Frame),
  (8, .LeavingNetworkDisassoc),
  (52, .MeshPeeringCancelled),
  (53, .MeshMaxPeers),
  (54, .MeshConfigurationPolicyViolation),
  (55, .MeshCloseRcvd),
  (56, .MeshMaxRetries),
  (57, .MeshConfirmTimeout),
  (58, .MeshInvalidGTK),
  (59, .MeshInconsistentParameters),
  (60, .MeshInvalidSecurityCapability),
  (61, .MeshPathErrorNoProxyInformation),
  (62, .MeshPathErrorNoForwardingInformation),
  (63, .MeshPathErrorDestinationUnreachable),
  (64, .MacAddressAlreadyExistsInMBSS),
  (65, .MeshChannelSwitchRegulatoryRequirements),
  (66, .MeshChannelSwitchUnspecified),
  (67, .TransmissionLinkEstablishmentFailed),
  (68, .AlternativeChannelOccupied)]

/-- Codes of `IEEE80211StatusCode`. -/
def codesIEEE80211StatusCode : List (Nat × IEEE80211StatusCode) := [
  (0, .Success),
  (1, .RefusedReasonUnspec),
  (2, .TdlsRejectedAlternativeProvided),
  (3, .TdlsRejected),
  (5, .SecurityDisabled),
  (6, .UnacceptableLifetime),
  (7, .NotInSameBss),
  (10, .RefusedCapabilitiesMismatch),
  (11, .DeniedNoAssociationExists),
  (12, .DeniedOtherReason),
  (13, .UnsupportedAuthAlgorithm),
  (14, .TransactionSequenceError),
  (15, .ChallengeFailure),
  (16, .RejectedSequenceTimeout),
  (17, .DeniedNoMoreStas),
  (18, .RefusedBasicRatesMismatch),
  (19, .DeniedNoShortPreambleSupport),
  (22, .RejectedSpectrumManagementRequired),
  (23, .RejectedBadPowerCapability),
  (24, .RejectedBadSupportedChannels),
  (25, .DeniedNoShortSlotTimeSupport),
  (27, .DeniedNoHtSupport),
  (28, .R0khUnreachable),
  (30, .RefusedTemporarily),
  (31, .RobustManagementPolicyViolation),
  (32, .UnspecifiedQosFailure),
  (33, .DeniedInsufficientBandwidth),
  (34, .DeniedPoorChannelConditions),
  (35, .DeniedQosNotSupported),
  (37, .RequestDeclined),
  (38, .InvalidParameters),
  (39, .RejectedWithSuggestedChanges),
  (40, .StatusInvalidElement),
  (41, .StatusInvalidGroupCipher),
  (42, .StatusInvalidPairwiseCipher),
  (43, .StatusInvalidAkmp),
  (44, .UnsupportedRsneVersion),
  (45, .InvalidRsneCapabilities),
  (46, .StatusCipherOutOfPolicy),
  (47, .RejectedForDelayPeriod),
  (49, .NotPresent),
  (50, .NotQosSta),
  (51, .DeniedListenIntervalTooLarge),
  (52, .StatusInvalidFtActionFrameCount),
  (53, .StatusInvalidPmkid),
  (54, .StatusInvalidMde),
  (55, .StatusInvalidFte),
  (56, .RequestedTclasNotSupported),
  (57, .InsufficientTclasProcessingResources),
  (58, .TryAnotherBss),
  (59, .GasAdvertisementProtocolNotSupported),
  (60, .NoOutstandingGasRequest),
  (61, .GasResponseNotReceivedFrom),
  (62, .GasQueryTimeout),
  (63, .GasQueryResponseToo),
  (64, .RejectedHomeWithSuggestedChanges),
  (65, .ServerUnreachable),
  (67, .RejectedForSspPermissions),
  (68, .RefusedUnauthenticatedAccessNotSupported),
  (72, .InvalidRsne),
  (73, .UApsdCoexistenceNotSupported),
  (74, .UApsdCoexModeNotSupported),
  (75, .BadIntervalWithUApsdCoex),
  (76, .AntiCloggingTokenRequired),
  (77, .UnsupportedFiniteCyclicGroup),
  (78, .CannotFindAlternativeTbtt),
  (79, .TransmissionFailure),
  (80, .RequestedTclasNotSupported2),
  (81, .TclasResourcesExhausted),
  (82, .RejectedWithSuggestedBssTransition),
  (83, .RejectWithSchedule),
  (84, .RejectNoWakeupSpecified),
  (85, .SuccessPowerSaveMode),
  (86, .PendingAdmittingFstSession),
  (87, .PerformingFstNow),
  (88, .PendingGapInBaWindow),
  (89, .RejectUpidSetting),
  (92, .RefusedExternalReason),
  (93, .RefusedApOutOfMemory),
  (94, .RejectedEmergencyServicesNotSupported),
  (95, .QueryResponseOutstanding),
  (96, .RejectDseBand),
  (97, .TclasProcessingTerminated),
  (98, .TsScheduleConflict),
  (99, .DeniedWithSuggestedBandAndChannel),
  (100, .MccaopReservationConflict),
  (101, .MafLimitExceeded),
  (102, .MccaTrackLimitExceeded),
  (103, .DeniedDueToSpectrumManagement),
  (104, .DeniedVhtNotSupported),
  (105, .Enablement),
  (106, .Restriction),
  (107, .Authorization),
  (108, .EnergyLimitedOperationNotSupported),
  (109, .RejectedNdpBlockAckSuggested),
  (110, .RejectedMaxAwayDurationUnacceptable),
  (111, .FlowControlOperationSupported),
  (112, .FilsAuthenticationFailure),
  (113, .UnknownAuthenticationServer),
  (116, .DeniedNotificationPeriodAllocation),
  (117, .DeniedChannelSplitting),
  (118, .DeniedAllocation),
  (119, .CmmgFeaturesNotSupported),
  (120, .GasFragmentNotAvailable),
  (121, .SuccessCagVersionsMatch),
  (122, .GlkNotAuthorized),
  (123, .UnknownPasswordIdentifier),
  (125, .DeniedLocalMacAddressPolicyViolation),
  (126, .SaeHashToElement),
  (128, .TclasProcessingTerminatedInsufficientQos),
  (129, .TclasProcessingTerminatedPolicyConflict)]

/-- Codes of `IEEE80211AuthenticationAlgorithmNumber`. -/
def codesIEEE80211AuthenticationAlgorithmNumber : List (Nat × IEEE80211AuthenticationAlgorithmNumber) := [
  (0, .OpenSystem),
  (1, .SharedKey),
  (2, .FastBSSTransition),
  (3, .SimultaneousAuthenticationOfEquals),
  (4, .FILSSharedKeyAuthenticationWithout),
  (5, .FILSSharedKeyAuthenticationWith),
  (6, .FILSPublicKeyAuthentication),
  (65535, .VendorSpecificUse)]

/-- Codes of `SmPwSave`. -/
def codesSmPwSave : List (Nat × SmPwSave) := [
  (0, .Static),
  (1, .Dynamic),
  (2, .Reserved),
  (3, .Disabled)]

/-- Codes of `MAXAMpduLength`. -/
def codesMAXAMpduLength : List (Nat × MAXAMpduLength) := [
  (0, .Small),
  (1, .Medium),
  (2, .Large),
  (3, .VeryLarge)]

/-- Codes of `MpduDensity`. -/
def codesMpduDensity : List (Nat × MpduDensity) := [
  (0, .NoRestriction),
  (1, .Quarter),
  (2, .Half),
  (3, .One),
  (4, .Two),
  (5, .Four),
  (6, .Eight),
  (7, .Sixteen)]

/-- Codes of `BeamformingCalibration`. -/
def codesBeamformingCalibration : List (Nat × BeamformingCalibration) := [
  (0, .NotSupported),
  (1, .CanRespondButCantInitiate),
  (2, .Reserved),
  (3, .CanRespondAndInitiate)]

/-- Codes of `BeamformingFeedback`. -/
def codesBeamformingFeedback : List (Nat × BeamformingFeedback) := [
  (0, .NotSupported),
  (1, .DelayedFeedback),
  (2, .ImmediateFeedback),
  (3, .DelayedAndImmediateFeedback)]

/-- Codes of `GroupingCapability`. -/
def codesGroupingCapability : List (Nat × GroupingCapability) := [
  (0, .NoGrouping),
  (1, .GroupsOfTwo),
  (2, .GroupsOfFour),
  (3, .GroupsOfTwoAndFour)]

/-- Codes of `SecondaryChannelOffset`. -/
def codesSecondaryChannelOffset : List (Nat × SecondaryChannelOffset) := [
  (0, .NotPresent),
  (1, .Above),
  (2, .Reserved),
  (3, .Below)]

/-- Codes of `HTProtectionMode`. -/
def codesHTProtectionMode : List (Nat × HTProtectionMode) := [
  (0, .None),
  (1, .NonMember),
  (2, .TwentyMHz),
  (3, .NonHTMixed)]

/-- Codes of `VHTMCSSupport`. -/
def codesVHTMCSSupport : List (Nat × VHTMCSSupport) := [
  (0, .ZeroToSeven),
  (1, .ZeroToEight),
  (2, .ZeroToNine),
  (3, .NotSupported)]

/-- Codes of `ChannelWidth`. -/
def codesChannelWidth : List (Nat × ChannelWidth) := [
  (0, .TwentyOrFourtyMHz),
  (1, .EightyOneSixtyOrEightyPlusEightyMhz),
  (2, .OneSixtyMHz),
  (3, .NonContiguousEightyPlusEightyMHz)]

/-- Codes of `MeshConfigurationActivePathSelectionProtocolIdentifier`. -/
def codesMeshConfigurationActivePathSelectionProtocolIdentifier : List (Nat × MeshConfigurationActivePathSelectionProtocolIdentifier) := [
  (1, .HWMP),
  (255, .VendorSpecific)]

/-- Codes of `MeshConfigurationActivePathSelectionMetricIdentifier`. -/
def codesMeshConfigurationActivePathSelectionMetricIdentifier : List (Nat × MeshConfigurationActivePathSelectionMetricIdentifier) := [
  (1, .AirtimeLinkMetric),
  (2, .HighPHYRateAirtimeLinkMetric),
  (255, .VendorSpecific)]

/-- Codes of `MeshConfigurationCongestionControlModeIdentifier`. -/
def codesMeshConfigurationCongestionControlModeIdentifier : List (Nat × MeshConfigurationCongestionControlModeIdentifier) := [
  (0, .NotActivated),
  (1, .SignalingProtocol),
  (255, .VendorSpecific)]

/-- Codes of `MeshConfigurationSynchronizationMethodIdentifier`. -/
def codesMeshConfigurationSynchronizationMethodIdentifier : List (Nat × MeshConfigurationSynchronizationMethodIdentifier) := [
  (1, .NeighborOffsetSynchronization),
  (255, .VendorSpecific)]

/-- Codes of `MeshConfigurationAuthenticationProtocolIdentifier`. -/
def codesMeshConfigurationAuthenticationProtocolIdentifier : List (Nat × MeshConfigurationAuthenticationProtocolIdentifier) := [
  (0, .NoAuthentication),
  (1, .SAE),
  (2, .IEEE80211XAuthentication),
  (255, .VendorSpecific)]

/-- Codes of `MeshPeeringProtocolIdentifier`. -/
def codesMeshPeeringProtocolIdentifier : List (Nat × MeshPeeringProtocolIdentifier) := [
  (0, .MeshPeeringManagementProtocol),
  (1, .AuthenticatedMeshPeeringExchangeProtocol),
  (255, .VendorSpecific)]

/-- Codes of `CategoryCode`. -/
def codesCategoryCode : List (Nat × CategoryCode) := [
  (13, .Mesh),
  (14, .Multihop),
  (15, .SelfProtected),
  (127, .VendorSpecific)]

/-- Codes of `SelfProtectedActionCode`. -/
def codesSelfProtectedActionCode : List (Nat × SelfProtectedActionCode) := [
  (1, .MeshPeeringOpen),
  (2, .MeshPeeringConfirm),
  (3, .MeshPeeringClose),
  (4, .MeshGroupKeyInform),
  (5, .MeshGroupKeyAcknowledge)]

/-- Codes of `KeyDescriptorVersion`. -/
def codesKeyDescriptorVersion : List (Nat × KeyDescriptorVersion) := [
  (1, .Rc4HmacMd5),
  (2, .AesHmacSha1),
  (3, .AesCmac)]

end Verif.Spec
