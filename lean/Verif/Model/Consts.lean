/-
Exported constants and names of the library. Written by tools/gen_consts.py from /repo: every block of constants is the
list of its identifiers and values in the order of the source, blanks left out, `iota` evaluated; every name table is the
list of its entries. The types of the constants (uint8 or uint16) are not carried; the values fit.
-/
namespace Verif.Consts

/-- gtpv0/constants.go:8-32 -/
def v0Causes : List (String × Nat) := [
  ("CauseRequestIMSI", 0), ("CauseRequestIMEI", 1), ("CauseRequestIMSIandIMEI", 2), ("CauseNoIdentityNeeded", 3),
  ("CauseRequestAccepted", 128), ("CauseNonExistent", 192), ("CauseInvalidMessageFormat", 193), ("CauseIMSINotKnown", 194),
  ("CauseMSIsGPRSDetached", 195), ("CauseMSIsNotGPRSResponding", 196), ("CauseMSRefuses", 197),
  ("CauseVersionNotSupported", 198), ("CauseNoResourcesAvailable", 199), ("CauseServiceNotSupported", 200),
  ("CauseMandatoryIEIncorrect", 201), ("CauseMandatoryIEMissing", 202), ("CauseOptionalIEIncorrect", 203),
  ("CauseSystemFailure", 204), ("CauseRoamingRestriction", 205), ("CausePTMSISignatureMismatch", 206),
  ("CauseGPRSConnectionSuspended", 207), ("CauseAuthenticationFailure", 208), ("CauseUserAuthenticationFailed", 209)]

/-- gtpv0/constants.go:35-38 -/
def v0PDPTypes : List (String × Nat) := [
  ("PDPTypeETSI", 240), ("PDPTypeIETF", 241)]

/-- gtpv0/constants.go:41-45 -/
def v0SelectionModes : List (String × Nat) := [
  ("SelectionModeMSorNetworkProvidedAPNSubscribedVerified", 240), ("SelectionModeMSProvidedAPNSubscriptionNotVerified", 241),
  ("SelectionModeNetworkProvidedAPNSubscriptionNotVerified", 242)]

/-- gtpv0/ie/ie.go:16-35 -/
def v0TV : List (String × Nat) := [
  ("Cause", 1), ("IMSI", 2), ("RouteingAreaIdentity", 3), ("TemporaryLogicalLinkIdentity", 4), ("PacketTMSI", 5),
  ("QualityOfServiceProfile", 6), ("ReorderingRequired", 8), ("AuthenticationTriplet", 9), ("MAPCause", 11),
  ("PTMSISignature", 12), ("MSValidated", 13), ("Recovery", 14), ("SelectionMode", 15), ("FlowLabelDataI", 16),
  ("FlowLabelSignalling", 17), ("FlowLabelDataII", 18), ("MSNotReachableReason", 19), ("ChargingID", 127)]

/-- gtpv0/ie/ie.go:38-48 -/
def v0TLV : List (String × Nat) := [
  ("EndUserAddress", 128), ("MMContext", 129), ("PDPContext", 130), ("AccessPointName", 131),
  ("ProtocolConfigurationOptions", 132), ("GSNAddress", 133), ("MSISDN", 134), ("ChargingGatewayAddress", 251),
  ("PrivateExtension", 255)]

/-- gtpv0/message/message.go:19-76 -/
def v0Messages : List (String × Nat) := [
  ("MsgTypeEchoRequest", 1), ("MsgTypeEchoResponse", 2), ("MsgTypeVersionNotSupported", 3), ("MsgTypeNodeAliveRequest", 4),
  ("MsgTypeNodeAliveResponse", 5), ("MsgTypeRedirectionRequest", 6), ("MsgTypeRedirectionResponse", 7),
  ("MsgTypeCreatePDPContextRequest", 16), ("MsgTypeCreatePDPContextResponse", 17), ("MsgTypeUpdatePDPContextRequest", 18),
  ("MsgTypeUpdatePDPContextResponse", 19), ("MsgTypeDeletePDPContextRequest", 20), ("MsgTypeDeletePDPContextResponse", 21),
  ("MsgTypeCreateAAPDPContextRequest", 22), ("MsgTypeCreateAAPDPContextResponse", 23),
  ("MsgTypeDeleteAAPDPContextRequest", 24), ("MsgTypeDeleteAAPDPContextResponse", 25), ("MsgTypeErrorIndication", 26),
  ("MsgTypePDUNotificationRequest", 27), ("MsgTypePDUNotificationResponse", 28), ("MsgTypePDUNotificationRejectRequest", 29),
  ("MsgTypePDUNotificationRejectResponse", 30), ("MsgTypeSendRouteingInformationforGPRSRequest", 32),
  ("MsgTypeSendRouteingInformationforGPRSResponse", 33), ("MsgTypeFailureReportRequest", 34),
  ("MsgTypeFailureReportResponse", 35), ("MsgTypeNoteMSGPRSPresentRequest", 36), ("MsgTypeNoteMSGPRSPresentResponse", 37),
  ("MsgTypeIdentificationRequest", 48), ("MsgTypeIdentificationResponse", 49), ("MsgTypeSGSNContextRequest", 50),
  ("MsgTypeSGSNContextResponse", 51), ("MsgTypeSGSNContextAcknowledge", 52), ("MsgTypeDataRecordTransferRequest", 240),
  ("MsgTypeDataRecordTransferResponse", 241), ("MsgTypeTPDU", 255)]

/-- gtpv1/constants.go:14-26 -/
def v1ReqCauses : List (String × Nat) := [
  ("ReqCauseRequestIMSI", 0), ("ReqCauseRequestIMEI", 1), ("ReqCauseRequestIMSIAndIMEI", 2), ("ReqCauseNoIdentityNeeded", 3),
  ("ReqCauseMSRefuses", 4), ("ReqCauseMSIsNotGPRSResponding", 5), ("ReqCauseReactivationRequested", 6),
  ("ReqCausePDPAddressInactivityTimerExpires", 7), ("ReqCauseNetworkFailure", 8), ("ReqCauseQoSParameterMismatch", 9)]

/-- gtpv1/constants.go:29-34 -/
def v1Acceptance : List (String × Nat) := [
  ("ResCauseRequestAccepted", 128), ("ResCauseNewPDPTypeDueToNetworkPreference", 129),
  ("ResCauseNewPDPTypeDueToSingleAddressBearerOnly", 130)]

/-- gtpv1/constants.go:37-81 -/
def v1Rejection : List (String × Nat) := [
  ("ResCauseNonExistent", 192), ("ResCauseInvalidMessageFormat", 193), ("ResCauseIMSIIMEINotKnown", 194),
  ("ResCauseMSIsGPRSDetached", 195), ("ResCauseMSIsNotGPRSResponding", 196), ("ResCauseMSRefuses", 197),
  ("ResCauseVersionNotSupported", 198), ("ResCauseNoResourcesAvailable", 199), ("ResCauseServiceNotSupported", 200),
  ("ResCauseMandatoryIEIncorrect", 201), ("ResCauseMandatoryIEMissing", 202), ("ResCauseOptionalIEIncorrect", 203),
  ("ResCauseSystemFailure", 204), ("ResCauseRoamingRestriction", 205), ("ResCausePTMSISignatureMismatch", 206),
  ("ResCauseGPRSConnectionSuspended", 207), ("ResCauseAuthenticationFailure", 208),
  ("ResCauseUserAuthenticationFailed", 209), ("ResCauseContextNotFound", 210),
  ("ResCauseAllDynamicPDPAddressesAreOccupied", 211), ("ResCauseNoMemoryIsAvailable", 212),
  ("ResCauseRelocationFailure", 213), ("ResCauseUnknownMandatoryExtensionHeader", 214),
  ("ResCauseSemanticErrorInTheTFTOperation", 215), ("ResCauseSyntacticErrorInTheTFTOperation", 216),
  ("ResCauseSemanticErrorsInPacketFilter", 217), ("ResCauseSyntacticErrorsInPacketFilter", 218),
  ("ResCauseMissingOrUnknownAPN", 219), ("ResCauseUnknownPDPAddressOrPDPType", 220),
  ("ResCausePDPContextWithoutTFTAlreadyActivated", 221), ("ResCauseAPNAccessDeniedNoSubscription", 222),
  ("ResCauseAPNRestrictionTypeIncompatibilityWithCurrentlyActivePDPContexts", 223),
  ("ResCauseMSMBMSCapabilitiesInsufficient", 224), ("ResCauseInvalidCorrelationID", 225),
  ("ResCauseMBMSBearerContextSuperseded", 226), ("ResCauseBearerControlModeViolation", 227),
  ("ResCauseCollisionWithNetworkInitiatedRequest", 228), ("ResCauseAPNCongestion", 229),
  ("ResCauseBearerHandlingNotSupported", 230), ("ResCauseTargetAccessRestrictedForTheSubscriber", 231),
  ("ResCauseUEIsTemporarilyNotReachableDueToPowerSaving", 232), ("ResCauseRelocationFailureDueToNASMessageRedirection", 233)]

/-- gtpv1/constants.go:84-88 -/
def v1SelectionModes : List (String × Nat) := [
  ("SelectionModeMSorNetworkProvidedAPNSubscribedVerified", 240), ("SelectionModeMSProvidedAPNSubscriptionNotVerified", 241),
  ("SelectionModeNetworkProvidedAPNSubscriptionNotVerified", 242)]

/-- gtpv1/constants.go:91-94 -/
def v1PDPTypes : List (String × Nat) := [
  ("PDPTypeETSI", 240), ("PDPTypeIETF", 241)]

/-- gtpv1/constants.go:98-103 -/
def v1Protocols : List (String × Nat) := [
  ("ProtoIDLCP", 49185), ("ProtoIDPAP", 49187), ("ProtoIDCHAP", 49699), ("ProtoIDIPCP", 32801)]

/-- gtpv1/constants.go:106-142 -/
def v1Containers : List (String × Nat) := [
  ("ContIDPCSCFIPv6AddressRequest", 1), ("ContIDIMCNSubsystemSignalingFlag", 2), ("ContIDDNSServerIPv6AddressRequest", 3),
  ("ContIDNotSupported", 4), ("ContIDMSSupportofNetworkRequestedBearerControlIndicator", 5),
  ("ContIDDSMIPv6HomeAgentAddressRequest", 7), ("ContIDDSMIPv6HomeNetworkPrefixRequest", 8),
  ("ContIDDSMIPv6IPv4HomeAgentAddressRequest", 9), ("ContIDIPaddressAllocationViaNASSignalling", 10),
  ("ContIDIPv4addressAllocationViaDHCPv4", 11), ("ContIDPCSCFIPv4AddressRequest", 12),
  ("ContIDDNSServerIPv4AddressRequest", 13), ("ContIDMSISDNRequest", 14), ("ContIDIFOMSupportRequest", 15),
  ("ContIDIPv4LinkMTURequest", 16), ("ContIDMSSupportOfLocalAddressInTFTIndicator", 17),
  ("ContIDPCSCFReselectionSupport", 18), ("ContIDNBIFOMRequestIndicator", 19), ("ContIDNBIFOMMode", 20),
  ("ContIDNonIPLinkMTURequest", 21), ("ContIDAPNRateControlSupportIndicator", 22), ("ContID3GPPPSDataOffUEStatus", 23),
  ("ContIDReliableDataServiceRequestIndicator", 24), ("ContIDAdditionalAPNRateControlForExceptionDataSupportIndicator", 25),
  ("ContIDPDUSessionID", 26), ("ContIDEthernetFramePayloadMTURequest", 32), ("ContIDUnstructuredLinkMTURequest", 33),
  ("ContID5GSMCauseValue", 34)]

/-- gtpv1/constants.go:145-147 -/
def v1ConfigProtocols : List (String × Nat) := [
  ("ConfigProtocolPPPWithIP", 0)]

/-- gtpv1/constants.go:150-158 -/
def v1RatTypes : List (String × Nat) := [
  ("RatTypeUTRAN", 1), ("RatTypeGERAN", 2), ("RatTypeWLAN", 3), ("RatTypeGAN", 4), ("RatTypeHSPAEvolution", 5),
  ("RatTypeEUTRAN", 6)]

/-- gtpv1/constants.go:161-165 -/
def v1LocTypes : List (String × Nat) := [
  ("LocTypeCGI", 0), ("LocTypeSAI", 1), ("LocTypeRAI", 2)]

/-- gtpv1/constants.go:168-174 -/
def v1APNRestrictions : List (String × Nat) := [
  ("APNRestrictionNoExistingContextsorRestriction", 0), ("APNRestrictionPublic1", 1), ("APNRestrictionPublic2", 2),
  ("APNRestrictionPrivate1", 3), ("APNRestrictionPrivate2", 4)]

/-- gtpv1/constants.go:177-251 -/
def mapCauses : List (String × Nat) := [
  ("MAPCauseUnknownSubscriber", 1), ("MAPCauseUnknownBaseStation", 2), ("MAPCauseUnknownMSC", 3),
  ("MAPCauseSecureTransportError", 4), ("MAPCauseUnidentifiedSubscriber", 5), ("MAPCauseAbsentSubscriberSM", 6),
  ("MAPCauseUnknownEquipment", 7), ("MAPCauseRoamingNotAllowed", 8), ("MAPCauseIllegalSubscriber", 9),
  ("MAPCauseBearerServiceNotProvisioned", 10), ("MAPCauseTeleserviceNotProvisioned", 11), ("MAPCauseIllegalEquipment", 12),
  ("MAPCauseCallBarred", 13), ("MAPCauseForwardingViolation", 14), ("MAPCauseCUGReject", 15),
  ("MAPCauseIllegalSSOperation", 16), ("MAPCauseSSErrorStatus", 17), ("MAPCauseSSNotAvailable", 18),
  ("MAPCauseSSSubscriptionViolatio", 19), ("MAPCauseSSIncompatibility", 20), ("MAPCauseFacilityNotSupported", 21),
  ("MAPCauseOngoingGroupCall", 22), ("MAPCauseInvalidTargetBaseStation", 23), ("MAPCauseNoRadioResourceAvailable", 24),
  ("MAPCauseNoHandoverNumberAvailable", 25), ("MAPCauseSubsequentHandoverFailure", 26), ("MAPCauseAbsentSubscriber", 27),
  ("MAPCauseIncompatibleTerminal", 28), ("MAPCauseShortTermDenial", 29), ("MAPCauseLongTermDenial", 30),
  ("MAPCauseSubscriberBusyForMTSMS", 31), ("MAPCauseSMDeliveryFailure", 32), ("MAPCauseMessageWaitingListFull", 33),
  ("MAPCauseSystemFailure", 34), ("MAPCauseDataMissing", 35), ("MAPCauseUnexpectedDataValue", 36),
  ("MAPCausePWRegistrationFailure", 37), ("MAPCauseNegativePWCheck", 38), ("MAPCauseNoRoamingNumberAvailable", 39),
  ("MAPCauseTracingBufferFull", 40), ("MAPCauseTargetCellOutsideGroupCallArea", 42),
  ("MAPCauseNumberOfPWAttemptsViolation", 43), ("MAPCauseNumberChanged", 44), ("MAPCauseBusySubscriber", 45),
  ("MAPCauseNoSubscriberReply", 46), ("MAPCauseForwardingFailed", 47), ("MAPCauseORNotAllowed", 48),
  ("MAPCauseATINotAllowed", 49), ("MAPCauseNoGroupCallNumberAvailable", 50), ("MAPCauseResourceLimitation", 51),
  ("MAPCauseUnauthorizedRequestingNetwork", 52), ("MAPCauseUnauthorizedLCSClient", 53),
  ("MAPCausePositionMethodFailure", 54), ("MAPCauseUnknownOrUnreachableLCSClient", 58), ("MAPCauseMMEventNotSupported", 59),
  ("MAPCauseATSINotAllowed", 60), ("MAPCauseATMNotAllowed", 61), ("MAPCauseInformationNotAvailabl", 62),
  ("MAPCauseUnknownAlphabe", 71), ("MAPCauseUSSDBusy", 72)]

/-- gtpv1/constants.go:254-372 -/
def ranapCauses : List (String × Nat) := [
  ("RABPreempted", 1), ("RANAPCauseTrelocoverallExpiry", 2), ("RANAPCauseTrelocprepExpiry", 3),
  ("RANAPCauseTreloccompleteExpiry", 4), ("RANAPCauseTqueuingExpiry", 5), ("RANAPCauseRelocationTriggered", 6),
  ("RANAPCauseTRELOCallocExpiry", 7), ("RANAPCauseUnableToEstablishDuringRelocation", 8), ("RANAPCauseUnknownTargetRNC", 9),
  ("RANAPCauseRelocationCancelled", 10), ("RANAPCauseSuccessfulRelocation", 11),
  ("RANAPCauseRequestedCipheringIntegrityProtectionAlgorithmsNotSupported", 12),
  ("RANAPCauseChangeOfCipheringIntegrityProtectionIsNotSupported", 13),
  ("RANAPCauseFailureInTheRadioInterfaceProcedure", 14), ("RANAPCauseReleaseDueToUTRANGeneratedReason", 15),
  ("RANAPCauseUserInactivity", 16), ("RANAPCauseTimeCriticalRelocation", 17),
  ("RANAPCauseRequestedTrafficClassNotAvailable", 18), ("RANAPCauseInvalidRABParametersValue", 19),
  ("RANAPCauseRequestedMaximumBitRateNotAvailable", 20), ("RANAPCauseRequestedGuaranteedBitRateNotAvailable", 21),
  ("RANAPCauseRequestedTransferDelayNotAchievable", 22), ("RANAPCauseInvalidRABParametersCombination", 23),
  ("RANAPCauseConditionViolationForSDUParameters", 24), ("RANAPCauseConditionViolationForTrafficHandlingPriority", 25),
  ("RANAPCauseConditionViolationForGuaranteedBitRate", 26), ("RANAPCauseUserPlaneVersionsNotSupported", 27),
  ("RANAPCauseIuUPFailure", 28), ("RANAPCauseRelocationFailureInTargetCNRNCOrTargetSystem", 29),
  ("RANAPCauseInvalidRABID", 30), ("RANAPCauseNoRemainingRAB", 31), ("RANAPCauseInteractionWithOtherProcedure", 32),
  ("RANAPCauseRequestedMaximumBitRateForDLNotAvailable", 33), ("RANAPCauseRequestedMaximumBitRateForULNotAvailable", 34),
  ("RANAPCauseRequestedGuaranteedBitRateForDLNotAvailable", 35),
  ("RANAPCauseRequestedGuaranteedBitRateForULNotAvailable", 36), ("RANAPCauseRepeatedIntegrityCheckingFailure", 37),
  ("RANAPCauseRequestedReportTypeNotSupported", 38), ("RANAPCauseRequestSuperseded", 39),
  ("RANAPCauseReleaseDueToUEWenRatedSignallingConnectionRelease", 40), ("RANAPCauseResourceOptimisationRelocation", 41),
  ("RANAPCauseRequestedInformationNotAvailable", 42), ("RANAPCauseRelocationDesirableForRadioReasons", 43),
  ("RANAPCauseRelocationNotSupportedInTargetRNCOrTargetSystem", 44), ("RANAPCauseDirectedRetry", 45),
  ("RANAPCauseRadioConnectionWithUELost", 46), ("RANAPCauseRNCUnableToEstablishAllRFCs", 47),
  ("RANAPCauseDecipheringKeysNotAvailable", 48), ("RANAPCauseDedicatedAssistanceDataNotAvailable", 49),
  ("RANAPCauseRelocationTargetNotAllowed", 50), ("RANAPCauseLocationReportingCongestion", 51),
  ("RANAPCauseReduceLoadInServingCell", 52), ("RANAPCauseNoRadioResourcesAvailableInTargetCell", 53),
  ("RANAPCauseGERANIuModeFailure", 54), ("RANAPCauseAccessRestrictedDueToSharedNetworks", 55),
  ("RANAPCauseIncomingRelocationNotSupportedDueTodPUESBINEFeature", 56),
  ("RANAPCauseTrafficLoadInTheTargetCellHigherThanInTheSourceCell", 57), ("RANAPCauseMBMSNoMulticastServiceForThisUE", 58),
  ("RANAPCauseMBMSUnknownUEID", 59), ("RANAPCauseSuccessfulMBMSSessionStartNoDataBearerNecessary", 60),
  ("RANAPCauseMBMSSupersededDueToNNSF", 61), ("RANAPCauseMBMSUELinkingAlreadyDone", 62),
  ("RANAPCauseMBMSUEDeLinkingFailureNoExistingUELinking", 63), ("RANAPCauseTMGIUnknown", 64),
  ("RANAPCauseSignallingTransportResourceFailure", 65), ("RANAPCauseIuTransportConnectionFailedToEstablish", 66),
  ("RANAPCauseUserRestrictionStartIndication", 81), ("RANAPCauseUserRestrictionEndIndication", 82),
  ("RANAPCauseNormalRelease", 83), ("RANAPCauseTransferSyntaxError", 97), ("RANAPCauseSemanticError", 98),
  ("RANAPCauseMessageNotCompatibleWithReceiverState", 99), ("RANAPCauseAbstractSyntaxErrorReject", 100),
  ("RANAPCauseAbstractSyntaxErrorIgnoreAndNotify", 101), ("RANAPCauseAbstractSyntaxErrorFalselyConstructedMessage", 102),
  ("RANAPCauseOAMIntervention", 113), ("RANAPCauseNoResourceAvailable", 114), ("RANAPCauseUnspecifiedFailure", 115),
  ("RANAPCauseNetworkOptimisation", 116)]

/-- gtpv1/ie/ie.go:16-44 -/
def v1TV : List (String × Nat) := [
  ("Cause", 1), ("IMSI", 2), ("RouteingAreaIdentity", 3), ("TemporaryLogicalLinkIdentity", 4), ("PacketTMSI", 5),
  ("ReorderingRequired", 8), ("AuthenticationTriplet", 9), ("MAPCause", 11), ("PTMSISignature", 12), ("MSValidated", 13),
  ("Recovery", 14), ("SelectionMode", 15), ("TEIDDataI", 16), ("TEIDCPlane", 17), ("TEIDDataII", 18), ("TeardownInd", 19),
  ("NSAPI", 20), ("RANAPCause", 21), ("RABContext", 22), ("RadioPrioritySMS", 23), ("RadioPriority", 24),
  ("PacketFlowID", 25), ("ChargingCharacteristics", 26), ("TraceReference", 27), ("TraceType", 28),
  ("MSNotReachableReason", 29), ("ChargingID", 127)]

/-- gtpv1/ie/ie.go:47-146 -/
def v1TLV : List (String × Nat) := [
  ("EndUserAddress", 128), ("MMContext", 129), ("PDPContext", 130), ("AccessPointName", 131),
  ("ProtocolConfigurationOptions", 132), ("GSNAddress", 133), ("MSISDN", 134), ("QoSProfile", 135),
  ("AuthenticationQuintuplet", 136), ("TrafficFlowTemplate", 137), ("TargetIdentification", 138),
  ("UTRANTransparentContainer", 139), ("RABSetupInformation", 140), ("ExtensionHeaderTypeList", 141), ("TriggerID", 142),
  ("OMCIdentity", 143), ("RANTransparentContainer", 144), ("PDPContextPrioritization", 145),
  ("AdditionalRABSetupInformation", 146), ("SGSNNumber", 147), ("CommonFlags", 148), ("APNRestriction", 149),
  ("RadioPriorityLCS", 150), ("RATType", 151), ("UserLocationInformation", 152), ("MSTimeZone", 153), ("IMEISV", 154),
  ("CAMELChargingInformationContainer", 155), ("MBMSUEContext", 156), ("TemporaryMobileGroupIdentity", 157),
  ("RIMRoutingAddress", 158), ("MBMSProtocolConfigurationOptions", 159), ("MBMSServiceArea", 160),
  ("SourceRNCPDCPContextInfo", 161), ("AdditionalTraceInfo", 162), ("HopCounter", 163), ("SelectedPLMNID", 164),
  ("MBMSSessionIdentifier", 165), ("MBMS2G3GIndicator", 166), ("EnhancedNSAPI", 167), ("MBMSSessionDuration", 168),
  ("AdditionalMBMSTraceInfo", 169), ("MBMSSessionRepetitionNumber", 170), ("MBMSTimeToDataTransfer", 171),
  ("BSSContainer", 173), ("CellIdentification", 174), ("PDUNumbers", 175), ("BSSGPCause", 176),
  ("RequiredMBMSBearerCapabilities", 177), ("RIMRoutingAddressDiscriminator", 178), ("ListOfSetupPFCs", 179),
  ("PSHandoverXIDParameters", 180), ("MSInfoChangeReportingAction", 181), ("DirectTunnelFlags", 182), ("CorrelationID", 183),
  ("BearerControlMode", 184), ("MBMSFlowIdentifier", 185), ("MBMSIPMulticastDistribution", 186),
  ("MBMSDistributionAcknowledgement", 187), ("ReliableInterRATHandoverInfo", 188), ("RFSPIndex", 189),
  ("FullyQualifiedDomainName", 190), ("EvolvedAllocationRetentionPriorityI", 191),
  ("EvolvedAllocationRetentionPriorityII", 192), ("ExtendedCommonFlags", 193), ("UserCSGInformation", 194),
  ("CSGInformationReportingAction", 195), ("CSGID", 196), ("CSGMembershipIndication", 197), ("AggregateMaximumBitRate", 198),
  ("UENetworkCapability", 199), ("UEAMBR", 200), ("APNAMBRWithNSAPI", 201), ("GGSNBackOffTime", 202),
  ("SignallingPriorityIndication", 203), ("SignallingPriorityIndicationWithNSAPI", 204),
  ("HigherBitratesThan16MbpsFlag", 205), ("AdditionalMMContextForSRVCC", 207), ("AdditionalFlagsForSRVCC", 208),
  ("STNSR", 209), ("CMSISDN", 210), ("ExtendedRANAPCause", 211), ("ENodeBID", 212), ("SelectionModeWithNSAPI", 213),
  ("ULITimestamp", 214), ("LHNIDWithNSAPI", 215), ("CNOperatorSelectionEntity", 216), ("UEUsageType", 217),
  ("ExtendedCommonFlagsII", 218), ("NodeIdentifier", 219), ("CIoTOptimizationsSupportIndication", 220),
  ("SCEFPDNConnection", 221), ("IOVUpdatesCounter", 222), ("MappedUEUsageType", 223),
  ("UPFunctionSelectionIndicationFlags", 224), ("SpecialIETypeForIETypeExtension", 238), ("ChargingGatewayAddress", 251),
  ("PrivateExtension", 255)]

/-- gtpv1/ie/ms-timezone.go:14-18 -/
def v1TimeAdjusts : List (String × Nat) := [
  ("TimeAdjustNoDaylightSaving", 0), ("TimeAdjustDaylightSavingOneHour", 1), ("TimeAdjustDaylightSavingTwoHour", 2)]

/-- gtpv1/message/message.go:19-85 -/
def v1Messages : List (String × Nat) := [
  ("MsgTypeEchoRequest", 1), ("MsgTypeEchoResponse", 2), ("MsgTypeVersionNotSupported", 3), ("MsgTypeNodeAliveRequest", 4),
  ("MsgTypeNodeAliveResponse", 5), ("MsgTypeRedirectionRequest", 6), ("MsgTypeRedirectionResponse", 7),
  ("MsgTypeCreatePDPContextRequest", 16), ("MsgTypeCreatePDPContextResponse", 17), ("MsgTypeUpdatePDPContextRequest", 18),
  ("MsgTypeUpdatePDPContextResponse", 19), ("MsgTypeDeletePDPContextRequest", 20), ("MsgTypeDeletePDPContextResponse", 21),
  ("MsgTypeCreateAAPDPContextRequest", 22), ("MsgTypeCreateAAPDPContextResponse", 23),
  ("MsgTypeDeleteAAPDPContextRequest", 24), ("MsgTypeDeleteAAPDPContextResponse", 25), ("MsgTypeErrorIndication", 26),
  ("MsgTypePDUNotificationRequest", 27), ("MsgTypePDUNotificationResponse", 28), ("MsgTypePDUNotificationRejectRequest", 29),
  ("MsgTypePDUNotificationRejectResponse", 30), ("MsgTypeSupportedExtensionHeaderNotification", 31),
  ("MsgTypeSendRoutingInfoRequest", 32), ("MsgTypeSendRoutingInfoResponse", 33), ("MsgTypeFailureReportRequest", 34),
  ("MsgTypeFailureReportResponse", 35), ("MsgTypeNoteMSPresentRequest", 36), ("MsgTypeNoteMSPresentResponse", 37),
  ("MsgTypeIdentificationRequest", 56), ("MsgTypeIdentificationResponse", 57), ("MsgTypeSGSNContextRequest", 58),
  ("MsgTypeSGSNContextResponse", 59), ("MsgTypeSGSNContextAcknowledge", 60), ("MsgTypeDataRecordTransferRequest", 240),
  ("MsgTypeDataRecordTransferResponse", 241), ("MsgTypeEndMarker", 254), ("MsgTypeTPDU", 255)]

/-- gtpv1/message/extension-header.go:10-25 -/
def v1ExtensionHeaders : List (String × Nat) := [
  ("ExtHeaderTypeNoMoreExtensionHeaders", 0), ("ExtHeaderTypeMBMSSupportIndication", 1),
  ("ExtHeaderTypeMSInfoChangeReportingSupportIndication", 2), ("ExtHeaderTypeLongPDCPPDUNumber", 3),
  ("ExtHeaderTypeServiceClassIndicator", 32), ("ExtHeaderTypeUDPPort", 64), ("ExtHeaderTypeRANContainer", 129),
  ("ExtHeaderTypeLongPDCPPDUNumberRequired", 130), ("ExtHeaderTypeXwRANContainer", 131),
  ("ExtHeaderTypeNRRANContainer", 132), ("ExtHeaderTypePDUSessionContainer", 133), ("ExtHeaderTypePDCPPDUNumber", 192),
  ("ExtHeaderTypeSuspendRequest", 193), ("ExtHeaderTypeSuspendResponse", 194)]

/-- gtpv2/constants.go:8-15 -/
def v2Renamed : List (String × Nat) := [
  ("ContIDMSSupportOfNetworkRequestedBearerControlIndicator", 5), ("ContIDIPAddressAllocationViaNASSignalling", 10),
  ("ContIDIPv4AddressAllocationViaDHCPv4", 11), ("ContID3GPPPSDataOffUEStatus", 23),
  ("SelectionModeMSOrNetworkProvidedAPNSubscribedVerified", 0)]

/-- gtpv2/constants.go:24-65 -/
def interfaceTypes : List (String × Nat) := [
  ("IFTypeS1UeNodeBGTPU", 0), ("IFTypeS1USGWGTPU", 1), ("IFTypeS12RNCGTPU", 2), ("IFTypeS12SGWGTPU", 3),
  ("IFTypeS5S8SGWGTPU", 4), ("IFTypeS5S8PGWGTPU", 5), ("IFTypeS5S8SGWGTPC", 6), ("IFTypeS5S8PGWGTPC", 7),
  ("IFTypeS5S8SGWPMIPv6", 8), ("IFTypeS5S8PGWPMIPv6", 9), ("IFTypeS11MMEGTPC", 10), ("IFTypeS11S4SGWGTPC", 11),
  ("IFTypeS10MMEGTPC", 12), ("IFTypeS3MMEGTPC", 13), ("IFTypeS3SGSNGTPC", 14), ("IFTypeS4SGSNGTPU", 15),
  ("IFTypeS4SGWGTPU", 16), ("IFTypeS4SGSNGTPC", 17), ("IFTypeS16SGSNGTPC", 18), ("IFTypeeNodeBGTPUForDL", 19),
  ("IFTypeeNodeBGTPUForUL", 20), ("IFTypeRNCGTPUForData", 21), ("IFTypeSGSNGTPUForData", 22), ("IFTypeSGWUPFGTPUForDL", 23),
  ("IFTypeSmMBMSGWGTPC", 24), ("IFTypeSnMBMSGWGTPC", 25), ("IFTypeSmMMEGTPC", 26), ("IFTypeSnSGSNGTPC", 27),
  ("IFTypeSGWGTPUForUL", 28), ("IFTypeSnSGSNGTPU", 29), ("IFTypeS2bePDGGTPC", 30), ("IFTypeS2bUePDGGTPU", 31),
  ("IFTypeS2bPGWGTPC", 32), ("IFTypeS2bUPGWGTPU", 33), ("IFTypeS2aTWANGTPU", 34), ("IFTypeS2aTWANGTPC", 35),
  ("IFTypeS2aPGWGTPC", 36), ("IFTypeS2aPGWGTPU", 37), ("IFTypeS11MMEGTPU", 38), ("IFTypeS11SGWGTPU", 39)]

/-- gtpv2/constants.go:68-74 -/
def v2APNRestrictions : List (String × Nat) := [
  ("APNRestrictionNoExistingContextsorRestriction", 0), ("APNRestrictionPublic1", 1), ("APNRestrictionPublic2", 2),
  ("APNRestrictionPrivate1", 3), ("APNRestrictionPrivate2", 4)]

/-- gtpv2/constants.go:77-163 -/
def v2Causes : List (String × Nat) := [
  ("CauseLocalDetach", 2), ("CauseCompleteDetach", 3), ("CauseRATChangedFrom3GPPToNon3GPP", 4), ("CauseISRDeactivation", 5),
  ("CauseErrorIndicationReceivedFromRNCeNodeBS4SGSNMME", 6), ("CauseIMSIDetachOnly", 7), ("CauseReactivationRequested", 8),
  ("CausePDNReconnectionToThisAPNDisallowed", 9), ("CauseAccessChangedFromNon3GPPTo3GPP", 10),
  ("CausePDNConnectionInactivityTimerExpires", 11), ("CausePGWNotResponding", 12), ("CauseNetworkFailure", 13),
  ("CauseQoSParameterMismatch", 14), ("CauseRequestAccepted", 16), ("CauseRequestAcceptedPartially", 17),
  ("CauseNewPDNTypeDueToNetworkPreference", 18), ("CauseNewPDNTypeDueToSingleAddressBearerOnly", 19),
  ("CauseContextNotFound", 64), ("CauseInvalidMessageFormat", 65), ("CauseVersionNotSupportedByNextPeer", 66),
  ("CauseInvalidLength", 67), ("CauseServiceNotSupported", 68), ("CauseMandatoryIEIncorrect", 69),
  ("CauseMandatoryIEMissing", 70), ("CauseSystemFailure", 72), ("CauseNoResourcesAvailable", 73),
  ("CauseSemanticErrorInTheTFTOperation", 74), ("CauseSyntacticErrorInTheTFTOperation", 75),
  ("CauseSemanticErrorsInPacketFilters", 76), ("CauseSyntacticErrorsInPacketFilters", 77), ("CauseMissingOrUnknownAPN", 78),
  ("CauseGREKeyNotFound", 80), ("CauseRelocationFailure", 81), ("CauseDeniedInRAT", 82),
  ("CausePreferredPDNTypeNotSupported", 83), ("CauseAllDynamicAddressesAreOccupied", 84),
  ("CauseUEContextWithoutTFTAlreadyActivated", 85), ("CauseProtocolTypeNotSupported", 86), ("CauseUENotResponding", 87),
  ("CauseUERefuses", 88), ("CauseServiceDenied", 89), ("CauseUnableToPageUE", 90), ("CauseNoMemoryAvailable", 91),
  ("CauseUserAuthenticationFailed", 92), ("CauseAPNAccessDeniedNoSubscription", 93),
  ("CauseRequestRejectedReasonNotSpecified", 94), ("CausePTMSISignatureMismatch", 95), ("CauseIMSIIMEINotKnown", 96),
  ("CauseSemanticErrorInTheTADOperation", 97), ("CauseSyntacticErrorInTheTADOperation", 98),
  ("CauseRemotePeerNotResponding", 100), ("CauseCollisionWithNetworkInitiatedRequest", 101),
  ("CauseUnableToPageUEDueToSuspension", 102), ("CauseConditionalIEMissing", 103),
  ("CauseAPNRestrictionTypeIncompatibleWithCurrentlyActivePDNConnection", 104),
  ("CauseInvalidOverallLengthOfTheTriggeredResponseMessageAndAPiggybackedInitialMessage", 105),
  ("CauseDataForwardingNotSupported", 106), ("CauseInvalidReplyFromRemotePeer", 107), ("CauseFallbackToGTPv1", 108),
  ("CauseInvalidPeer", 109), ("CauseTemporarilyRejectedDueToHandoverTAURAUProcedureInProgress", 110),
  ("CauseModificationsNotLimitedToS1UBearers", 111), ("CauseRequestRejectedForAPMIPv6Reason", 112),
  ("CauseAPNCongestion", 113), ("CauseBearerHandlingNotSupported", 114), ("CauseUEAlreadyReattached", 115),
  ("CauseMultiplePDNConnectionsForAGivenAPNNotAllowed", 116), ("CauseTargetAccessRestrictedForTheSubscriber", 117),
  ("CauseMMESGSNRefusesDueToVPLMNPolicy", 119), ("CauseGTPCEntityCongestion", 120), ("CauseLateOverlappingRequest", 121),
  ("CauseTimedOutRequest", 122), ("CauseUEIsTemporarilyNotReachableDueToPowerSaving", 123),
  ("CauseRelocationFailureDueToNASMessageRedirection", 124), ("CauseUENotAuthorisedByOCSOrExternalAAAServer", 125),
  ("CauseMultipleAccessesToAPDNConnectionNotAllowed", 126), ("CauseRequestRejectedDueToUECapability", 127),
  ("CauseS1UPathFailure", 128)]

/-- gtpv2/constants.go:166-169 -/
def csgMemberships : List (String × Nat) := [
  ("CMINonCSG", 0), ("CMICSG", 1)]

/-- gtpv2/constants.go:172-176 -/
def detachTypes : List (String × Nat) := [
  ("DetachTypePS", 1), ("DetachTypeCombinedPSCS", 2)]

/-- gtpv2/constants.go:179-183 -/
def nodeIDTypes : List (String × Nat) := [
  ("NodeIDIPv4", 0), ("NodeIDIPv6", 1), ("NodeIDOther", 2)]

/-- gtpv2/constants.go:186-189 -/
def nodeTypes : List (String × Nat) := [
  ("NodeTypeSGSN", 0), ("NodeTypeMME", 1)]

/-- gtpv2/constants.go:193-198 -/
def v2Protocols : List (String × Nat) := [
  ("ProtoIDLCP", 49185), ("ProtoIDPAP", 49187), ("ProtoIDCHAP", 49699), ("ProtoIDIPCP", 32801)]

/-- gtpv2/constants.go:201-237 -/
def v2Containers : List (String × Nat) := [
  ("ContIDPCSCFIPv6AddressRequest", 1), ("ContIDIMCNSubsystemSignalingFlag", 2), ("ContIDDNSServerIPv6AddressRequest", 3),
  ("ContIDNotSupported", 4), ("ContIDMSSupportofNetworkRequestedBearerControlIndicator", 5),
  ("ContIDDSMIPv6HomeAgentAddressRequest", 7), ("ContIDDSMIPv6HomeNetworkPrefixRequest", 8),
  ("ContIDDSMIPv6IPv4HomeAgentAddressRequest", 9), ("ContIDIPaddressAllocationViaNASSignalling", 10),
  ("ContIDIPv4addressAllocationViaDHCPv4", 11), ("ContIDPCSCFIPv4AddressRequest", 12),
  ("ContIDDNSServerIPv4AddressRequest", 13), ("ContIDMSISDNRequest", 14), ("ContIDIFOMSupportRequest", 15),
  ("ContIDIPv4LinkMTURequest", 16), ("ContIDMSSupportOfLocalAddressInTFTIndicator", 17),
  ("ContIDPCSCFReselectionSupport", 18), ("ContIDNBIFOMRequestIndicator", 19), ("ContIDNBIFOMMode", 20),
  ("ContIDNonIPLinkMTURequest", 21), ("ContIDAPNRateControlSupportIndicator", 22), ("ContID3GPPPSDataOffUEstatus", 23),
  ("ContIDReliableDataServiceRequestIndicator", 24), ("ContIDAdditionalAPNRateControlForExceptionDataSupportIndicator", 25),
  ("ContIDPDUSessionID", 26), ("ContIDEthernetFramePayloadMTURequest", 32), ("ContIDUnstructuredLinkMTURequest", 33),
  ("ContID5GSMCauseValue", 34)]

/-- gtpv2/constants.go:240-242 -/
def v2ConfigProtocols : List (String × Nat) := [
  ("ConfigProtocolPPPWithIP", 0)]

/-- gtpv2/constants.go:245-251 -/
def pdnTypes : List (String × Nat) := [
  ("PDNTypeIPv4", 1), ("PDNTypeIPv6", 2), ("PDNTypeIPv4v6", 3), ("PDNTypeNonIP", 4)]

/-- gtpv2/constants.go:254-261 -/
def protocolTypes : List (String × Nat) := [
  ("ProtoTypeS1APCause", 1), ("ProtoTypeEMMCause", 2), ("ProtoTypeESMCause", 3), ("ProtoTypeDiameterCause", 4),
  ("ProtoTypeIKEv2Cause", 5)]

/-- gtpv2/constants.go:264-270 -/
def causeTypes : List (String × Nat) := [
  ("CauseTypeRadioNetworkLayer", 0), ("CauseTypeTransportLayer", 1), ("CauseTypeNAS", 2), ("CauseTypeProtocol", 3),
  ("CauseTypeMiscellaneous", 4)]

/-- gtpv2/constants.go:273-285 -/
def ratTypes : List (String × Nat) := [
  ("RATTypeUTRAN", 1), ("RATTypeGERAN", 2), ("RATTypeWLAN", 3), ("RATTypeGAN", 4), ("RATTypeHSPAEvolution", 5),
  ("RATTypeEUTRAN", 6), ("RATTypeVirtual", 7), ("RATTypeEUTRANNBIoT", 8), ("RATTypeLTEM", 9), ("RATTypeNR", 10)]

/-- gtpv2/constants.go:288-292 -/
def v2SelectionModes : List (String × Nat) := [
  ("SelectionModeMSorNetworkProvidedAPNSubscribedVerified", 0), ("SelectionModeMSProvidedAPNSubscriptionNotVerified", 1),
  ("SelectionModeNetworkProvidedAPNSubscriptionNotVerified", 2)]

/-- gtpv2/constants.go:295-299 -/
def serviceIndicators : List (String × Nat) := [
  ("ServiceIndCSCall", 1), ("ServiceIndSMS", 2)]

/-- gtpv2/constants.go:302-305 -/
def accessModes : List (String × Nat) := [
  ("AccessModeClosed", 0), ("AccessModeHybrid", 1)]

/-- gtpv2/constants.go:308-312 -/
def daylightSavings : List (String × Nat) := [
  ("DaylightSavingNoAdjustment", 0), ("DaylightSavingPlusOneHour", 1), ("DaylightSavingPlusTwoHours", 2)]

/-- gtpv2/ie/bearer-tft.go:8-16 -/
def tftOperations : List (String × Nat) := [
  ("TFTOpIgnoreThisIE", 0), ("TFTOpCreateNewTFT", 1), ("TFTOpDeleteExistingTFT", 2),
  ("TFTOpAddPacketFiltersToExistingTFT", 3), ("TFTOpReplacePacketFiltersInExistingTFT", 4),
  ("TFTOpDeletePacketFiltersFromExistingTFT", 5), ("TFTOpNoTFTOperation", 6)]

/-- gtpv2/ie/tft.go:208-213 -/
def tftDirections : List (String × Nat) := [
  ("TFTPFPreRel7TFTFilter", 0), ("TFTPFDownlinkOnly", 1), ("TFTPFUplinkOnly", 2), ("TFTPFBidirectional", 3)]

/-- gtpv2/ie/tft.go:332-353 -/
def tftComponents : List (String × Nat) := [
  ("PFCompIPv4RemoteAddress", 16), ("PFCompIPv4LocalAddress", 17), ("PFCompIPv6RemoteAddress", 32),
  ("PFCompIPv6RemoteAddressPrefixLength", 33), ("PFCompIPv6LocalAddressPrefixLength", 35),
  ("PFCompProtocolIdentifierNextHeader", 48), ("PFCompSingleLocalPort", 64), ("PFCompLocalPortRange", 65),
  ("PFCompSingleRemotePort", 80), ("PFCompRemotePortRange", 81), ("PFCompSecurityParameterIndex", 96),
  ("PFCompTypeOfServiceTrafficClass", 112), ("PFCompFlowLabel", 128), ("PFCompDestinationMACAddress", 129),
  ("PFCompSourceMACAddress", 130), ("PFCompDot1QCTAGVID", 131), ("PFCompDot1QSTAGVID", 132), ("PFCompDot1QCTAGPCPDEI", 133),
  ("PFCompDot1QSTAGPCPDEI", 134), ("PFCompEthertype", 135)]

/-- gtpv2/ie/tft.go:846-850 -/
def tftParameters : List (String × Nat) := [
  ("TFTParamIDAuthorizationToken", 1), ("TFTParamIDFlowIdentifier", 2), ("TFTParamIDPacketFileterIdentifier", 3)]

/-- gtpv2/ie/pco-ppp.go:13-16 -/
def pppCodes : List (String × Nat) := [
  ("PCOPPPConfigurationRequest", 1), ("PCOPPPConfigurationAck", 2)]

/-- gtpv2/ie/pco-ppp.go:318-323 -/
def ipcpOptions : List (String × Nat) := [
  ("IPCPOptionIPAddress", 3), ("IPCPOptionMobileIPv4", 4), ("IPCPOptionPrimaryDNS", 129), ("IPCPOptionSecondaryDNS", 131)]

/-- gtpv2/ie/pco.go:14-16 -/
def pcoConfigProtocols : List (String × Nat) := [
  ("ConfigurationProtocolPPPForUseWithIPPDPTypeOrIPPDNType", 0)]

/-- gtpv2/ie/pco.go:155-160 -/
def pcoProtocols : List (String × Nat) := [
  ("PCOProtocolIdentifierLCP", 49185), ("PCOProtocolIdentifierPAP", 49187), ("PCOProtocolIdentifierCHAP", 49699),
  ("PCOProtocolIdentifierIPCP", 32801)]

/-- gtpv2/ie/ie.go:19-163 -/
def v2IE : List (String × Nat) := [
  ("IMSI", 1), ("Cause", 2), ("Recovery", 3), ("STNSR", 51), ("AccessPointName", 71), ("AggregateMaximumBitRate", 72),
  ("EPSBearerID", 73), ("IPAddress", 74), ("MobileEquipmentIdentity", 75), ("MSISDN", 76), ("Indication", 77),
  ("ProtocolConfigurationOptions", 78), ("PDNAddressAllocation", 79), ("BearerQoS", 80), ("FlowQoS", 81), ("RATType", 82),
  ("ServingNetwork", 83), ("BearerTFT", 84), ("TrafficAggregateDescription", 85), ("UserLocationInformation", 86),
  ("FullyQualifiedTEID", 87), ("TMSI", 88), ("GlobalCNID", 89), ("S103PDNDataForwardingInfo", 90), ("S1UDataForwarding", 91),
  ("DelayValue", 92), ("BearerContext", 93), ("ChargingID", 94), ("ChargingCharacteristics", 95), ("TraceInformation", 96),
  ("BearerFlags", 97), ("PDNType", 99), ("ProcedureTransactionID", 100), ("MMContextGSMKeyAndTriplets", 103),
  ("MMContextUMTSKeyUsedCipherAndQuintuplets", 104), ("MMContextGSMKeyUsedCipherAndQuintuplets", 105),
  ("MMContextUMTSKeyAndQuintuplets", 106), ("MMContextEPSSecurityContextQuadrupletsAndQuintuplets", 107),
  ("MMContextUMTSKeyQuadrupletsAndQuintuplets", 108), ("PDNConnection", 109), ("PDUNumbers", 110), ("PacketTMSI", 111),
  ("PTMSISignature", 112), ("HopCounter", 113), ("UETimeZone", 114), ("TraceReference", 115),
  ("CompleteRequestMessage", 116), ("GUTI", 117), ("FContainer", 118), ("FCause", 119), ("PLMNID", 120),
  ("TargetIdentification", 121), ("PacketFlowID", 123), ("RABContext", 124), ("SourceRNCPDCPContextInfo", 125),
  ("PortNumber", 126), ("APNRestriction", 127), ("SelectionMode", 128), ("SourceIdentification", 129),
  ("ChangeReportingAction", 131), ("FullyQualifiedCSID", 132), ("ChannelNeeded", 133), ("EMLPPPriority", 134),
  ("NodeType", 135), ("FullyQualifiedDomainName", 136), ("TI", 137), ("MBMSSessionDuration", 138), ("MBMSServiceArea", 139),
  ("MBMSSessionIdentifier", 140), ("MBMSFlowIdentifier", 141), ("MBMSIPMulticastDistribution", 142),
  ("MBMSDistributionAcknowledge", 143), ("RFSPIndex", 144), ("UserCSGInformation", 145),
  ("CSGInformationReportingAction", 146), ("CSGID", 147), ("CSGMembershipIndication", 148), ("ServiceIndicator", 149),
  ("DetachType", 150), ("LocalDistinguishedName", 151), ("NodeFeatures", 152), ("MBMSTimeToDataTransfer", 153),
  ("Throttling", 154), ("AllocationRetensionPriority", 155), ("EPCTimer", 156), ("SignallingPriorityIndication", 157),
  ("TMGI", 158), ("AdditionalMMContextForSRVCC", 159), ("AdditionalFlagsForSRVCC", 160), ("MDTConfiguration", 162),
  ("AdditionalProtocolConfigurationOptions", 163), ("AbsoluteTimeofMBMSDataTransfer", 164),
  ("HeNBInformationReporting", 165), ("IPv4ConfigurationParameters", 166), ("ChangeToReportFlags", 167),
  ("ActionIndication", 168), ("TWANIdentifier", 169), ("ULITimestamp", 170), ("MBMSFlags", 171), ("RANNASCause", 172),
  ("CNOperatorSelectionEntity", 173), ("TrustedWLANModeIndication", 174), ("NodeNumber", 175), ("NodeIdentifier", 176),
  ("PresenceReportingAreaAction", 177), ("PresenceReportingAreaInformation", 178), ("TWANIdentifierTimestamp", 179),
  ("OverloadControlInformation", 180), ("LoadControlInformation", 181), ("Metric", 182), ("SequenceNumber", 183),
  ("APNAndRelativeCapacity", 184), ("WLANOffloadabilityIndication", 185), ("PagingAndServiceInformation", 186),
  ("IntegerNumber", 187), ("MillisecondTimeStamp", 188), ("MonitoringEventInformation", 189), ("ECGIList", 190),
  ("RemoteUEContext", 191), ("RemoteUserID", 192), ("RemoteUEIPinformation", 193),
  ("CIoTOptimizationsSupportIndication", 194), ("SCEFPDNConnection", 195), ("HeaderCompressionConfiguration", 196),
  ("ExtendedProtocolConfigurationOptions", 197), ("ServingPLMNRateControl", 198), ("Counter", 199),
  ("MappedUEUsageType", 200), ("SecondaryRATUsageDataReport", 201), ("UPFunctionSelectionIndicationFlags", 202),
  ("MaximumPacketLossRate", 203), ("APNRateControlStatus", 204), ("ExtendedTraceInformation", 205),
  ("MonitoringEventExtensionInformation", 206), ("AdditionalRRMPolicyIndex", 207), ("V2XContext", 208),
  ("PC5QoSParameters", 209), ("ServicesAuthorized", 210), ("BitRate", 211), ("PC5QoSFlow", 212),
  ("SGiPtPTunnelAddress", 213), ("SpecialIETypeForIETypeExtension", 254), ("PrivateExtension", 255)]

/-- gtpv2/message/message.go:20-277 -/
def v2Messages : List (String × Nat) := [
  ("MsgTypeEchoRequest", 1), ("MsgTypeEchoResponse", 2), ("MsgTypeVersionNotSupportedIndication", 3),
  ("MsgTypeDirectTransferRequest", 4), ("MsgTypeDirectTransferResponse", 5), ("MsgTypeNotificationRequest", 6),
  ("MsgTypeNotificationResponse", 7), ("MsgTypeRIMInformationTransfer", 17), ("MsgTypeSRVCCPsToCsRequest", 25),
  ("MsgTypeSRVCCPsToCsResponse", 26), ("MsgTypeSRVCCPsToCsCompleteNotification", 27),
  ("MsgTypeSRVCCPsToCsCompleteAcknowledge", 28), ("MsgTypeSRVCCPsToCsCancelNotification", 29),
  ("MsgTypeSRVCCPsToCsCancelAcknowledge", 30), ("MsgTypeSRVCCCsToPsRequest", 31), ("MsgTypeCreateSessionRequest", 32),
  ("MsgTypeCreateSessionResponse", 33), ("MsgTypeModifyBearerRequest", 34), ("MsgTypeModifyBearerResponse", 35),
  ("MsgTypeDeleteSessionRequest", 36), ("MsgTypeDeleteSessionResponse", 37), ("MsgTypeChangeNotificationRequest", 38),
  ("MsgTypeChangeNotificationResponse", 39), ("MsgTypeRemoteUEReportNotification", 40),
  ("MsgTypeRemoteUEReportAcknowledge", 41), ("MsgTypeModifyBearerCommand", 64), ("MsgTypeModifyBearerFailureIndication", 65),
  ("MsgTypeDeleteBearerCommand", 66), ("MsgTypeDeleteBearerFailureIndication", 67), ("MsgTypeBearerResourceCommand", 68),
  ("MsgTypeBearerResourceFailureIndication", 69), ("MsgTypeDownlinkDataNotificationFailureIndication", 70),
  ("MsgTypeTraceSessionActivation", 71), ("MsgTypeTraceSessionDeactivation", 72), ("MsgTypeStopPagingIndication", 73),
  ("MsgTypeCreateBearerRequest", 95), ("MsgTypeCreateBearerResponse", 96), ("MsgTypeUpdateBearerRequest", 97),
  ("MsgTypeUpdateBearerResponse", 98), ("MsgTypeDeleteBearerRequest", 99), ("MsgTypeDeleteBearerResponse", 100),
  ("MsgTypeDeletePDNConnectionSetRequest", 101), ("MsgTypeDeletePDNConnectionSetResponse", 102),
  ("MsgTypePGWDownlinkTriggeringNotification", 103), ("MsgTypePGWDownlinkTriggeringAcknowledge", 104),
  ("MsgTypeIdentificationRequest", 128), ("MsgTypeIdentificationResponse", 129), ("MsgTypeContextRequest", 130),
  ("MsgTypeContextResponse", 131), ("MsgTypeContextAcknowledge", 132), ("MsgTypeForwardRelocationRequest", 133),
  ("MsgTypeForwardRelocationResponse", 134), ("MsgTypeForwardRelocationCompleteNotification", 135),
  ("MsgTypeForwardRelocationCompleteAcknowledge", 136), ("MsgTypeForwardAccessContextNotification", 137),
  ("MsgTypeForwardAccessContextAcknowledge", 138), ("MsgTypeRelocationCancelRequest", 139),
  ("MsgTypeRelocationCancelResponse", 140), ("MsgTypeConfigurationTransferTunnel", 141), ("MsgTypeDetachNotification", 149),
  ("MsgTypeDetachAcknowledge", 150), ("MsgTypeCSPagingIndication", 151), ("MsgTypeRANInformationRelay", 152),
  ("MsgTypeAlertMMENotification", 153), ("MsgTypeAlertMMEAcknowledge", 154), ("MsgTypeUEActivityNotification", 155),
  ("MsgTypeUEActivityAcknowledge", 156), ("MsgTypeISRStatusIndication", 157), ("MsgTypeUERegistrationQueryRequest", 158),
  ("MsgTypeUERegistrationQueryResponse", 159), ("MsgTypeCreateForwardingTunnelRequest", 160),
  ("MsgTypeCreateForwardingTunnelResponse", 161), ("MsgTypeSuspendNotification", 162), ("MsgTypeSuspendAcknowledge", 163),
  ("MsgTypeResumeNotification", 164), ("MsgTypeResumeAcknowledge", 165),
  ("MsgTypeCreateIndirectDataForwardingTunnelRequest", 166), ("MsgTypeCreateIndirectDataForwardingTunnelResponse", 167),
  ("MsgTypeDeleteIndirectDataForwardingTunnelRequest", 168), ("MsgTypeDeleteIndirectDataForwardingTunnelResponse", 169),
  ("MsgTypeReleaseAccessBearersRequest", 170), ("MsgTypeReleaseAccessBearersResponse", 171),
  ("MsgTypeDownlinkDataNotification", 176), ("MsgTypeDownlinkDataNotificationAcknowledge", 177),
  ("MsgTypePGWRestartNotification", 179), ("MsgTypePGWRestartNotificationAcknowledge", 180),
  ("MsgTypeUpdatePDNConnectionSetRequest", 200), ("MsgTypeUpdatePDNConnectionSetResponse", 201),
  ("MsgTypeModifyAccessBearersRequest", 211), ("MsgTypeModifyAccessBearersResponse", 212),
  ("MsgTypeMBMSSessionStartRequest", 231), ("MsgTypeMBMSSessionStartResponse", 232),
  ("MsgTypeMBMSSessionUpdateRequest", 233), ("MsgTypeMBMSSessionUpdateResponse", 234),
  ("MsgTypeMBMSSessionStopRequest", 235), ("MsgTypeMBMSSessionStopResponse", 236), ("MsgTypeSRVCCCsToPsResponse", 240),
  ("MsgTypeSRVCCCsToPsCompleteNotification", 241), ("MsgTypeSRVCCCsToPsCompleteAcknowledge", 242),
  ("MsgTypeSRVCCCsToPsCancelNotification", 243), ("MsgTypeSRVCCCsToPsCancelAcknowledge", 244)]

/-- gtpv0/ie/ie.go:246-274 (ieTypeNameMap) -/
def v0IENames : List (UInt8 × String) := [
  (1, "Cause"), (2, "IMSI"), (3, "RouteingAreaIdentity"), (4, "TemporaryLogicalLinkIdentity"), (5, "PacketTMSI"),
  (6, "QualityOfServiceProfile"), (8, "ReorderingRequired"), (9, "AuthenticationTriplet"), (11, "MAPCause"),
  (12, "PTMSISignature"), (13, "MSValidated"), (14, "Recovery"), (15, "SelectionMode"), (16, "FlowLabelDataI"),
  (17, "FlowLabelSignalling"), (18, "FlowLabelDataII"), (19, "MSNotReachableReason"), (127, "ChargingID"),
  (128, "EndUserAddress"), (129, "MMContext"), (130, "PDPContext"), (131, "AccessPointName"),
  (132, "ProtocolConfigurationOptions"), (133, "GSNAddress"), (134, "MSISDN"), (251, "ChargingGatewayAddress"),
  (255, "PrivateExtension")]

/-- gtpv1/ie/ie.go:386-485 (ieTypeNameMap) -/
def v1IENames : List (UInt8 × String) := [
  (128, "EndUserAddress"), (129, "MMContext"), (130, "PDPContext"), (131, "AccessPointName"),
  (132, "ProtocolConfigurationOptions"), (133, "GSNAddress"), (134, "MSISDN"), (135, "QoSProfile"),
  (136, "AuthenticationQuintuplet"), (137, "TrafficFlowTemplate"), (138, "TargetIdentification"),
  (139, "UTRANTransparentContainer"), (140, "RABSetupInformation"), (141, "ExtensionHeaderTypeList"), (142, "TriggerID"),
  (143, "OMCIdentity"), (144, "RANTransparentContainer"), (145, "PDPContextPrioritization"),
  (146, "AdditionalRABSetupInformation"), (147, "SGSNNumber"), (148, "CommonFlags"), (149, "APNRestriction"),
  (150, "RadioPriorityLCS"), (151, "RATType"), (152, "UserLocationInformation"), (153, "MSTimeZone"), (154, "IMEISV"),
  (155, "CAMELChargingInformationContainer"), (156, "MBMSUEContext"), (157, "TemporaryMobileGroupIdentity"),
  (158, "RIMRoutingAddress"), (159, "MBMSProtocolConfigurationOptions"), (160, "MBMSServiceArea"),
  (161, "SourceRNCPDCPContextInfo"), (162, "AdditionalTraceInfo"), (163, "HopCounter"), (164, "SelectedPLMNID"),
  (165, "MBMSSessionIdentifier"), (166, "MBMS2G3GIndicator"), (167, "EnhancedNSAPI"), (168, "MBMSSessionDuration"),
  (169, "AdditionalMBMSTraceInfo"), (170, "MBMSSessionRepetitionNumber"), (171, "MBMSTimeToDataTransfer"),
  (173, "BSSContainer"), (174, "CellIdentification"), (175, "PDUNumbers"), (176, "BSSGPCause"),
  (177, "RequiredMBMSBearerCapabilities"), (178, "RIMRoutingAddressDiscriminator"), (179, "ListOfSetupPFCs"),
  (180, "PSHandoverXIDParameters"), (181, "MSInfoChangeReportingAction"), (182, "DirectTunnelFlags"), (183, "CorrelationID"),
  (184, "BearerControlMode"), (185, "MBMSFlowIdentifier"), (186, "MBMSIPMulticastDistribution"),
  (187, "MBMSDistributionAcknowledgement"), (188, "ReliableInterRATHandoverInfo"), (189, "RFSPIndex"),
  (190, "FullyQualifiedDomainName"), (191, "EvolvedAllocationRetentionPriorityI"),
  (192, "EvolvedAllocationRetentionPriorityII"), (193, "ExtendedCommonFlags"), (194, "UserCSGInformation"),
  (195, "CSGInformationReportingAction"), (196, "CSGID"), (197, "CSGMembershipIndication"), (198, "AggregateMaximumBitRate"),
  (199, "UENetworkCapability"), (200, "UEAMBR"), (201, "APNAMBRWithNSAPI"), (202, "GGSNBackOffTime"),
  (203, "SignallingPriorityIndication"), (204, "SignallingPriorityIndicationWithNSAPI"),
  (205, "HigherBitratesThan16MbpsFlag"), (207, "AdditionalMMContextForSRVCC"), (208, "AdditionalFlagsForSRVCC"),
  (209, "STNSR"), (210, "CMSISDN"), (211, "ExtendedRANAPCause"), (212, "ENodeBID"), (213, "SelectionModeWithNSAPI"),
  (214, "ULITimestamp"), (215, "LHNIDWithNSAPI"), (216, "CNOperatorSelectionEntity"), (217, "UEUsageType"),
  (218, "ExtendedCommonFlagsII"), (219, "NodeIdentifier"), (220, "CIoTOptimizationsSupportIndication"),
  (221, "SCEFPDNConnection"), (222, "IOVUpdatesCounter"), (223, "MappedUEUsageType"),
  (224, "UPFunctionSelectionIndicationFlags"), (238, "SpecialIETypeForIETypeExtension"), (251, "ChargingGatewayAddress"),
  (255, "PrivateExtension")]

/-- gtpv2/ie/ie.go:445-590 (ieTypeNameMap) -/
def v2IENames : List (UInt8 × String) := [
  (1, "IMSI"), (2, "Cause"), (3, "Recovery"), (51, "STNSR"), (71, "AccessPointName"), (72, "AggregateMaximumBitRate"),
  (73, "EPSBearerID"), (74, "IPAddress"), (75, "MobileEquipmentIdentity"), (76, "MSISDN"), (77, "Indication"),
  (78, "ProtocolConfigurationOptions"), (79, "PDNAddressAllocation"), (80, "BearerQoS"), (81, "FlowQoS"), (82, "RATType"),
  (83, "ServingNetwork"), (84, "BearerTFT"), (85, "TrafficAggregateDescription"), (86, "UserLocationInformation"),
  (87, "FullyQualifiedTEID"), (88, "TMSI"), (89, "GlobalCNID"), (90, "S103PDNDataForwardingInfo"), (91, "S1UDataForwarding"),
  (92, "DelayValue"), (93, "BearerContext"), (94, "ChargingID"), (95, "ChargingCharacteristics"), (96, "TraceInformation"),
  (97, "BearerFlags"), (99, "PDNType"), (100, "ProcedureTransactionID"), (103, "MMContextGSMKeyAndTriplets"),
  (104, "MMContextUMTSKeyUsedCipherAndQuintuplets"), (105, "MMContextGSMKeyUsedCipherAndQuintuplets"),
  (106, "MMContextUMTSKeyAndQuintuplets"), (107, "MMContextEPSSecurityContextQuadrupletsAndQuintuplets"),
  (108, "MMContextUMTSKeyQuadrupletsAndQuintuplets"), (109, "PDNConnection"), (110, "PDUNumbers"), (111, "PacketTMSI"),
  (112, "PTMSISignature"), (113, "HopCounter"), (114, "UETimeZone"), (115, "TraceReference"),
  (116, "CompleteRequestMessage"), (117, "GUTI"), (118, "FContainer"), (119, "FCause"), (121, "PLMNID"),
  (122, "TargetIdentification"), (123, "PacketFlowID"), (124, "RABContext"), (125, "SourceRNCPDCPContextInfo"),
  (126, "PortNumber"), (127, "APNRestriction"), (128, "SelectionMode"), (129, "SourceIdentification"), (130, "Reserved"),
  (131, "ChangeReportingAction"), (132, "FullyQualifiedCSID"), (133, "ChannelNeeded"), (134, "EMLPPPriority"),
  (135, "NodeType"), (136, "FullyQualifiedDomainName"), (137, "TI"), (138, "MBMSSessionDuration"), (139, "MBMSServiceArea"),
  (140, "MBMSSessionIdentifier"), (141, "MBMSFlowIdentifier"), (142, "MBMSIPMulticastDistribution"),
  (143, "MBMSDistributionAcknowledge"), (144, "RFSPIndex"), (145, "UserCSGInformation"),
  (146, "CSGInformationReportingAction"), (147, "CSGID"), (148, "CSGMembershipIndication"), (149, "ServiceIndicator"),
  (150, "DetachType"), (151, "LocalDistinguishedName"), (152, "NodeFeatures"), (153, "MBMSTimeToDataTransfer"),
  (154, "Throttling"), (155, "AllocationRetensionPriority"), (156, "EPCTimer"), (157, "SignallingPriorityIndication"),
  (158, "TMGI"), (159, "AdditionalMMContextForSRVCC"), (160, "AdditionalFlagsForSRVCC"), (162, "MDTConfiguration"),
  (163, "AdditionalProtocolConfigurationOptions"), (164, "AbsoluteTimeofMBMSDataTransfer"),
  (165, "HeNBInformationReporting"), (166, "IPv4ConfigurationParameters"), (167, "ChangeToReportFlags"),
  (168, "ActionIndication"), (169, "TWANIdentifier"), (170, "ULITimestamp"), (171, "MBMSFlags"), (172, "RANNASCause"),
  (173, "CNOperatorSelectionEntity"), (174, "TrustedWLANModeIndication"), (175, "NodeNumber"), (176, "NodeIdentifier"),
  (177, "PresenceReportingAreaAction"), (178, "PresenceReportingAreaInformation"), (179, "TWANIdentifierTimestamp"),
  (180, "OverloadControlInformation"), (181, "LoadControlInformation"), (182, "Metric"), (183, "SequenceNumber"),
  (184, "APNAndRelativeCapacity"), (185, "WLANOffloadabilityIndication"), (186, "PagingAndServiceInformation"),
  (187, "IntegerNumber"), (188, "MillisecondTimeStamp"), (189, "MonitoringEventInformation"), (190, "ECGIList"),
  (191, "RemoteUEContext"), (192, "RemoteUserID"), (193, "RemoteUEIPinformation"),
  (194, "CIoTOptimizationsSupportIndication"), (195, "SCEFPDNConnection"), (196, "HeaderCompressionConfiguration"),
  (197, "ExtendedProtocolConfigurationOptions"), (198, "ServingPLMNRateControl"), (199, "Counter"),
  (200, "MappedUEUsageType"), (201, "SecondaryRATUsageDataReport"), (202, "UPFunctionSelectionIndicationFlags"),
  (203, "MaximumPacketLossRate"), (204, "APNRateControlStatus"), (205, "ExtendedTraceInformation"),
  (206, "MonitoringEventExtensionInformation"), (207, "AdditionalRRMPolicyIndex"), (208, "V2XContext"),
  (209, "PC5QoSParameters"), (210, "ServicesAuthorized"), (211, "BitRate"), (212, "PC5QoSFlow"),
  (213, "SGiPtPTunnelAddress"), (254, "SpecialIETypeForIETypeExtension"), (255, "PrivateExtension")]

/-- the type under which Parse makes a message (gtpv0/message/message.go:106-142) and its MessageTypeName
  gtpv0/message/echo-req.go:147-149, gtpv0/message/echo-res.go:159-161, gtpv0/message/create-pdp-context-req.go:317-319,
  gtpv0/message/create-pdp-context-res.go:315-317, gtpv0/message/update-pdp-context-req.go:260-262,
  gtpv0/message/update-pdp-context-res.go:288-290, gtpv0/message/delete-pdp-context-req.go:146-148,
  gtpv0/message/delete-pdp-context-res.go:157-159, gtpv0/message/t-pdu.go:76-78 -/
def v0MsgNames : List (UInt8 × String) := [
  (1, "Echo Request"), (2, "Echo Response"), (16, "Create PDP Context Request"), (17, "Create PDP Context Response"),
  (18, "Update PDP Context Request"), (19, "Update PDP Context Response"), (20, "Delete PDP Context Request"),
  (21, "Delete PDP Context Response"), (255, "T-PDU")]

/-- the type under which Parse makes a message (gtpv1/message/message.go:117-162) and its MessageTypeName
  gtpv1/message/echo-req.go:139-141, gtpv1/message/echo-res.go:156-158, gtpv1/message/create-pdp-context-req.go:697-699,
  gtpv1/message/create-pdp-context-res.go:522-524, gtpv1/message/update-pdp-context-req.go:573-575,
  gtpv1/message/update-pdp-context-res.go:437-439, gtpv1/message/delete-pdp-context-req.go:253-255,
  gtpv1/message/version-not-supported.go:119-121, gtpv1/message/delete-pdp-context-res.go:211-213,
  gtpv1/message/error-indication.go:167-169, gtpv1/message/supported-extension-header-notification.go:141-143,
  gtpv1/message/end-marker.go:139-141, gtpv1/message/t-pdu.go:87-89 -/
def v1MsgNames : List (UInt8 × String) := [
  (1, "Echo Request"), (2, "Echo Response"), (16, "Create PDP Context Request"), (17, "Create PDP Context Response"),
  (18, "Update PDP Context Request"), (19, "Update PDP Context Response"), (20, "Delete PDP Context Request"),
  (3, "Version Not Supported"), (21, "Delete PDP Context Response"), (26, "Errror Indication"),
  (31, "Supported Extension Header Notification"), (254, "End Marker"), (255, "T-PDU")]

/-- the type under which Parse makes a message (gtpv2/message/message.go:309-413) and its MessageTypeName
  gtpv2/message/echo-req.go:168-170, gtpv2/message/echo-res.go:173-175, gtpv2/message/version-not-supported.go:126-128,
  gtpv2/message/create-session-req.go:1127-1129, gtpv2/message/create-session-res.go:662-664,
  gtpv2/message/delete-session-req.go:492-494, gtpv2/message/delete-session-res.go:318-320,
  gtpv2/message/modify-bearer-command.go:230-232, gtpv2/message/modify-bearer-failure-indication.go:216-218,
  gtpv2/message/delete-bearer-command.go:258-260, gtpv2/message/delete-bearer-failure-indication.go:230-232,
  gtpv2/message/delete-bearer-req.go:422-424, gtpv2/message/create-bearer-req.go:408-410,
  gtpv2/message/create-bearer-res.go:497-499, gtpv2/message/delete-bearer-res.go:554-556,
  gtpv2/message/modify-bearer-req.go:690-692, gtpv2/message/modify-bearer-res.go:544-546,
  gtpv2/message/update-bearer-req.go:408-410, gtpv2/message/update-bearer-res.go:518-520,
  gtpv2/message/context-req.go:428-430, gtpv2/message/context-res.go:599-601, gtpv2/message/context-ack.go:275-277,
  gtpv2/message/release-access-bearers-req.go:196-198, gtpv2/message/release-access-bearers-res.go:211-213,
  gtpv2/message/stop-paging-indication.go:154-156, gtpv2/message/modify-access-bearers-req.go:244-246,
  gtpv2/message/modify-access-bearers-res.go:244-246, gtpv2/message/delete-pdn-connection-set-req.go:223-225,
  gtpv2/message/delete-pdn-connection-set-res.go:172-174, gtpv2/message/update-pdn-connection-set-req.go:181-183,
  gtpv2/message/update-pdn-connection-set-res.go:186-188, gtpv2/message/pgw-restart-notification.go:195-197,
  gtpv2/message/pgw-restart-notification-acknowledge.go:157-159, gtpv2/message/detach-notification.go:171-173,
  gtpv2/message/detach-acknowledge.go:172-174, gtpv2/message/resume-acknowledge.go:134-136,
  gtpv2/message/resume-notification.go:176-178, gtpv2/message/suspend-acknowledge.go:157-159,
  gtpv2/message/suspend-notification.go:269-271, gtpv2/message/change-notification-req.go:295-297,
  gtpv2/message/change-notification-res.go:222-224, gtpv2/message/downlink-data-notification.go:283-285,
  gtpv2/message/downlink-data-notification-ack.go:241-243,
  gtpv2/message/downlink-data-notification-failure-indication.go:185-187 -/
def v2MsgNames : List (UInt8 × String) := [
  (1, "Echo Request"), (2, "Echo Response"), (3, "Version Not Supported Indication"), (32, "Create Session Request"),
  (33, "Create Session Response"), (36, "Delete Session Request"), (37, "Delete Session Response"),
  (64, "Modify Bearer Command"), (65, "Modify Bearer Failure Indication"), (66, "Delete Bearer Command"),
  (67, "Delete Bearer Failure Indication"), (99, "Delete Bearer Request"), (95, "Create Bearer Request"),
  (96, "Create Bearer Response"), (100, "Delete Bearer Response"), (34, "Modify Bearer Request"),
  (35, "Modify Bearer Response"), (97, "Update Bearer Request"), (98, "Update Bearer Response"), (130, "Context Request"),
  (131, "Context Response"), (132, "Context Acknowledge"), (170, "Release Access Bearers Request"),
  (171, "Release Access Bearers Response"), (73, "Stop Paging Indication"), (211, "Modify Access Bearers Request"),
  (212, "Modify Access Bearers Response"), (101, "Delete PDN Connection Set Request"),
  (102, "Delete PDN Connection Set Response"), (200, "Update PDN Connection Set Request"),
  (201, "Update PDN Connection Set Response"), (179, "PGW Restart Notification"),
  (180, "PGW Restart Notification Acknowledge"), (149, "Detach Notification"), (150, "Detach Acknowledge"),
  (165, "Resume Acknowledge"), (164, "Resume Notification"), (163, "Suspend Acknowledge"), (162, "Suspend Notification"),
  (38, "Change Notification Request"), (39, "Change Notification Response"), (176, "Downlink Data Notification"),
  (177, "Downlink Data Notification Acknowledge"), (70, "Downlink Data Notification Failure Indication")]

/-- the entry of a map -/
def entry (m : List (UInt8 × String)) (t : UInt8) : Option String := (m.find? fun e => e.1 == t).map (·.2)

/-- (*IE).Name: gtpv0/ie/ie.go:188-194, gtpv1/ie/ie.go:332-338, gtpv2/ie/ie.go:304-310 -/
def ieName (m : List (UInt8 × String)) (t : UInt8) : String :=
  match entry m t with
  | some n => n
  | none => "Undefined"

/-- MessageTypeName of what Parse makes of a message of type t; other types are Generic: gtpv0/message/generic.go:113-116,
gtpv1/message/generic.go:109-112, gtpv2/message/generic.go:130-133 -/
def msgName (m : List (UInt8 × String)) (t : UInt8) : String :=
  match entry m t with
  | some n => n
  | none => "Unknown (" ++ toString t.toNat ++ ")"

end Verif.Consts
