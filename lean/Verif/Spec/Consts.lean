/-
The numbers the standards give to message types, information elements, causes and other codes (TS 29.274, 29.281, 29.060,
GSM 09.60, TS 24.008, 29.002, 25.413). No copy of the standards was at hand: numbers and table references are from memory,
after the constants of the code had been read, and are not checked against the printed tables. The choice of entries, their
order and the identifiers (spelling mistakes included) are those of the library, so an entry missing in the library is not
noticed. That these numbers are right is part of the trusted base (DESIGN.md).
-/
namespace Verif.Spec

/-- consecutive numbers from n on -/
def upFrom (n : Nat) : List String → List (String × Nat)
  | [] => []
  | s :: l => (s, n) :: upFrom (n + 1) l

def prefixed (p : String) (l : List (String × Nat)) : List (String × Nat) := l.map fun e => (p ++ e.1, e.2)

/-! ### message types -/

/-- GSM 09.60 table 1 -/
def v0Messages : List (String × Nat) := prefixed "MsgType" <|
  upFrom 1 ["EchoRequest", "EchoResponse", "VersionNotSupported", "NodeAliveRequest", "NodeAliveResponse",
    "RedirectionRequest", "RedirectionResponse"] ++
  upFrom 16 ["CreatePDPContextRequest", "CreatePDPContextResponse", "UpdatePDPContextRequest", "UpdatePDPContextResponse",
    "DeletePDPContextRequest", "DeletePDPContextResponse", "CreateAAPDPContextRequest", "CreateAAPDPContextResponse",
    "DeleteAAPDPContextRequest", "DeleteAAPDPContextResponse", "ErrorIndication", "PDUNotificationRequest",
    "PDUNotificationResponse", "PDUNotificationRejectRequest", "PDUNotificationRejectResponse"] ++
  upFrom 32 ["SendRouteingInformationforGPRSRequest", "SendRouteingInformationforGPRSResponse", "FailureReportRequest",
    "FailureReportResponse", "NoteMSGPRSPresentRequest", "NoteMSGPRSPresentResponse"] ++
  upFrom 48 ["IdentificationRequest", "IdentificationResponse", "SGSNContextRequest", "SGSNContextResponse",
    "SGSNContextAcknowledge"] ++
  upFrom 240 ["DataRecordTransferRequest", "DataRecordTransferResponse"] ++
  upFrom 255 ["TPDU"]

/-- the messages of TS 29.060 table 1 and TS 29.281 table 6.1-1, but for the five of mobility management -/
def v1MessagesSM : List (String × Nat) := prefixed "MsgType" <|
  upFrom 1 ["EchoRequest", "EchoResponse", "VersionNotSupported", "NodeAliveRequest", "NodeAliveResponse",
    "RedirectionRequest", "RedirectionResponse"] ++
  upFrom 16 ["CreatePDPContextRequest", "CreatePDPContextResponse", "UpdatePDPContextRequest", "UpdatePDPContextResponse",
    "DeletePDPContextRequest", "DeletePDPContextResponse", "CreateAAPDPContextRequest", "CreateAAPDPContextResponse",
    "DeleteAAPDPContextRequest", "DeleteAAPDPContextResponse", "ErrorIndication", "PDUNotificationRequest",
    "PDUNotificationResponse", "PDUNotificationRejectRequest", "PDUNotificationRejectResponse",
    "SupportedExtensionHeaderNotification", "SendRoutingInfoRequest", "SendRoutingInfoResponse", "FailureReportRequest",
    "FailureReportResponse", "NoteMSPresentRequest", "NoteMSPresentResponse"]

/-- the five of mobility management -/
def v1MessagesMM : List (String × Nat) := prefixed "MsgType" <|
  upFrom 48 ["IdentificationRequest", "IdentificationResponse", "SGSNContextRequest", "SGSNContextResponse",
    "SGSNContextAcknowledge"]

def v1MessagesRest : List (String × Nat) := prefixed "MsgType" <|
  upFrom 240 ["DataRecordTransferRequest", "DataRecordTransferResponse"] ++
  upFrom 254 ["EndMarker", "TPDU"]

/-- TS 29.274 table 6.1-1 (SRVCC: TS 29.280) -/
def v2Messages : List (String × Nat) := prefixed "MsgType" <|
  upFrom 1 ["EchoRequest", "EchoResponse", "VersionNotSupportedIndication", "DirectTransferRequest", "DirectTransferResponse",
    "NotificationRequest", "NotificationResponse"] ++
  upFrom 17 ["RIMInformationTransfer"] ++
  upFrom 25 ["SRVCCPsToCsRequest", "SRVCCPsToCsResponse", "SRVCCPsToCsCompleteNotification",
    "SRVCCPsToCsCompleteAcknowledge", "SRVCCPsToCsCancelNotification", "SRVCCPsToCsCancelAcknowledge", "SRVCCCsToPsRequest",
    "CreateSessionRequest", "CreateSessionResponse", "ModifyBearerRequest", "ModifyBearerResponse", "DeleteSessionRequest",
    "DeleteSessionResponse", "ChangeNotificationRequest", "ChangeNotificationResponse", "RemoteUEReportNotification",
    "RemoteUEReportAcknowledge"] ++
  upFrom 64 ["ModifyBearerCommand", "ModifyBearerFailureIndication", "DeleteBearerCommand", "DeleteBearerFailureIndication",
    "BearerResourceCommand", "BearerResourceFailureIndication", "DownlinkDataNotificationFailureIndication",
    "TraceSessionActivation", "TraceSessionDeactivation", "StopPagingIndication"] ++
  upFrom 95 ["CreateBearerRequest", "CreateBearerResponse", "UpdateBearerRequest", "UpdateBearerResponse",
    "DeleteBearerRequest", "DeleteBearerResponse", "DeletePDNConnectionSetRequest", "DeletePDNConnectionSetResponse",
    "PGWDownlinkTriggeringNotification", "PGWDownlinkTriggeringAcknowledge"] ++
  upFrom 128 ["IdentificationRequest", "IdentificationResponse", "ContextRequest", "ContextResponse", "ContextAcknowledge",
    "ForwardRelocationRequest", "ForwardRelocationResponse", "ForwardRelocationCompleteNotification",
    "ForwardRelocationCompleteAcknowledge", "ForwardAccessContextNotification", "ForwardAccessContextAcknowledge",
    "RelocationCancelRequest", "RelocationCancelResponse", "ConfigurationTransferTunnel"] ++
  upFrom 149 ["DetachNotification", "DetachAcknowledge", "CSPagingIndication", "RANInformationRelay", "AlertMMENotification",
    "AlertMMEAcknowledge", "UEActivityNotification", "UEActivityAcknowledge", "ISRStatusIndication",
    "UERegistrationQueryRequest", "UERegistrationQueryResponse", "CreateForwardingTunnelRequest",
    "CreateForwardingTunnelResponse", "SuspendNotification", "SuspendAcknowledge", "ResumeNotification", "ResumeAcknowledge",
    "CreateIndirectDataForwardingTunnelRequest", "CreateIndirectDataForwardingTunnelResponse",
    "DeleteIndirectDataForwardingTunnelRequest", "DeleteIndirectDataForwardingTunnelResponse",
    "ReleaseAccessBearersRequest", "ReleaseAccessBearersResponse"] ++
  upFrom 176 ["DownlinkDataNotification", "DownlinkDataNotificationAcknowledge"] ++
  upFrom 179 ["PGWRestartNotification", "PGWRestartNotificationAcknowledge"] ++
  upFrom 200 ["UpdatePDNConnectionSetRequest", "UpdatePDNConnectionSetResponse"] ++
  upFrom 211 ["ModifyAccessBearersRequest", "ModifyAccessBearersResponse"] ++
  upFrom 231 ["MBMSSessionStartRequest", "MBMSSessionStartResponse", "MBMSSessionUpdateRequest", "MBMSSessionUpdateResponse",
    "MBMSSessionStopRequest", "MBMSSessionStopResponse"] ++
  upFrom 240 ["SRVCCCsToPsResponse", "SRVCCCsToPsCompleteNotification", "SRVCCCsToPsCompleteAcknowledge",
    "SRVCCCsToPsCancelNotification", "SRVCCCsToPsCancelAcknowledge"]

/-- TS 29.281 figure 5.2.1-3, TS 29.060 figure 5 -/
def v1ExtensionHeaders : List (String × Nat) := prefixed "ExtHeaderType" <|
  upFrom 0x00 ["NoMoreExtensionHeaders", "MBMSSupportIndication", "MSInfoChangeReportingSupportIndication",
    "LongPDCPPDUNumber"] ++
  upFrom 0x20 ["ServiceClassIndicator"] ++
  upFrom 0x40 ["UDPPort"] ++
  upFrom 0x81 ["RANContainer", "LongPDCPPDUNumberRequired", "XwRANContainer", "NRRANContainer", "PDUSessionContainer"] ++
  upFrom 0xc0 ["PDCPPDUNumber", "SuspendRequest", "SuspendResponse"]

/-! ### information elements -/

/-- GSM 09.60 table 37: elements of fixed length -/
def v0TV : List (String × Nat) :=
  upFrom 1 ["Cause", "IMSI", "RouteingAreaIdentity", "TemporaryLogicalLinkIdentity", "PacketTMSI",
    "QualityOfServiceProfile"] ++
  upFrom 8 ["ReorderingRequired", "AuthenticationTriplet"] ++
  upFrom 11 ["MAPCause", "PTMSISignature", "MSValidated", "Recovery", "SelectionMode", "FlowLabelDataI",
    "FlowLabelSignalling", "FlowLabelDataII", "MSNotReachableReason"] ++
  upFrom 127 ["ChargingID"]

/-- and of variable length -/
def v0TLV : List (String × Nat) :=
  upFrom 128 ["EndUserAddress", "MMContext", "PDPContext", "AccessPointName", "ProtocolConfigurationOptions", "GSNAddress",
    "MSISDN"] ++
  upFrom 251 ["ChargingGatewayAddress"] ++
  upFrom 255 ["PrivateExtension"]

/-- TS 29.060 table 37: elements of fixed length -/
def v1TV : List (String × Nat) :=
  upFrom 1 ["Cause", "IMSI", "RouteingAreaIdentity", "TemporaryLogicalLinkIdentity", "PacketTMSI"] ++
  upFrom 8 ["ReorderingRequired", "AuthenticationTriplet"] ++
  upFrom 11 ["MAPCause", "PTMSISignature", "MSValidated", "Recovery", "SelectionMode", "TEIDDataI", "TEIDCPlane",
    "TEIDDataII", "TeardownInd", "NSAPI", "RANAPCause", "RABContext", "RadioPrioritySMS", "RadioPriority", "PacketFlowID",
    "ChargingCharacteristics", "TraceReference", "TraceType", "MSNotReachableReason"] ++
  upFrom 127 ["ChargingID"]

/-- and of variable length -/
def v1TLV : List (String × Nat) :=
  upFrom 128 ["EndUserAddress", "MMContext", "PDPContext", "AccessPointName", "ProtocolConfigurationOptions", "GSNAddress",
    "MSISDN", "QoSProfile", "AuthenticationQuintuplet", "TrafficFlowTemplate", "TargetIdentification",
    "UTRANTransparentContainer", "RABSetupInformation", "ExtensionHeaderTypeList", "TriggerID", "OMCIdentity",
    "RANTransparentContainer", "PDPContextPrioritization", "AdditionalRABSetupInformation", "SGSNNumber", "CommonFlags",
    "APNRestriction", "RadioPriorityLCS", "RATType", "UserLocationInformation", "MSTimeZone", "IMEISV",
    "CAMELChargingInformationContainer", "MBMSUEContext", "TemporaryMobileGroupIdentity", "RIMRoutingAddress",
    "MBMSProtocolConfigurationOptions", "MBMSServiceArea", "SourceRNCPDCPContextInfo", "AdditionalTraceInfo", "HopCounter",
    "SelectedPLMNID", "MBMSSessionIdentifier", "MBMS2G3GIndicator", "EnhancedNSAPI", "MBMSSessionDuration",
    "AdditionalMBMSTraceInfo", "MBMSSessionRepetitionNumber", "MBMSTimeToDataTransfer"] ++
  upFrom 173 ["BSSContainer", "CellIdentification", "PDUNumbers", "BSSGPCause", "RequiredMBMSBearerCapabilities",
    "RIMRoutingAddressDiscriminator", "ListOfSetupPFCs", "PSHandoverXIDParameters", "MSInfoChangeReportingAction",
    "DirectTunnelFlags", "CorrelationID", "BearerControlMode", "MBMSFlowIdentifier", "MBMSIPMulticastDistribution",
    "MBMSDistributionAcknowledgement", "ReliableInterRATHandoverInfo", "RFSPIndex", "FullyQualifiedDomainName",
    "EvolvedAllocationRetentionPriorityI", "EvolvedAllocationRetentionPriorityII", "ExtendedCommonFlags",
    "UserCSGInformation", "CSGInformationReportingAction", "CSGID", "CSGMembershipIndication", "AggregateMaximumBitRate",
    "UENetworkCapability", "UEAMBR", "APNAMBRWithNSAPI", "GGSNBackOffTime", "SignallingPriorityIndication",
    "SignallingPriorityIndicationWithNSAPI", "HigherBitratesThan16MbpsFlag"] ++
  upFrom 207 ["AdditionalMMContextForSRVCC", "AdditionalFlagsForSRVCC", "STNSR", "CMSISDN", "ExtendedRANAPCause",
    "ENodeBID", "SelectionModeWithNSAPI", "ULITimestamp", "LHNIDWithNSAPI", "CNOperatorSelectionEntity", "UEUsageType",
    "ExtendedCommonFlagsII", "NodeIdentifier", "CIoTOptimizationsSupportIndication", "SCEFPDNConnection",
    "IOVUpdatesCounter", "MappedUEUsageType", "UPFunctionSelectionIndicationFlags"] ++
  upFrom 238 ["SpecialIETypeForIETypeExtension"] ++
  upFrom 251 ["ChargingGatewayAddress"] ++
  upFrom 255 ["PrivateExtension"]

/-- TS 29.274 table 8.1-1 -/
def v2IE : List (String × Nat) :=
  upFrom 1 ["IMSI", "Cause", "Recovery"] ++
  upFrom 51 ["STNSR"] ++
  upFrom 71 ["AccessPointName", "AggregateMaximumBitRate", "EPSBearerID", "IPAddress", "MobileEquipmentIdentity", "MSISDN",
    "Indication", "ProtocolConfigurationOptions", "PDNAddressAllocation", "BearerQoS", "FlowQoS", "RATType",
    "ServingNetwork", "BearerTFT", "TrafficAggregateDescription", "UserLocationInformation", "FullyQualifiedTEID", "TMSI",
    "GlobalCNID", "S103PDNDataForwardingInfo", "S1UDataForwarding", "DelayValue", "BearerContext", "ChargingID",
    "ChargingCharacteristics", "TraceInformation", "BearerFlags"] ++
  upFrom 99 ["PDNType", "ProcedureTransactionID"] ++
  upFrom 103 ["MMContextGSMKeyAndTriplets", "MMContextUMTSKeyUsedCipherAndQuintuplets",
    "MMContextGSMKeyUsedCipherAndQuintuplets", "MMContextUMTSKeyAndQuintuplets",
    "MMContextEPSSecurityContextQuadrupletsAndQuintuplets", "MMContextUMTSKeyQuadrupletsAndQuintuplets", "PDNConnection",
    "PDUNumbers", "PacketTMSI", "PTMSISignature", "HopCounter", "UETimeZone", "TraceReference", "CompleteRequestMessage",
    "GUTI", "FContainer", "FCause", "PLMNID", "TargetIdentification"] ++
  upFrom 123 ["PacketFlowID", "RABContext", "SourceRNCPDCPContextInfo", "PortNumber", "APNRestriction", "SelectionMode",
    "SourceIdentification"] ++
  upFrom 131 ["ChangeReportingAction", "FullyQualifiedCSID", "ChannelNeeded", "EMLPPPriority", "NodeType",
    "FullyQualifiedDomainName", "TI", "MBMSSessionDuration", "MBMSServiceArea", "MBMSSessionIdentifier",
    "MBMSFlowIdentifier", "MBMSIPMulticastDistribution", "MBMSDistributionAcknowledge", "RFSPIndex", "UserCSGInformation",
    "CSGInformationReportingAction", "CSGID", "CSGMembershipIndication", "ServiceIndicator", "DetachType",
    "LocalDistinguishedName", "NodeFeatures", "MBMSTimeToDataTransfer", "Throttling", "AllocationRetensionPriority",
    "EPCTimer", "SignallingPriorityIndication", "TMGI", "AdditionalMMContextForSRVCC", "AdditionalFlagsForSRVCC"] ++
  upFrom 162 ["MDTConfiguration", "AdditionalProtocolConfigurationOptions", "AbsoluteTimeofMBMSDataTransfer",
    "HeNBInformationReporting", "IPv4ConfigurationParameters", "ChangeToReportFlags", "ActionIndication", "TWANIdentifier",
    "ULITimestamp", "MBMSFlags", "RANNASCause", "CNOperatorSelectionEntity", "TrustedWLANModeIndication", "NodeNumber",
    "NodeIdentifier", "PresenceReportingAreaAction", "PresenceReportingAreaInformation", "TWANIdentifierTimestamp",
    "OverloadControlInformation", "LoadControlInformation", "Metric", "SequenceNumber", "APNAndRelativeCapacity",
    "WLANOffloadabilityIndication", "PagingAndServiceInformation", "IntegerNumber", "MillisecondTimeStamp",
    "MonitoringEventInformation", "ECGIList", "RemoteUEContext", "RemoteUserID", "RemoteUEIPinformation",
    "CIoTOptimizationsSupportIndication", "SCEFPDNConnection", "HeaderCompressionConfiguration",
    "ExtendedProtocolConfigurationOptions", "ServingPLMNRateControl", "Counter", "MappedUEUsageType",
    "SecondaryRATUsageDataReport", "UPFunctionSelectionIndicationFlags", "MaximumPacketLossRate", "APNRateControlStatus",
    "ExtendedTraceInformation", "MonitoringEventExtensionInformation", "AdditionalRRMPolicyIndex", "V2XContext",
    "PC5QoSParameters", "ServicesAuthorized", "BitRate", "PC5QoSFlow", "SGiPtPTunnelAddress"] ++
  upFrom 254 ["SpecialIETypeForIETypeExtension", "PrivateExtension"]

/-! ### causes -/

/-- GSM 09.60 table 38 -/
def v0Causes : List (String × Nat) := prefixed "Cause" <|
  upFrom 0 ["RequestIMSI", "RequestIMEI", "RequestIMSIandIMEI", "NoIdentityNeeded"] ++
  upFrom 128 ["RequestAccepted"] ++
  upFrom 192 ["NonExistent", "InvalidMessageFormat", "IMSINotKnown", "MSIsGPRSDetached", "MSIsNotGPRSResponding",
    "MSRefuses", "VersionNotSupported", "NoResourcesAvailable", "ServiceNotSupported", "MandatoryIEIncorrect",
    "MandatoryIEMissing", "OptionalIEIncorrect", "SystemFailure", "RoamingRestriction", "PTMSISignatureMismatch",
    "GPRSConnectionSuspended", "AuthenticationFailure", "UserAuthenticationFailed"]

/-- TS 29.060 table 38: causes in requests -/
def v1ReqCauses : List (String × Nat) := prefixed "ReqCause" <|
  upFrom 0 ["RequestIMSI", "RequestIMEI", "RequestIMSIAndIMEI", "NoIdentityNeeded", "MSRefuses", "MSIsNotGPRSResponding",
    "ReactivationRequested", "PDPAddressInactivityTimerExpires", "NetworkFailure", "QoSParameterMismatch"]

/-- acceptance in responses -/
def v1Acceptance : List (String × Nat) := prefixed "ResCause" <|
  upFrom 128 ["RequestAccepted", "NewPDPTypeDueToNetworkPreference", "NewPDPTypeDueToSingleAddressBearerOnly"]

/-- rejection in responses -/
def v1Rejection : List (String × Nat) := prefixed "ResCause" <|
  upFrom 192 ["NonExistent", "InvalidMessageFormat", "IMSIIMEINotKnown", "MSIsGPRSDetached", "MSIsNotGPRSResponding",
    "MSRefuses", "VersionNotSupported", "NoResourcesAvailable", "ServiceNotSupported", "MandatoryIEIncorrect",
    "MandatoryIEMissing", "OptionalIEIncorrect", "SystemFailure", "RoamingRestriction", "PTMSISignatureMismatch",
    "GPRSConnectionSuspended", "AuthenticationFailure", "UserAuthenticationFailed", "ContextNotFound",
    "AllDynamicPDPAddressesAreOccupied", "NoMemoryIsAvailable", "RelocationFailure", "UnknownMandatoryExtensionHeader",
    "SemanticErrorInTheTFTOperation", "SyntacticErrorInTheTFTOperation", "SemanticErrorsInPacketFilter",
    "SyntacticErrorsInPacketFilter", "MissingOrUnknownAPN", "UnknownPDPAddressOrPDPType",
    "PDPContextWithoutTFTAlreadyActivated", "APNAccessDeniedNoSubscription",
    "APNRestrictionTypeIncompatibilityWithCurrentlyActivePDPContexts", "MSMBMSCapabilitiesInsufficient",
    "InvalidCorrelationID", "MBMSBearerContextSuperseded", "BearerControlModeViolation",
    "CollisionWithNetworkInitiatedRequest", "APNCongestion", "BearerHandlingNotSupported",
    "TargetAccessRestrictedForTheSubscriber", "UEIsTemporarilyNotReachableDueToPowerSaving",
    "RelocationFailureDueToNASMessageRedirection"]

/-- TS 29.274 table 8.4-1 -/
def v2Causes : List (String × Nat) := prefixed "Cause" <|
  upFrom 2 ["LocalDetach", "CompleteDetach", "RATChangedFrom3GPPToNon3GPP", "ISRDeactivation",
    "ErrorIndicationReceivedFromRNCeNodeBS4SGSNMME", "IMSIDetachOnly", "ReactivationRequested",
    "PDNReconnectionToThisAPNDisallowed", "AccessChangedFromNon3GPPTo3GPP", "PDNConnectionInactivityTimerExpires",
    "PGWNotResponding", "NetworkFailure", "QoSParameterMismatch"] ++
  upFrom 16 ["RequestAccepted", "RequestAcceptedPartially", "NewPDNTypeDueToNetworkPreference",
    "NewPDNTypeDueToSingleAddressBearerOnly"] ++
  upFrom 64 ["ContextNotFound", "InvalidMessageFormat", "VersionNotSupportedByNextPeer", "InvalidLength",
    "ServiceNotSupported", "MandatoryIEIncorrect", "MandatoryIEMissing"] ++
  upFrom 72 ["SystemFailure", "NoResourcesAvailable", "SemanticErrorInTheTFTOperation", "SyntacticErrorInTheTFTOperation",
    "SemanticErrorsInPacketFilters", "SyntacticErrorsInPacketFilters", "MissingOrUnknownAPN"] ++
  upFrom 80 ["GREKeyNotFound", "RelocationFailure", "DeniedInRAT", "PreferredPDNTypeNotSupported",
    "AllDynamicAddressesAreOccupied", "UEContextWithoutTFTAlreadyActivated", "ProtocolTypeNotSupported", "UENotResponding",
    "UERefuses", "ServiceDenied", "UnableToPageUE", "NoMemoryAvailable", "UserAuthenticationFailed",
    "APNAccessDeniedNoSubscription", "RequestRejectedReasonNotSpecified", "PTMSISignatureMismatch", "IMSIIMEINotKnown",
    "SemanticErrorInTheTADOperation", "SyntacticErrorInTheTADOperation"] ++
  upFrom 100 ["RemotePeerNotResponding", "CollisionWithNetworkInitiatedRequest", "UnableToPageUEDueToSuspension",
    "ConditionalIEMissing", "APNRestrictionTypeIncompatibleWithCurrentlyActivePDNConnection",
    "InvalidOverallLengthOfTheTriggeredResponseMessageAndAPiggybackedInitialMessage", "DataForwardingNotSupported",
    "InvalidReplyFromRemotePeer", "FallbackToGTPv1", "InvalidPeer",
    "TemporarilyRejectedDueToHandoverTAURAUProcedureInProgress", "ModificationsNotLimitedToS1UBearers",
    "RequestRejectedForAPMIPv6Reason", "APNCongestion", "BearerHandlingNotSupported", "UEAlreadyReattached",
    "MultiplePDNConnectionsForAGivenAPNNotAllowed", "TargetAccessRestrictedForTheSubscriber"] ++
  upFrom 119 ["MMESGSNRefusesDueToVPLMNPolicy", "GTPCEntityCongestion", "LateOverlappingRequest", "TimedOutRequest",
    "UEIsTemporarilyNotReachableDueToPowerSaving", "RelocationFailureDueToNASMessageRedirection",
    "UENotAuthorisedByOCSOrExternalAAAServer", "MultipleAccessesToAPDNConnectionNotAllowed",
    "RequestRejectedDueToUECapability", "S1UPathFailure"]

/-- TS 29.002 clause 17.6.6, as listed for GTP in TS 29.060 (MAP Cause) -/
def mapCauses : List (String × Nat) := prefixed "MAPCause" <|
  upFrom 1 ["UnknownSubscriber", "UnknownBaseStation", "UnknownMSC", "SecureTransportError", "UnidentifiedSubscriber",
    "AbsentSubscriberSM", "UnknownEquipment", "RoamingNotAllowed", "IllegalSubscriber", "BearerServiceNotProvisioned",
    "TeleserviceNotProvisioned", "IllegalEquipment", "CallBarred", "ForwardingViolation", "CUGReject", "IllegalSSOperation",
    "SSErrorStatus", "SSNotAvailable", "SSSubscriptionViolatio", "SSIncompatibility", "FacilityNotSupported",
    "OngoingGroupCall", "InvalidTargetBaseStation", "NoRadioResourceAvailable", "NoHandoverNumberAvailable",
    "SubsequentHandoverFailure", "AbsentSubscriber", "IncompatibleTerminal", "ShortTermDenial", "LongTermDenial",
    "SubscriberBusyForMTSMS", "SMDeliveryFailure", "MessageWaitingListFull", "SystemFailure", "DataMissing",
    "UnexpectedDataValue", "PWRegistrationFailure", "NegativePWCheck", "NoRoamingNumberAvailable", "TracingBufferFull"] ++
  upFrom 42 ["TargetCellOutsideGroupCallArea", "NumberOfPWAttemptsViolation", "NumberChanged", "BusySubscriber",
    "NoSubscriberReply", "ForwardingFailed", "ORNotAllowed", "ATINotAllowed", "NoGroupCallNumberAvailable",
    "ResourceLimitation", "UnauthorizedRequestingNetwork", "UnauthorizedLCSClient", "PositionMethodFailure"] ++
  upFrom 58 ["UnknownOrUnreachableLCSClient", "MMEventNotSupported", "ATSINotAllowed", "ATMNotAllowed",
    "InformationNotAvailabl"] ++
  upFrom 71 ["UnknownAlphabe", "USSDBusy"]

/-- TS 25.413 clause 9.2.1.4 -/
def ranapCauses : List (String × Nat) :=
  upFrom 1 ["RABPreempted"] ++ prefixed "RANAPCause" (
  upFrom 2 ["TrelocoverallExpiry", "TrelocprepExpiry", "TreloccompleteExpiry", "TqueuingExpiry", "RelocationTriggered",
    "TRELOCallocExpiry", "UnableToEstablishDuringRelocation", "UnknownTargetRNC", "RelocationCancelled",
    "SuccessfulRelocation", "RequestedCipheringIntegrityProtectionAlgorithmsNotSupported",
    "ChangeOfCipheringIntegrityProtectionIsNotSupported", "FailureInTheRadioInterfaceProcedure",
    "ReleaseDueToUTRANGeneratedReason", "UserInactivity", "TimeCriticalRelocation", "RequestedTrafficClassNotAvailable",
    "InvalidRABParametersValue", "RequestedMaximumBitRateNotAvailable", "RequestedGuaranteedBitRateNotAvailable",
    "RequestedTransferDelayNotAchievable", "InvalidRABParametersCombination", "ConditionViolationForSDUParameters",
    "ConditionViolationForTrafficHandlingPriority", "ConditionViolationForGuaranteedBitRate",
    "UserPlaneVersionsNotSupported", "IuUPFailure", "RelocationFailureInTargetCNRNCOrTargetSystem", "InvalidRABID",
    "NoRemainingRAB", "InteractionWithOtherProcedure", "RequestedMaximumBitRateForDLNotAvailable",
    "RequestedMaximumBitRateForULNotAvailable", "RequestedGuaranteedBitRateForDLNotAvailable",
    "RequestedGuaranteedBitRateForULNotAvailable", "RepeatedIntegrityCheckingFailure", "RequestedReportTypeNotSupported",
    "RequestSuperseded", "ReleaseDueToUEWenRatedSignallingConnectionRelease", "ResourceOptimisationRelocation",
    "RequestedInformationNotAvailable", "RelocationDesirableForRadioReasons",
    "RelocationNotSupportedInTargetRNCOrTargetSystem", "DirectedRetry", "RadioConnectionWithUELost",
    "RNCUnableToEstablishAllRFCs", "DecipheringKeysNotAvailable", "DedicatedAssistanceDataNotAvailable",
    "RelocationTargetNotAllowed", "LocationReportingCongestion", "ReduceLoadInServingCell",
    "NoRadioResourcesAvailableInTargetCell", "GERANIuModeFailure", "AccessRestrictedDueToSharedNetworks",
    "IncomingRelocationNotSupportedDueTodPUESBINEFeature", "TrafficLoadInTheTargetCellHigherThanInTheSourceCell",
    "MBMSNoMulticastServiceForThisUE", "MBMSUnknownUEID", "SuccessfulMBMSSessionStartNoDataBearerNecessary",
    "MBMSSupersededDueToNNSF", "MBMSUELinkingAlreadyDone", "MBMSUEDeLinkingFailureNoExistingUELinking", "TMGIUnknown",
    "SignallingTransportResourceFailure", "IuTransportConnectionFailedToEstablish"] ++
  upFrom 81 ["UserRestrictionStartIndication", "UserRestrictionEndIndication", "NormalRelease"] ++
  upFrom 97 ["TransferSyntaxError", "SemanticError", "MessageNotCompatibleWithReceiverState", "AbstractSyntaxErrorReject",
    "AbstractSyntaxErrorIgnoreAndNotify", "AbstractSyntaxErrorFalselyConstructedMessage"] ++
  upFrom 113 ["OAMIntervention", "NoResourceAvailable", "UnspecifiedFailure", "NetworkOptimisation"])

/-! ### other codes -/

/-- TS 29.274 table 8.22-1 -/
def interfaceTypes : List (String × Nat) := prefixed "IFType" <|
  upFrom 0 ["S1UeNodeBGTPU", "S1USGWGTPU", "S12RNCGTPU", "S12SGWGTPU", "S5S8SGWGTPU", "S5S8PGWGTPU", "S5S8SGWGTPC",
    "S5S8PGWGTPC", "S5S8SGWPMIPv6", "S5S8PGWPMIPv6", "S11MMEGTPC", "S11S4SGWGTPC", "S10MMEGTPC", "S3MMEGTPC", "S3SGSNGTPC",
    "S4SGSNGTPU", "S4SGWGTPU", "S4SGSNGTPC", "S16SGSNGTPC", "eNodeBGTPUForDL", "eNodeBGTPUForUL", "RNCGTPUForData",
    "SGSNGTPUForData", "SGWUPFGTPUForDL", "SmMBMSGWGTPC", "SnMBMSGWGTPC", "SmMMEGTPC", "SnSGSNGTPC", "SGWGTPUForUL",
    "SnSGSNGTPU", "S2bePDGGTPC", "S2bUePDGGTPU", "S2bPGWGTPC", "S2bUPGWGTPU", "S2aTWANGTPU", "S2aTWANGTPC", "S2aPGWGTPC",
    "S2aPGWGTPU", "S11MMEGTPU", "S11SGWGTPU"]

/-- TS 23.060 table 15.4.1 -/
def apnRestrictions : List (String × Nat) := prefixed "APNRestriction" <|
  upFrom 0 ["NoExistingContextsorRestriction", "Public1", "Public2", "Private1", "Private2"]

/-- TS 24.008 table 10.5.154: protocols -/
def protocolIDs : List (String × Nat) :=
  [("LCP", 0xc021), ("PAP", 0xc023), ("CHAP", 0xc223), ("IPCP", 0x8021)]

/-- TS 24.008 table 10.5.154: containers, from the mobile station to the network -/
def containerIDs (psDataOff : String) : List (String × Nat) := prefixed "ContID" <|
  upFrom 0x01 ["PCSCFIPv6AddressRequest", "IMCNSubsystemSignalingFlag", "DNSServerIPv6AddressRequest", "NotSupported",
    "MSSupportofNetworkRequestedBearerControlIndicator"] ++
  upFrom 0x07 ["DSMIPv6HomeAgentAddressRequest", "DSMIPv6HomeNetworkPrefixRequest", "DSMIPv6IPv4HomeAgentAddressRequest",
    "IPaddressAllocationViaNASSignalling", "IPv4addressAllocationViaDHCPv4", "PCSCFIPv4AddressRequest",
    "DNSServerIPv4AddressRequest", "MSISDNRequest", "IFOMSupportRequest", "IPv4LinkMTURequest",
    "MSSupportOfLocalAddressInTFTIndicator", "PCSCFReselectionSupport", "NBIFOMRequestIndicator", "NBIFOMMode",
    "NonIPLinkMTURequest", "APNRateControlSupportIndicator", psDataOff, "ReliableDataServiceRequestIndicator",
    "AdditionalAPNRateControlForExceptionDataSupportIndicator", "PDUSessionID"] ++
  upFrom 0x20 ["EthernetFramePayloadMTURequest", "UnstructuredLinkMTURequest", "5GSMCauseValue"]

/-- TS 29.274 table 8.17-1 -/
def ratTypes : List (String × Nat) := prefixed "RATType" <|
  upFrom 1 ["UTRAN", "GERAN", "WLAN", "GAN", "HSPAEvolution", "EUTRAN", "Virtual", "EUTRANNBIoT", "LTEM", "NR"]

/-- TS 29.060 table 7.7.50.1 -/
def v1RatTypes : List (String × Nat) := prefixed "RatType" <|
  upFrom 1 ["UTRAN", "GERAN", "WLAN", "GAN", "HSPAEvolution", "EUTRAN"]

/-- TS 29.274 table 8.34-1 -/
def pdnTypes : List (String × Nat) := prefixed "PDNType" (upFrom 1 ["IPv4", "IPv6", "IPv4v6", "NonIP"])

/-- TS 24.008 table 10.5.162: operations -/
def tftOperations : List (String × Nat) := prefixed "TFTOp" <|
  upFrom 0 ["IgnoreThisIE", "CreateNewTFT", "DeleteExistingTFT", "AddPacketFiltersToExistingTFT",
    "ReplacePacketFiltersInExistingTFT", "DeletePacketFiltersFromExistingTFT", "NoTFTOperation"]

/-- directions of packet filters -/
def tftDirections : List (String × Nat) := prefixed "TFTPF" <|
  upFrom 0 ["PreRel7TFTFilter", "DownlinkOnly", "UplinkOnly", "Bidirectional"]

/-- components of packet filters -/
def tftComponents : List (String × Nat) := prefixed "PFComp" <|
  upFrom 0x10 ["IPv4RemoteAddress", "IPv4LocalAddress"] ++
  upFrom 0x20 ["IPv6RemoteAddress", "IPv6RemoteAddressPrefixLength"] ++
  upFrom 0x23 ["IPv6LocalAddressPrefixLength"] ++
  upFrom 0x30 ["ProtocolIdentifierNextHeader"] ++
  upFrom 0x40 ["SingleLocalPort", "LocalPortRange"] ++
  upFrom 0x50 ["SingleRemotePort", "RemotePortRange"] ++
  upFrom 0x60 ["SecurityParameterIndex"] ++
  upFrom 0x70 ["TypeOfServiceTrafficClass"] ++
  upFrom 0x80 ["FlowLabel", "DestinationMACAddress", "SourceMACAddress", "Dot1QCTAGVID", "Dot1QSTAGVID", "Dot1QCTAGPCPDEI",
    "Dot1QSTAGPCPDEI", "Ethertype"]

/-- parameters of templates -/
def tftParameters : List (String × Nat) := prefixed "TFTParamID" <|
  upFrom 1 ["AuthorizationToken", "FlowIdentifier", "PacketFileterIdentifier"]

/-- RFC 1332, RFC 2290, RFC 1877 -/
def ipcpOptions : List (String × Nat) := prefixed "IPCPOption" <|
  upFrom 3 ["IPAddress", "MobileIPv4"] ++ upFrom 129 ["PrimaryDNS"] ++ upFrom 131 ["SecondaryDNS"]

/-- TS 29.060 clause 7.7.12, TS 29.274 table 8.58-1: the selection mode is in the two low bits -/
def selectionModes : List (String × Nat) := prefixed "SelectionMode" <|
  upFrom 0 ["MSorNetworkProvidedAPNSubscribedVerified", "MSProvidedAPNSubscriptionNotVerified",
    "NetworkProvidedAPNSubscriptionNotVerified"]

/-- TS 29.060 clause 7.7.27: the organisation is in the low four bits, the high four are ones -/
def pdpTypes : List (String × Nat) := prefixed "PDPType" (upFrom 0xf0 ["ETSI", "IETF"])

/-- TS 29.060 table 7.7.51.1 -/
def v1LocTypes : List (String × Nat) := prefixed "LocType" (upFrom 0 ["CGI", "SAI", "RAI"])

/-- TS 29.060 clause 7.7.52, TS 29.274 clause 8.44 -/
def daylight (a b c : String) : List (String × Nat) := upFrom 0 [a, b, c]

/-- TS 29.274 clause 8.79 -/
def csgMemberships : List (String × Nat) := prefixed "CMI" (upFrom 0 ["NonCSG", "CSG"])

/-- TS 29.274 table 8.81-1 -/
def detachTypes : List (String × Nat) := prefixed "DetachType" (upFrom 1 ["PS", "CombinedPSCS"])

/-- TS 29.274 table 8.62-1 -/
def nodeIDTypes : List (String × Nat) := prefixed "NodeID" (upFrom 0 ["IPv4", "IPv6", "Other"])

/-- TS 29.274 clause 8.65 -/
def nodeTypes : List (String × Nat) := prefixed "NodeType" (upFrom 0 ["SGSN", "MME"])

/-- TS 29.274 table 8.103-1 -/
def protocolTypes : List (String × Nat) := prefixed "ProtoType" <|
  upFrom 1 ["S1APCause", "EMMCause", "ESMCause", "DiameterCause", "IKEv2Cause"]

/-- TS 29.274 table 8.49-1 -/
def causeTypes : List (String × Nat) := prefixed "CauseType" <|
  upFrom 0 ["RadioNetworkLayer", "TransportLayer", "NAS", "Protocol", "Miscellaneous"]

/-- TS 29.274 table 8.80-1 -/
def serviceIndicators : List (String × Nat) := prefixed "ServiceInd" (upFrom 1 ["CSCall", "SMS"])

/-- TS 29.274 table 8.75-1 -/
def accessModes : List (String × Nat) := prefixed "AccessMode" (upFrom 0 ["Closed", "Hybrid"])

/-! ### names of messages -/

/-- GSM 09.60, the messages the library has -/
def v0Name : Nat → Option String
  | 1 => "Echo Request" | 2 => "Echo Response"
  | 16 => "Create PDP Context Request" | 17 => "Create PDP Context Response"
  | 18 => "Update PDP Context Request" | 19 => "Update PDP Context Response"
  | 20 => "Delete PDP Context Request" | 21 => "Delete PDP Context Response"
  | 255 => "T-PDU"
  | _ => none

/-- TS 29.060 and TS 29.281, the messages the library has -/
def v1Name : Nat → Option String
  | 1 => "Echo Request" | 2 => "Echo Response" | 3 => "Version Not Supported"
  | 16 => "Create PDP Context Request" | 17 => "Create PDP Context Response"
  | 18 => "Update PDP Context Request" | 19 => "Update PDP Context Response"
  | 20 => "Delete PDP Context Request" | 21 => "Delete PDP Context Response"
  | 26 => "Error Indication" | 31 => "Supported Extension Header Notification" | 254 => "End Marker" | 255 => "T-PDU"
  | _ => none

/-- TS 29.274, the messages the library has -/
def v2Name : Nat → Option String
  | 1 => "Echo Request" | 2 => "Echo Response" | 3 => "Version Not Supported Indication"
  | 32 => "Create Session Request" | 33 => "Create Session Response"
  | 34 => "Modify Bearer Request" | 35 => "Modify Bearer Response"
  | 36 => "Delete Session Request" | 37 => "Delete Session Response"
  | 38 => "Change Notification Request" | 39 => "Change Notification Response"
  | 64 => "Modify Bearer Command" | 65 => "Modify Bearer Failure Indication"
  | 66 => "Delete Bearer Command" | 67 => "Delete Bearer Failure Indication"
  | 70 => "Downlink Data Notification Failure Indication" | 73 => "Stop Paging Indication"
  | 95 => "Create Bearer Request" | 96 => "Create Bearer Response"
  | 97 => "Update Bearer Request" | 98 => "Update Bearer Response"
  | 99 => "Delete Bearer Request" | 100 => "Delete Bearer Response"
  | 101 => "Delete PDN Connection Set Request" | 102 => "Delete PDN Connection Set Response"
  | 130 => "Context Request" | 131 => "Context Response" | 132 => "Context Acknowledge"
  | 149 => "Detach Notification" | 150 => "Detach Acknowledge"
  | 162 => "Suspend Notification" | 163 => "Suspend Acknowledge"
  | 164 => "Resume Notification" | 165 => "Resume Acknowledge"
  | 170 => "Release Access Bearers Request" | 171 => "Release Access Bearers Response"
  | 176 => "Downlink Data Notification" | 177 => "Downlink Data Notification Acknowledge"
  | 179 => "PGW Restart Notification" | 180 => "PGW Restart Notification Acknowledge"
  | 200 => "Update PDN Connection Set Request" | 201 => "Update PDN Connection Set Response"
  | 211 => "Modify Access Bearers Request" | 212 => "Modify Access Bearers Response"
  | _ => none

end Verif.Spec
