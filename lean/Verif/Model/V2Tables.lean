import Verif.Model.Msg
/-
Generated from the text of gtpv2/message/*.go and gtpv2/ie/ie.go by tools/gen_tables.py.
One `Schema` per message type.  A rule `⟨t, i, act⟩` is the case of IE type t (and instance i).
-/
namespace Verif.V2.Tab
open Verif.Msg
open Verif.Msg.Act

/-- gtpv2/message/change-notification-req.go: New 28-72, MarshalTo 84-175, UnmarshalBinary 187-237, MarshalLen 240-287 -/
def changeNotificationRequest : Schema where
  name := "ChangeNotificationRequest"
  typ := 38
  flags := 0x48
  hasTEIDArg := true
  fields := ["IMSI", "MEI", "IndicationFlags", "RATType", "ULI", "UCI", "PGWS5S8IPAddressForControlPlane",
    "LinkedEBI", "PresenceReportingAreaInformation", "MOExceptionDataCounter",
    "SecondaryRATUsageDataReport", "PrivateExtension", "AdditionalIEs"]
  multi := [8, 10, 12]
  newRules := [⟨1, none, set 0⟩, ⟨75, none, set 1⟩, ⟨77, none, set 2⟩, ⟨82, none, set 3⟩, ⟨86, none, set 4⟩,
    ⟨145, none, set 5⟩, ⟨74, none, set 6⟩, ⟨73, none, set 7⟩, ⟨178, none, app 8⟩, ⟨199, none, set 9⟩,
    ⟨201, none, app 10⟩, ⟨255, none, set 11⟩]
  newDefault := app 12
  unRules := [⟨1, none, set 0⟩, ⟨75, none, set 1⟩, ⟨77, none, set 2⟩, ⟨82, none, set 3⟩, ⟨86, none, set 4⟩,
    ⟨145, none, set 5⟩, ⟨74, none, set 6⟩, ⟨73, none, set 7⟩, ⟨178, none, app 8⟩, ⟨199, none, set 9⟩,
    ⟨201, none, app 10⟩, ⟨255, none, set 11⟩]
  unDefault := app 12
  order := [⟨0, true⟩, ⟨1, true⟩, ⟨2, true⟩, ⟨3, true⟩, ⟨4, true⟩, ⟨5, true⟩, ⟨6, true⟩, ⟨7, true⟩, ⟨8, true⟩,
    ⟨9, true⟩, ⟨10, true⟩, ⟨11, true⟩, ⟨12, true⟩]
  lens := [0, 1, 2, 3, 4, 5, 6, 7, 8, 9, 10, 11, 12]
  reset := true
  lenCheck := false
  early := true

/-- gtpv2/message/change-notification-res.go: New 23-57, MarshalTo 69-131, UnmarshalBinary 143-179, MarshalLen 182-214 -/
def changeNotificationResponse : Schema where
  name := "ChangeNotificationResponse"
  typ := 39
  flags := 0x48
  hasTEIDArg := true
  fields := ["IMSI", "MEI", "Cause", "ChangeReportingAction", "CSGInformationReportingAction",
    "PresenceReportingAreaAction", "PrivateExtension", "AdditionalIEs"]
  multi := [5, 7]
  newRules := [⟨1, none, set 0⟩, ⟨75, none, set 1⟩, ⟨2, none, set 2⟩, ⟨131, none, set 3⟩, ⟨146, none, set 4⟩,
    ⟨177, none, app 5⟩, ⟨255, none, set 6⟩]
  newDefault := app 7
  unRules := [⟨1, none, set 0⟩, ⟨75, none, set 1⟩, ⟨2, none, set 2⟩, ⟨131, none, set 3⟩, ⟨146, none, set 4⟩,
    ⟨177, none, app 5⟩, ⟨255, none, set 6⟩]
  unDefault := app 7
  order := [⟨0, true⟩, ⟨1, true⟩, ⟨2, true⟩, ⟨3, true⟩, ⟨4, true⟩, ⟨5, true⟩, ⟨6, true⟩, ⟨7, true⟩]
  lens := [0, 1, 2, 3, 4, 5, 6, 7]
  reset := true
  lenCheck := false
  early := true

/-- gtpv2/message/context-ack.go: New 27-75, MarshalTo 87-161, UnmarshalBinary 173-226, MarshalLen 229-267 -/
def contextAcknowledge : Schema where
  name := "ContextAcknowledge"
  typ := 132
  flags := 0x48
  hasTEIDArg := true
  fields := ["Cause", "IndicationFlags", "ForwardingFTEID", "BearerContexts", "SGSNNumber",
    "MMENumberForMTSMS", "SGSNIdentifierForMTSMS", "MMEIdentifierForMTSMS", "PrivateExtension",
    "AdditionalIEs"]
  multi := [3, 9]
  newRules := [⟨2, none, set 0⟩, ⟨77, none, set 1⟩, ⟨87, none, set 2⟩, ⟨93, none, app 3⟩, ⟨175, some 0, set 4⟩,
    ⟨175, some 1, set 5⟩, ⟨175, none, app 9⟩, ⟨176, some 0, set 6⟩, ⟨176, some 1, set 7⟩,
    ⟨176, none, app 9⟩, ⟨255, none, set 8⟩]
  newDefault := app 9
  unRules := [⟨2, none, set 0⟩, ⟨77, none, set 1⟩, ⟨87, none, set 2⟩, ⟨93, none, app 3⟩, ⟨175, some 0, set 4⟩,
    ⟨175, some 1, set 5⟩, ⟨175, none, app 9⟩, ⟨176, some 0, set 6⟩, ⟨176, some 1, set 7⟩,
    ⟨176, none, app 9⟩, ⟨255, none, set 8⟩]
  unDefault := app 9
  order := [⟨0, true⟩, ⟨1, true⟩, ⟨2, true⟩, ⟨3, true⟩, ⟨4, true⟩, ⟨5, true⟩, ⟨6, true⟩, ⟨7, true⟩, ⟨8, true⟩,
    ⟨9, true⟩]
  lens := [0, 1, 2, 3, 4, 5, 6, 7, 8, 9]
  reset := true
  lenCheck := false
  early := true

/-- gtpv2/message/context-req.go: New 38-108, MarshalTo 120-260, UnmarshalBinary 272-347, MarshalLen 350-420 -/
def contextRequest : Schema where
  name := "ContextRequest"
  typ := 130
  flags := 0x48
  hasTEIDArg := true
  fields := ["IMSI", "GUTI", "RAI", "PTMSI", "PTMSISignature", "CompleteTAURequestMessage",
    "AddressAndTEIDForCPlane", "UDPSourcePortNumber", "RATType", "Indication", "HopCounter",
    "TargetPLMNID", "MMESGSNLDN", "SGSNNodeName", "MMENodeName", "SGSNNumber", "SGSNIdentifier",
    "MMEIdentifier", "CIoTOptimizationsSupportIndication", "PrivateExtension", "AdditionalIEs"]
  multi := [20]
  newRules := [⟨1, none, set 0⟩, ⟨117, none, set 1⟩, ⟨86, none, set 2⟩, ⟨111, none, set 3⟩, ⟨112, none, set 4⟩,
    ⟨116, none, set 5⟩, ⟨87, none, set 6⟩, ⟨126, none, set 7⟩, ⟨82, none, set 8⟩, ⟨77, none, set 9⟩,
    ⟨113, none, set 10⟩, ⟨83, none, set 11⟩, ⟨151, none, set 12⟩, ⟨136, some 0, set 13⟩,
    ⟨136, some 1, set 14⟩, ⟨136, none, app 20⟩, ⟨175, none, set 15⟩, ⟨176, some 0, set 16⟩,
    ⟨176, some 1, set 17⟩, ⟨176, none, app 20⟩, ⟨194, none, set 18⟩, ⟨255, none, set 19⟩]
  newDefault := app 20
  unRules := [⟨1, none, set 0⟩, ⟨117, none, set 1⟩, ⟨86, none, set 2⟩, ⟨111, none, set 3⟩, ⟨112, none, set 4⟩,
    ⟨116, none, set 5⟩, ⟨87, none, set 6⟩, ⟨126, none, set 7⟩, ⟨82, none, set 8⟩, ⟨77, none, set 9⟩,
    ⟨113, none, set 10⟩, ⟨83, none, set 11⟩, ⟨151, none, set 12⟩, ⟨136, some 0, set 13⟩,
    ⟨136, some 1, set 14⟩, ⟨136, none, app 20⟩, ⟨175, none, set 15⟩, ⟨176, some 0, set 16⟩,
    ⟨176, some 1, set 17⟩, ⟨176, none, app 20⟩, ⟨194, none, set 18⟩, ⟨255, none, set 19⟩]
  unDefault := app 20
  order := [⟨0, true⟩, ⟨1, true⟩, ⟨2, true⟩, ⟨3, true⟩, ⟨4, true⟩, ⟨5, true⟩, ⟨6, true⟩, ⟨7, true⟩, ⟨8, true⟩,
    ⟨9, true⟩, ⟨10, true⟩, ⟨11, true⟩, ⟨12, true⟩, ⟨13, true⟩, ⟨14, true⟩, ⟨15, true⟩, ⟨16, true⟩,
    ⟨17, true⟩, ⟨18, true⟩, ⟨19, true⟩, ⟨20, true⟩]
  lens := [0, 1, 2, 3, 4, 5, 6, 7, 8, 9, 10, 11, 12, 13, 14, 15, 16, 17, 18, 19, 20]
  reset := true
  lenCheck := false
  early := true

/-- gtpv2/message/context-res.go: New 49-168, MarshalTo 180-368, UnmarshalBinary 380-493, MarshalLen 496-591 -/
def contextResponse : Schema where
  name := "ContextResponse"
  typ := 131
  flags := 0x48
  hasTEIDArg := true
  fields := ["Cause", "IMSI", "UEMMContext", "UEPDNConnections", "SenderFTEID", "SGWS11S4FTEID", "SGWNodeName",
    "IndicationFlags", "TraceInformation", "S101IPAddress", "S102IPAddress", "SubscribedRFSPIndex",
    "RFSPIndexInUse", "UETimeZone", "MMESGSNLDN", "MDTConfiguration", "SGSNNodeName", "MMENodeName",
    "UCI", "MonitoringEventInformation", "MonitoringEventExtensionInformation", "UEUsageType",
    "SCEFPDNConnection", "RATType", "ServingPLMNRateControl", "MOExceptionDataCounter",
    "RemainingRunningServiceGapTimer", "ExtendedTraceInformation",
    "SubscribedAdditionalRRMPolicyIndex", "AdditionalRRMPolicyIndexInUse", "PrivateExtension",
    "AdditionalIEs"]
  multi := [3, 22, 31]
  newRules := [⟨2, none, set 0⟩, ⟨1, none, set 1⟩, ⟨107, none, ifset 2 (app 31)⟩, ⟨103, none, ifset 2 (app 31)⟩,
    ⟨105, none, ifset 2 (app 31)⟩, ⟨106, none, ifset 2 (app 31)⟩, ⟨108, none, ifset 2 (app 31)⟩,
    ⟨104, none, ifset 2 (app 31)⟩, ⟨109, none, app 3⟩, ⟨87, some 0, set 4⟩, ⟨87, some 1, set 5⟩,
    ⟨87, none, app 31⟩, ⟨136, some 0, set 6⟩, ⟨136, some 1, set 16⟩, ⟨136, some 2, set 17⟩,
    ⟨136, none, app 31⟩, ⟨77, none, set 7⟩, ⟨96, none, set 8⟩, ⟨74, some 0, set 9⟩, ⟨74, some 1, set 10⟩,
    ⟨74, none, app 31⟩, ⟨144, some 0, set 11⟩, ⟨144, some 1, set 12⟩, ⟨144, none, app 31⟩,
    ⟨114, none, set 13⟩, ⟨151, none, set 14⟩, ⟨162, none, set 15⟩, ⟨145, none, set 18⟩,
    ⟨189, none, set 19⟩, ⟨206, none, set 20⟩, ⟨187, some 0, set 21⟩, ⟨187, some 1, set 26⟩,
    ⟨187, none, app 31⟩, ⟨195, none, app 22⟩, ⟨82, none, set 23⟩, ⟨198, none, set 24⟩,
    ⟨199, none, set 25⟩, ⟨205, none, set 27⟩, ⟨207, some 0, set 28⟩, ⟨207, some 1, set 29⟩,
    ⟨207, none, app 31⟩, ⟨255, none, set 30⟩]
  newDefault := app 31
  unRules := [⟨2, none, set 0⟩, ⟨1, none, set 1⟩, ⟨107, none, ifset 2 (app 31)⟩, ⟨103, none, ifset 2 (app 31)⟩,
    ⟨105, none, ifset 2 (app 31)⟩, ⟨106, none, ifset 2 (app 31)⟩, ⟨108, none, ifset 2 (app 31)⟩,
    ⟨104, none, ifset 2 (app 31)⟩, ⟨109, none, app 3⟩, ⟨87, some 0, set 4⟩, ⟨87, some 1, set 5⟩,
    ⟨87, none, app 31⟩, ⟨136, some 0, set 6⟩, ⟨136, some 1, set 16⟩, ⟨136, some 2, set 17⟩,
    ⟨136, none, app 31⟩, ⟨77, none, set 7⟩, ⟨96, none, set 8⟩, ⟨74, some 0, set 9⟩, ⟨74, some 1, set 10⟩,
    ⟨74, none, app 31⟩, ⟨144, some 0, set 11⟩, ⟨144, some 1, set 12⟩, ⟨144, none, app 31⟩,
    ⟨114, none, set 13⟩, ⟨151, none, set 14⟩, ⟨162, none, set 15⟩, ⟨145, none, set 18⟩,
    ⟨189, none, set 19⟩, ⟨187, some 0, set 21⟩, ⟨187, some 1, set 26⟩, ⟨187, none, app 31⟩,
    ⟨195, none, app 22⟩, ⟨82, none, set 23⟩, ⟨198, none, set 24⟩, ⟨199, none, set 25⟩,
    ⟨205, none, set 27⟩, ⟨255, none, set 30⟩]
  unDefault := app 31
  order := [⟨0, true⟩, ⟨1, true⟩, ⟨2, true⟩, ⟨3, true⟩, ⟨4, true⟩, ⟨5, true⟩, ⟨6, true⟩, ⟨7, true⟩, ⟨8, true⟩,
    ⟨9, true⟩, ⟨10, true⟩, ⟨11, true⟩, ⟨12, true⟩, ⟨13, true⟩, ⟨14, true⟩, ⟨15, true⟩, ⟨16, true⟩,
    ⟨17, true⟩, ⟨18, true⟩, ⟨19, true⟩, ⟨21, true⟩, ⟨22, true⟩, ⟨23, true⟩, ⟨24, true⟩, ⟨25, true⟩,
    ⟨26, true⟩, ⟨27, true⟩, ⟨30, true⟩, ⟨31, true⟩]
  lens := [0, 1, 2, 3, 4, 5, 6, 7, 8, 9, 10, 11, 12, 13, 14, 15, 16, 17, 18, 19, 21, 22, 23, 24, 25, 26, 27, 30, 31]
  reset := true
  lenCheck := false
  early := true

/-- gtpv2/message/create-bearer-req.go: New 36-107, MarshalTo 119-247, UnmarshalBinary 259-332, MarshalLen 335-400 -/
def createBearerRequest : Schema where
  name := "CreateBearerRequest"
  typ := 95
  flags := 0x48
  hasTEIDArg := true
  fields := ["PTI", "LinkedEBI", "PCO", "BearerContexts", "PGWFQCSID", "SGWFQCSID", "ChangeReportingAction",
    "CSGInformationReportingAction", "HeNBInformationReporting", "PresenceReportingAreaAction",
    "IndicationFlags", "PGWNodeLoadControlInformation", "PGWAPNLoadControlInformation",
    "SGWNodeLoadControlInformation", "PGWOverloadControlInformation", "SGWOverloadControlInformation",
    "NBIFOMContainer", "PrivateExtension", "AdditionalIEs"]
  multi := [3, 9, 18]
  newRules := [⟨100, none, set 0⟩, ⟨73, none, set 1⟩, ⟨78, none, set 2⟩, ⟨93, none, app 3⟩, ⟨132, some 0, set 4⟩,
    ⟨132, some 1, set 5⟩, ⟨132, none, app 18⟩, ⟨131, none, set 6⟩, ⟨146, none, set 7⟩,
    ⟨165, none, set 8⟩, ⟨177, none, app 9⟩, ⟨77, none, set 10⟩, ⟨181, some 0, set 11⟩,
    ⟨181, some 1, set 12⟩, ⟨181, some 2, set 13⟩, ⟨181, none, app 18⟩, ⟨180, some 0, set 14⟩,
    ⟨180, some 1, set 15⟩, ⟨180, none, app 18⟩, ⟨118, none, set 16⟩, ⟨255, none, set 17⟩]
  newDefault := app 18
  unRules := [⟨100, none, set 0⟩, ⟨73, none, set 1⟩, ⟨78, none, set 2⟩, ⟨93, none, app 3⟩, ⟨132, some 0, set 4⟩,
    ⟨132, some 1, set 5⟩, ⟨132, none, app 18⟩, ⟨131, none, set 6⟩, ⟨146, none, set 7⟩,
    ⟨165, none, set 8⟩, ⟨177, none, app 9⟩, ⟨77, none, set 10⟩, ⟨181, some 0, set 11⟩,
    ⟨181, some 1, set 12⟩, ⟨181, some 2, set 13⟩, ⟨181, none, app 18⟩, ⟨180, some 0, set 14⟩,
    ⟨180, some 1, set 15⟩, ⟨180, none, app 18⟩, ⟨118, none, set 16⟩, ⟨255, none, set 17⟩]
  unDefault := app 18
  order := [⟨0, true⟩, ⟨1, true⟩, ⟨2, true⟩, ⟨3, true⟩, ⟨4, true⟩, ⟨5, true⟩, ⟨6, true⟩, ⟨7, true⟩, ⟨8, true⟩,
    ⟨9, true⟩, ⟨10, true⟩, ⟨11, true⟩, ⟨12, true⟩, ⟨13, true⟩, ⟨14, true⟩, ⟨15, true⟩, ⟨16, true⟩,
    ⟨17, true⟩, ⟨18, true⟩]
  lens := [0, 1, 2, 3, 4, 5, 6, 7, 8, 9, 10, 11, 12, 13, 14, 15, 16, 17, 18]
  reset := true
  lenCheck := false
  early := true

/-- gtpv2/message/create-bearer-res.go: New 41-135, MarshalTo 147-305, UnmarshalBinary 317-406, MarshalLen 409-489 -/
def createBearerResponse : Schema where
  name := "CreateBearerResponse"
  typ := 96
  flags := 0x48
  hasTEIDArg := true
  fields := ["Cause", "BearerContexts", "Recovery", "MMEFQCSID", "SGWFQCSID", "EPDGFQCSID", "TWANFQCSID",
    "PCO", "UETimeZone", "ULI", "TWANIdentifier", "MMEOverloadControlInformation",
    "SGWOverloadControlInformation", "PresenceReportingAction", "MMESGSNIdentifier",
    "TWANePDGOverloadControlInformation", "WLANLocationInformation", "WLANLocationTimestamp",
    "UELocalIPAddress", "UEUDPPort", "NBIFOMContainer", "UETCPPort", "PrivateExtension",
    "AdditionalIEs"]
  multi := [1, 13, 23]
  newRules := [⟨2, none, set 0⟩, ⟨93, none, app 1⟩, ⟨3, none, set 2⟩, ⟨132, some 0, set 3⟩, ⟨132, some 1, set 4⟩,
    ⟨132, some 2, set 5⟩, ⟨132, some 3, set 6⟩, ⟨132, none, app 23⟩, ⟨78, none, set 7⟩,
    ⟨114, none, set 8⟩, ⟨86, none, set 9⟩, ⟨169, some 0, set 10⟩, ⟨169, some 1, set 16⟩,
    ⟨169, none, app 23⟩, ⟨179, some 1, set 17⟩, ⟨179, none, app 23⟩, ⟨180, some 0, set 11⟩,
    ⟨180, some 1, set 12⟩, ⟨180, some 2, set 15⟩, ⟨180, none, app 23⟩, ⟨177, none, app 13⟩,
    ⟨74, some 0, set 14⟩, ⟨74, some 1, set 18⟩, ⟨74, none, drop⟩, ⟨126, some 0, set 19⟩,
    ⟨126, some 1, set 21⟩, ⟨126, none, app 23⟩, ⟨118, none, set 20⟩, ⟨255, none, set 22⟩]
  newDefault := app 23
  unRules := [⟨2, none, set 0⟩, ⟨93, none, app 1⟩, ⟨3, none, set 2⟩, ⟨132, some 0, set 3⟩, ⟨132, some 1, set 4⟩,
    ⟨132, some 2, set 5⟩, ⟨132, some 3, set 6⟩, ⟨132, none, drop⟩, ⟨78, none, set 7⟩, ⟨114, none, set 8⟩,
    ⟨86, none, set 9⟩, ⟨169, some 0, set 10⟩, ⟨169, some 1, set 16⟩, ⟨169, none, drop⟩,
    ⟨179, some 1, set 17⟩, ⟨179, none, drop⟩, ⟨180, some 0, set 11⟩, ⟨180, some 1, set 12⟩,
    ⟨180, some 2, set 15⟩, ⟨180, none, drop⟩, ⟨177, none, app 13⟩, ⟨74, some 0, set 14⟩,
    ⟨74, some 1, set 18⟩, ⟨74, none, drop⟩, ⟨126, some 0, set 19⟩, ⟨126, some 1, set 21⟩,
    ⟨126, none, drop⟩, ⟨118, none, set 20⟩, ⟨255, none, set 22⟩]
  unDefault := app 23
  order := [⟨0, true⟩, ⟨1, true⟩, ⟨2, true⟩, ⟨3, true⟩, ⟨4, true⟩, ⟨5, true⟩, ⟨6, true⟩, ⟨7, true⟩, ⟨8, true⟩,
    ⟨9, true⟩, ⟨10, true⟩, ⟨11, true⟩, ⟨12, true⟩, ⟨13, true⟩, ⟨14, true⟩, ⟨15, true⟩, ⟨16, true⟩,
    ⟨17, true⟩, ⟨18, true⟩, ⟨19, true⟩, ⟨20, true⟩, ⟨21, true⟩, ⟨22, true⟩, ⟨23, true⟩]
  lens := [0, 1, 2, 3, 4, 5, 6, 7, 8, 9, 10, 11, 12, 13, 14, 15, 16, 17, 18, 19, 20, 21, 22, 23]
  reset := true
  lenCheck := false
  early := true

/-- gtpv2/message/create-session-req.go: New 83-276, MarshalTo 288-697, UnmarshalBinary 709-910, MarshalLen 913-1119 -/
def createSessionRequest : Schema where
  name := "CreateSessionRequest"
  typ := 32
  flags := 0x48
  hasTEIDArg := true
  fields := ["IMSI", "MSISDN", "MEI", "ULI", "ServingNetwork", "RATType", "IndicationFlags", "SenderFTEIDC",
    "PGWS5S8FTEIDC", "APN", "SelectionMode", "PDNType", "PAA", "APNRestriction", "AMBR", "LinkedEBI",
    "TWMI", "PCO", "BearerContextsToBeCreated", "BearerContextsToBeRemoved", "TraceInformation",
    "Recovery", "MMEFQCSID", "SGWFQCSID", "EPDGFQCSID", "TWANFQCSID", "UETimeZone", "UCI",
    "ChargingCharacteristics", "MMESGSNLDN", "SGWLDN", "EPDGLDN", "TWANLDN",
    "SignallingPriorityIndication", "UELocalIPAddress", "UEUDPPort", "APCO", "HeNBLocalIPAddress",
    "HeNBUDPPort", "MMESGSNIdentifier", "TWANIdentifier", "EPDGIPAddress",
    "CNOperatorSelectionEntity", "PresenceReportingAreaInformation",
    "MMESGSNOverloadControlInformation", "SGWOverloadControlInformation",
    "TWANePDGOverloadControlInformation", "OriginationTimeStamp", "MaximumWaitTime",
    "WLANLocationInformation", "WLANLocationTimeStamp", "NBIFOMContainer", "RemoteUEContextConnected",
    "TGPPAAAServerIdentifier", "EPCO", "ServingPLMNRateControl", "MOExceptionDataCounter",
    "UETCPPort", "MappedUEUsageType", "ULIForSGW", "SGWUNodeName", "SecondaryRATUsageDataReport",
    "UPFunctionSelectionIndicationFlags", "APNRateControlStatus", "PrivateExtension", "AdditionalIEs"]
  multi := [18, 19, 43, 52, 61, 65]
  newRules := [⟨1, none, set 0⟩, ⟨76, none, set 1⟩, ⟨75, none, set 2⟩, ⟨86, some 0, set 3⟩, ⟨86, some 1, set 59⟩,
    ⟨86, none, app 65⟩, ⟨83, none, set 4⟩, ⟨82, none, set 5⟩, ⟨77, none, set 6⟩, ⟨87, some 0, set 7⟩,
    ⟨87, some 1, set 8⟩, ⟨87, none, app 65⟩, ⟨71, none, set 9⟩, ⟨128, none, set 10⟩, ⟨99, none, set 11⟩,
    ⟨79, none, set 12⟩, ⟨127, none, set 13⟩, ⟨72, none, set 14⟩, ⟨73, none, set 15⟩, ⟨174, none, set 16⟩,
    ⟨78, none, set 17⟩, ⟨93, some 0, app 18⟩, ⟨93, some 1, app 19⟩, ⟨93, none, app 65⟩,
    ⟨132, some 0, set 22⟩, ⟨132, some 1, set 23⟩, ⟨132, some 2, set 24⟩, ⟨132, some 3, set 25⟩,
    ⟨132, none, app 65⟩, ⟨96, none, set 20⟩, ⟨3, none, set 21⟩, ⟨114, none, set 26⟩, ⟨145, none, set 27⟩,
    ⟨95, none, set 28⟩, ⟨151, some 0, set 29⟩, ⟨151, some 1, set 30⟩, ⟨151, some 2, set 31⟩,
    ⟨151, some 3, set 32⟩, ⟨151, none, app 65⟩, ⟨157, none, set 33⟩, ⟨74, some 0, set 34⟩,
    ⟨74, some 1, set 37⟩, ⟨74, some 2, set 39⟩, ⟨74, some 3, set 41⟩, ⟨74, none, app 65⟩,
    ⟨126, some 0, set 35⟩, ⟨126, some 1, set 38⟩, ⟨126, some 2, set 57⟩, ⟨126, none, app 65⟩,
    ⟨163, none, set 36⟩, ⟨169, some 0, set 40⟩, ⟨169, some 1, set 49⟩, ⟨169, none, drop⟩,
    ⟨173, none, set 42⟩, ⟨178, none, app 43⟩, ⟨180, some 0, set 44⟩, ⟨180, some 1, set 45⟩,
    ⟨180, some 2, set 46⟩, ⟨180, none, app 65⟩, ⟨188, none, set 47⟩, ⟨187, none, set 48⟩,
    ⟨179, none, set 50⟩, ⟨118, none, set 51⟩, ⟨191, none, app 52⟩, ⟨176, none, set 53⟩,
    ⟨197, none, set 54⟩, ⟨198, none, set 55⟩, ⟨199, none, set 56⟩, ⟨200, none, set 58⟩,
    ⟨136, none, set 60⟩, ⟨201, none, app 61⟩, ⟨202, none, set 62⟩, ⟨204, none, set 63⟩,
    ⟨255, none, set 64⟩]
  newDefault := app 65
  unRules := [⟨1, none, set 0⟩, ⟨76, none, set 1⟩, ⟨75, none, set 2⟩, ⟨86, some 0, set 3⟩, ⟨86, some 1, set 59⟩,
    ⟨86, none, app 65⟩, ⟨83, none, set 4⟩, ⟨82, none, set 5⟩, ⟨77, none, set 6⟩, ⟨87, some 0, set 7⟩,
    ⟨87, some 1, set 8⟩, ⟨87, none, app 65⟩, ⟨71, none, set 9⟩, ⟨128, none, set 10⟩, ⟨99, none, set 11⟩,
    ⟨79, none, set 12⟩, ⟨127, none, set 13⟩, ⟨72, none, set 14⟩, ⟨73, none, set 15⟩, ⟨174, none, set 16⟩,
    ⟨78, none, set 17⟩, ⟨93, some 0, app 18⟩, ⟨93, some 1, app 19⟩, ⟨93, none, app 65⟩,
    ⟨132, some 0, set 22⟩, ⟨132, some 1, set 23⟩, ⟨132, some 2, set 24⟩, ⟨132, some 3, set 25⟩,
    ⟨132, none, app 65⟩, ⟨96, none, set 20⟩, ⟨3, none, set 21⟩, ⟨114, none, set 26⟩, ⟨145, none, set 27⟩,
    ⟨95, none, set 28⟩, ⟨151, some 0, set 29⟩, ⟨151, some 1, set 30⟩, ⟨151, some 2, set 31⟩,
    ⟨151, some 3, set 32⟩, ⟨151, none, app 65⟩, ⟨157, none, set 33⟩, ⟨74, some 0, set 34⟩,
    ⟨74, some 1, set 37⟩, ⟨74, some 2, set 39⟩, ⟨74, some 3, set 41⟩, ⟨74, none, app 65⟩,
    ⟨126, some 0, set 35⟩, ⟨126, some 1, set 38⟩, ⟨126, some 2, set 57⟩, ⟨126, none, app 65⟩,
    ⟨163, none, set 36⟩, ⟨169, some 0, set 40⟩, ⟨169, some 1, set 49⟩, ⟨169, none, app 65⟩,
    ⟨173, none, set 42⟩, ⟨178, none, app 43⟩, ⟨180, some 0, set 44⟩, ⟨180, some 1, set 45⟩,
    ⟨180, some 2, set 46⟩, ⟨180, none, app 65⟩, ⟨188, none, set 47⟩, ⟨187, none, set 48⟩,
    ⟨179, none, set 50⟩, ⟨118, none, set 51⟩, ⟨191, none, app 52⟩, ⟨176, none, set 53⟩,
    ⟨197, none, set 54⟩, ⟨198, none, set 55⟩, ⟨199, none, set 56⟩, ⟨200, none, set 58⟩,
    ⟨136, none, set 60⟩, ⟨201, none, app 61⟩, ⟨202, none, set 62⟩, ⟨204, none, set 63⟩,
    ⟨255, none, set 64⟩]
  unDefault := app 65
  order := [⟨0, true⟩, ⟨1, true⟩, ⟨2, true⟩, ⟨3, true⟩, ⟨4, true⟩, ⟨5, true⟩, ⟨6, true⟩, ⟨7, true⟩, ⟨8, true⟩,
    ⟨9, true⟩, ⟨10, true⟩, ⟨11, true⟩, ⟨12, true⟩, ⟨13, true⟩, ⟨14, true⟩, ⟨15, true⟩, ⟨16, true⟩,
    ⟨17, true⟩, ⟨18, true⟩, ⟨19, true⟩, ⟨20, true⟩, ⟨21, true⟩, ⟨22, true⟩, ⟨23, true⟩, ⟨24, true⟩,
    ⟨25, true⟩, ⟨26, true⟩, ⟨27, true⟩, ⟨28, true⟩, ⟨29, true⟩, ⟨30, true⟩, ⟨31, true⟩, ⟨32, true⟩,
    ⟨33, true⟩, ⟨34, true⟩, ⟨35, true⟩, ⟨36, true⟩, ⟨37, true⟩, ⟨38, true⟩, ⟨39, true⟩, ⟨40, true⟩,
    ⟨41, true⟩, ⟨42, true⟩, ⟨43, true⟩, ⟨44, true⟩, ⟨45, true⟩, ⟨46, true⟩, ⟨47, true⟩, ⟨48, true⟩,
    ⟨49, true⟩, ⟨50, true⟩, ⟨51, true⟩, ⟨52, true⟩, ⟨53, true⟩, ⟨54, true⟩, ⟨55, true⟩, ⟨56, true⟩,
    ⟨57, true⟩, ⟨58, true⟩, ⟨59, true⟩, ⟨60, true⟩, ⟨61, true⟩, ⟨62, true⟩, ⟨63, true⟩, ⟨64, false⟩,
    ⟨65, true⟩]
  lens := [0, 1, 2, 3, 4, 5, 6, 7, 8, 9, 10, 11, 12, 13, 14, 15, 16, 17, 18, 19, 20, 21, 22, 23, 24, 25, 26, 27, 28, 29, 30, 31, 32, 33, 34, 35, 36, 37, 38, 39, 40, 41, 42, 43, 44, 45, 46, 47, 48, 49, 50, 51, 52, 53, 54, 55, 56, 57, 58, 59, 60, 61, 62, 63, 64, 65]
  reset := true
  lenCheck := false
  early := true

/-- gtpv2/message/create-session-res.go: New 52-169, MarshalTo 181-405, UnmarshalBinary 417-541, MarshalLen 544-654 -/
def createSessionResponse : Schema where
  name := "CreateSessionResponse"
  typ := 33
  flags := 0x48
  hasTEIDArg := true
  fields := ["Cause", "ChangeReportingAction", "CSGInformationReportingAction", "HeNBInformationReporting",
    "SenderFTEIDC", "PGWS5S8FTEIDC", "PAA", "APNRestriction", "AMBR", "EBI", "PCO",
    "BearerContextsCreated", "BearerContextMarkedForRemoval", "Recovery", "ChargingGatewayName",
    "ChargingGatewayAddress", "PGWFQCSID", "SGWFQCSID", "SGWLDN", "PGWLDN", "PGWBackOffTime", "APCO",
    "TrustedTWANIPv4Parameters", "IndicationFlags", "PresenceReportingAreaAction",
    "PGWNodeLoadControlInformation", "PGWAPNLoadControlInformation", "SGWNodeLoadControlInformation",
    "PGWOverloadControlInformation", "SGWOverloadControlInformation", "NBIFOMContainer",
    "PDNConnectionChargingID", "EPCO", "PrivateExtension", "AdditionalIEs"]
  multi := [11, 24, 34]
  newRules := [⟨2, none, set 0⟩, ⟨131, none, set 1⟩, ⟨146, none, set 2⟩, ⟨165, none, set 3⟩, ⟨87, some 0, set 4⟩,
    ⟨87, some 1, set 5⟩, ⟨87, none, app 34⟩, ⟨79, none, set 6⟩, ⟨127, none, set 7⟩, ⟨72, none, set 8⟩,
    ⟨73, none, set 9⟩, ⟨78, none, set 10⟩, ⟨93, some 0, app 11⟩, ⟨93, some 1, set 12⟩,
    ⟨93, none, app 34⟩, ⟨3, none, set 13⟩, ⟨136, none, set 14⟩, ⟨74, none, set 15⟩,
    ⟨132, some 0, set 16⟩, ⟨132, some 1, set 17⟩, ⟨132, none, app 34⟩, ⟨151, some 0, set 19⟩,
    ⟨151, some 1, set 18⟩, ⟨151, none, app 34⟩, ⟨156, none, set 20⟩, ⟨163, none, set 21⟩,
    ⟨166, none, set 22⟩, ⟨77, none, set 23⟩, ⟨177, none, app 24⟩, ⟨181, some 0, set 25⟩,
    ⟨181, some 1, set 26⟩, ⟨181, some 2, set 27⟩, ⟨181, none, app 34⟩, ⟨180, some 0, set 28⟩,
    ⟨180, some 1, set 29⟩, ⟨180, none, app 34⟩, ⟨118, none, set 30⟩, ⟨94, none, set 31⟩,
    ⟨197, none, set 32⟩, ⟨255, none, set 33⟩]
  newDefault := app 34
  unRules := [⟨2, none, set 0⟩, ⟨131, none, set 1⟩, ⟨146, none, set 2⟩, ⟨165, none, set 3⟩, ⟨87, some 0, set 4⟩,
    ⟨87, some 1, set 5⟩, ⟨87, none, app 34⟩, ⟨79, none, set 6⟩, ⟨127, none, set 7⟩, ⟨72, none, set 8⟩,
    ⟨73, none, set 9⟩, ⟨78, none, set 10⟩, ⟨93, some 0, app 11⟩, ⟨93, some 1, set 12⟩,
    ⟨93, none, app 34⟩, ⟨3, none, set 13⟩, ⟨136, none, set 14⟩, ⟨74, none, set 15⟩,
    ⟨132, some 0, set 16⟩, ⟨132, some 1, set 17⟩, ⟨132, none, app 34⟩, ⟨151, some 0, set 19⟩,
    ⟨151, some 1, set 18⟩, ⟨151, none, app 34⟩, ⟨156, none, set 20⟩, ⟨163, none, set 21⟩,
    ⟨166, none, set 22⟩, ⟨77, none, set 23⟩, ⟨177, none, app 24⟩, ⟨181, some 0, set 25⟩,
    ⟨181, some 1, set 26⟩, ⟨181, some 2, set 27⟩, ⟨181, none, app 34⟩, ⟨180, some 0, set 28⟩,
    ⟨180, some 1, set 29⟩, ⟨180, none, app 34⟩, ⟨118, none, set 30⟩, ⟨94, none, set 31⟩,
    ⟨197, none, set 32⟩, ⟨255, none, set 33⟩]
  unDefault := app 34
  order := [⟨0, true⟩, ⟨1, true⟩, ⟨2, true⟩, ⟨3, true⟩, ⟨4, true⟩, ⟨5, true⟩, ⟨6, true⟩, ⟨7, true⟩, ⟨8, true⟩,
    ⟨9, true⟩, ⟨10, true⟩, ⟨11, true⟩, ⟨12, true⟩, ⟨13, true⟩, ⟨14, true⟩, ⟨15, true⟩, ⟨16, true⟩,
    ⟨17, true⟩, ⟨19, true⟩, ⟨18, true⟩, ⟨20, true⟩, ⟨21, true⟩, ⟨22, true⟩, ⟨23, true⟩, ⟨24, true⟩,
    ⟨25, true⟩, ⟨26, true⟩, ⟨27, true⟩, ⟨28, true⟩, ⟨29, true⟩, ⟨30, true⟩, ⟨31, true⟩, ⟨32, true⟩,
    ⟨33, true⟩, ⟨34, true⟩]
  lens := [0, 1, 2, 3, 4, 5, 6, 7, 8, 9, 10, 11, 12, 13, 14, 15, 16, 17, 19, 18, 20, 21, 22, 23, 24, 25, 26, 27, 28, 29, 30, 31, 32, 33, 34]
  reset := true
  lenCheck := false
  early := true

/-- gtpv2/message/delete-bearer-command.go: New 25-66, MarshalTo 78-152, UnmarshalBinary 164-210, MarshalLen 213-250 -/
def deleteBearerCommand : Schema where
  name := "DeleteBearerCommand"
  typ := 66
  flags := 0x48
  hasTEIDArg := true
  fields := ["BearerContexts", "ULI", "ULITimestamp", "UETimeZone", "MMESGSNOverloadControlInformation",
    "SGWOverloadControlInformation", "SenderFTEIDC", "SecondaryRATDataUsageReport",
    "PrivateExtension", "AdditionalIEs"]
  multi := [0, 7, 9]
  newRules := [⟨93, none, app 0⟩, ⟨86, none, set 1⟩, ⟨170, none, set 2⟩, ⟨114, none, set 3⟩, ⟨180, some 0, set 4⟩,
    ⟨180, some 1, set 5⟩, ⟨180, none, drop⟩, ⟨87, none, set 6⟩, ⟨201, none, app 7⟩, ⟨255, none, set 8⟩]
  newDefault := app 9
  unRules := [⟨93, none, app 0⟩, ⟨86, none, set 1⟩, ⟨170, none, set 2⟩, ⟨114, none, set 3⟩, ⟨180, some 0, set 4⟩,
    ⟨180, some 1, set 5⟩, ⟨180, none, drop⟩, ⟨87, none, set 6⟩, ⟨201, none, app 7⟩, ⟨255, none, set 8⟩]
  unDefault := app 9
  order := [⟨0, true⟩, ⟨1, true⟩, ⟨2, true⟩, ⟨3, true⟩, ⟨4, true⟩, ⟨5, true⟩, ⟨6, true⟩, ⟨7, true⟩, ⟨8, true⟩,
    ⟨9, true⟩]
  lens := [0, 1, 2, 3, 4, 5, 6, 7, 8, 9]
  reset := true
  lenCheck := false
  early := true

/-- gtpv2/message/delete-bearer-failure-indication.go: New 23-60, MarshalTo 72-134, UnmarshalBinary 146-188, MarshalLen 191-222 -/
def deleteBearerFailureIndication : Schema where
  name := "DeleteBearerFailureIndication"
  typ := 67
  flags := 0x48
  hasTEIDArg := true
  fields := ["Cause", "BearerContexts", "Recovery", "IndicationFlags", "PGWOverloadControlInformation",
    "SGWOverloadControlInformation", "PrivateExtension", "AdditionalIEs"]
  multi := [1, 7]
  newRules := [⟨2, none, set 0⟩, ⟨93, none, app 1⟩, ⟨3, none, set 2⟩, ⟨77, none, set 3⟩, ⟨180, some 0, set 4⟩,
    ⟨180, some 1, set 5⟩, ⟨180, none, drop⟩, ⟨255, none, set 6⟩]
  newDefault := app 7
  unRules := [⟨2, none, set 0⟩, ⟨93, none, app 1⟩, ⟨3, none, set 2⟩, ⟨77, none, set 3⟩, ⟨180, some 0, set 4⟩,
    ⟨180, some 1, set 5⟩, ⟨180, none, drop⟩, ⟨255, none, set 6⟩]
  unDefault := app 7
  order := [⟨0, true⟩, ⟨1, true⟩, ⟨2, true⟩, ⟨3, true⟩, ⟨4, true⟩, ⟨5, true⟩, ⟨6, true⟩, ⟨7, true⟩]
  lens := [0, 1, 2, 3, 4, 5, 6, 7]
  reset := true
  lenCheck := false
  early := true

/-- gtpv2/message/delete-bearer-req.go: New 36-112, MarshalTo 124-253, UnmarshalBinary 265-346, MarshalLen 349-414 -/
def deleteBearerRequest : Schema where
  name := "DeleteBearerRequest"
  typ := 99
  flags := 0x48
  hasTEIDArg := true
  fields := ["LinkedEBI", "EBIs", "FailedBearerContext", "PTI", "PCO", "PGWFQCSID", "SGWFQCSID", "Cause",
    "IndicationFlags", "PGWNodeLoadControlInformation", "PGWAPNLoadControlInformation",
    "SGWNodeLoadControlInformation", "PGWOverloadControlInformation", "SGWOverloadControlInformation",
    "NBIFOMContainer", "APNRateControlStatus", "EPCO", "PrivateExtension", "AdditionalIEs"]
  multi := [1, 18]
  newRules := [⟨73, some 0, set 0⟩, ⟨73, some 1, app 1⟩, ⟨73, none, app 18⟩, ⟨93, none, set 2⟩, ⟨100, none, set 3⟩,
    ⟨78, none, set 4⟩, ⟨132, some 0, set 5⟩, ⟨132, some 1, set 6⟩, ⟨132, none, app 18⟩, ⟨2, none, set 7⟩,
    ⟨77, none, set 8⟩, ⟨181, some 0, set 9⟩, ⟨181, some 1, set 10⟩, ⟨181, some 2, set 11⟩,
    ⟨181, none, app 18⟩, ⟨180, some 0, set 12⟩, ⟨180, some 1, set 13⟩, ⟨180, none, app 18⟩,
    ⟨118, none, set 14⟩, ⟨204, none, set 15⟩, ⟨197, none, set 16⟩, ⟨255, none, set 17⟩]
  newDefault := app 18
  unRules := [⟨73, some 0, set 0⟩, ⟨73, some 1, app 1⟩, ⟨73, none, app 18⟩, ⟨93, none, set 2⟩, ⟨100, none, set 3⟩,
    ⟨78, none, set 4⟩, ⟨132, some 0, set 5⟩, ⟨132, some 1, set 6⟩, ⟨132, none, app 18⟩, ⟨2, none, set 7⟩,
    ⟨77, none, set 8⟩, ⟨181, some 0, set 9⟩, ⟨181, some 1, set 10⟩, ⟨181, some 2, set 11⟩,
    ⟨181, none, app 18⟩, ⟨180, some 0, set 12⟩, ⟨180, some 1, set 13⟩, ⟨180, none, app 18⟩,
    ⟨118, none, set 14⟩, ⟨204, none, set 15⟩, ⟨197, none, set 16⟩, ⟨255, none, set 17⟩]
  unDefault := app 18
  order := [⟨0, true⟩, ⟨1, true⟩, ⟨2, true⟩, ⟨3, true⟩, ⟨4, true⟩, ⟨5, true⟩, ⟨6, true⟩, ⟨7, true⟩, ⟨8, true⟩,
    ⟨9, true⟩, ⟨10, true⟩, ⟨11, true⟩, ⟨12, true⟩, ⟨13, true⟩, ⟨14, true⟩, ⟨15, true⟩, ⟨16, true⟩,
    ⟨17, true⟩, ⟨18, true⟩]
  lens := [0, 1, 2, 3, 4, 5, 6, 7, 8, 9, 10, 11, 12, 13, 14, 15, 16, 17, 18]
  reset := true
  lenCheck := false
  early := true

/-- gtpv2/message/delete-bearer-res.go: New 44-146, MarshalTo 158-334, UnmarshalBinary 346-454, MarshalLen 457-546 -/
def deleteBearerResponse : Schema where
  name := "DeleteBearerResponse"
  typ := 100
  flags := 0x48
  hasTEIDArg := true
  fields := ["Cause", "LinkedEBI", "BearerContexts", "Recovery", "MMEFQCSID", "SGWFQCSID", "EPDGFQCSID",
    "TWANFQCSID", "PCO", "UETimeZone", "ULI", "ULITimestamp", "TWANIdentifier",
    "TWANIdentifierTimestamp", "MMEOverloadControlInformation", "SGWOverloadControlInformation",
    "MMESGSNIdentifier", "TWANePDGOverloadControlInformation", "WLANLocationInformation",
    "WLANLocationTimestamp", "UELocalIPAddress", "UEUDPPort", "NBIFOMContainer", "UETCPPort",
    "SecondaryRATUsageDataReport", "PrivateExtension", "AdditionalIEs"]
  multi := [2, 24, 26]
  newRules := [⟨2, none, set 0⟩, ⟨73, none, set 1⟩, ⟨93, none, app 2⟩, ⟨3, none, set 3⟩, ⟨132, some 0, set 4⟩,
    ⟨132, some 1, set 5⟩, ⟨132, some 2, set 6⟩, ⟨132, some 3, set 7⟩, ⟨132, none, app 26⟩,
    ⟨78, none, set 8⟩, ⟨114, none, set 9⟩, ⟨86, none, set 10⟩, ⟨170, none, set 11⟩,
    ⟨169, some 0, set 12⟩, ⟨169, some 1, set 18⟩, ⟨169, none, app 26⟩, ⟨179, some 0, set 13⟩,
    ⟨179, some 1, set 19⟩, ⟨179, none, app 26⟩, ⟨180, some 0, set 14⟩, ⟨180, some 1, set 15⟩,
    ⟨180, some 2, set 17⟩, ⟨180, none, app 26⟩, ⟨74, some 0, set 16⟩, ⟨74, some 1, set 20⟩,
    ⟨74, none, app 26⟩, ⟨126, some 0, set 21⟩, ⟨126, some 1, set 23⟩, ⟨126, none, app 26⟩,
    ⟨118, none, set 22⟩, ⟨201, none, app 24⟩, ⟨255, none, set 25⟩]
  newDefault := app 26
  unRules := [⟨2, none, set 0⟩, ⟨73, none, set 1⟩, ⟨93, none, app 2⟩, ⟨3, none, set 3⟩, ⟨132, some 0, set 4⟩,
    ⟨132, some 1, set 5⟩, ⟨132, some 2, set 6⟩, ⟨132, some 3, set 7⟩, ⟨132, none, app 26⟩,
    ⟨78, none, set 8⟩, ⟨114, none, set 9⟩, ⟨86, none, set 10⟩, ⟨170, none, set 11⟩,
    ⟨169, some 0, set 12⟩, ⟨169, some 1, set 18⟩, ⟨169, none, app 26⟩, ⟨179, some 0, set 13⟩,
    ⟨179, some 1, set 19⟩, ⟨179, none, app 26⟩, ⟨180, some 0, set 14⟩, ⟨180, some 1, set 15⟩,
    ⟨180, some 2, set 17⟩, ⟨180, none, app 26⟩, ⟨74, some 0, set 16⟩, ⟨74, some 1, set 20⟩,
    ⟨74, none, app 26⟩, ⟨126, some 0, set 21⟩, ⟨126, some 1, set 23⟩, ⟨126, none, app 26⟩,
    ⟨118, none, set 22⟩, ⟨201, none, app 24⟩, ⟨255, none, set 25⟩]
  unDefault := app 26
  order := [⟨0, true⟩, ⟨1, true⟩, ⟨2, true⟩, ⟨3, true⟩, ⟨4, true⟩, ⟨5, true⟩, ⟨6, true⟩, ⟨7, true⟩, ⟨8, true⟩,
    ⟨9, true⟩, ⟨10, true⟩, ⟨11, true⟩, ⟨12, true⟩, ⟨13, true⟩, ⟨14, true⟩, ⟨15, true⟩, ⟨16, true⟩,
    ⟨17, true⟩, ⟨18, true⟩, ⟨19, true⟩, ⟨20, true⟩, ⟨21, true⟩, ⟨22, true⟩, ⟨23, true⟩, ⟨24, true⟩,
    ⟨25, true⟩, ⟨26, true⟩]
  lens := [0, 1, 2, 3, 4, 5, 6, 7, 8, 9, 10, 11, 12, 13, 14, 15, 16, 17, 18, 19, 20, 21, 22, 23, 24, 25, 26]
  reset := true
  lenCheck := false
  early := true

/-- gtpv2/message/delete-pdn-connection-set-req.go: New 24-61, MarshalTo 73-129, UnmarshalBinary 141-183, MarshalLen 186-215 -/
def deletePDNConnectionSetRequest : Schema where
  name := "DeletePDNConnectionSetRequest"
  typ := 101
  flags := 0x48
  hasTEIDArg := true
  fields := ["MMEFQCSID", "SGWFQCSID", "PGWFQCSID", "EPDGFQCSID", "TWANFQCSID", "PrivateExtension",
    "AdditionalIEs"]
  multi := [6]
  newRules := [⟨132, some 0, set 0⟩, ⟨132, some 1, set 1⟩, ⟨132, some 2, set 2⟩, ⟨132, some 3, set 3⟩,
    ⟨132, some 4, set 4⟩, ⟨132, none, app 6⟩, ⟨255, none, set 5⟩]
  newDefault := app 6
  unRules := [⟨132, some 0, set 0⟩, ⟨132, some 1, set 1⟩, ⟨132, some 2, set 2⟩, ⟨132, some 3, set 3⟩,
    ⟨132, some 4, set 4⟩, ⟨132, none, app 6⟩, ⟨255, none, set 5⟩]
  unDefault := app 6
  order := [⟨0, true⟩, ⟨1, true⟩, ⟨2, true⟩, ⟨3, true⟩, ⟨4, true⟩, ⟨5, true⟩, ⟨6, true⟩]
  lens := [0, 1, 2, 3, 4, 5, 6]
  reset := true
  lenCheck := false
  early := true

/-- gtpv2/message/delete-pdn-connection-set-res.go: New 21-47, MarshalTo 60-98, UnmarshalBinary 110-141, MarshalLen 144-164 -/
def deletePDNConnectionSetResponse : Schema where
  name := "DeletePDNConnectionSetResponse"
  typ := 102
  flags := 0x48
  hasTEIDArg := true
  fields := ["Cause", "Recovery", "PrivateExtension", "AdditionalIEs"]
  multi := [3]
  newRules := [⟨2, none, set 0⟩, ⟨3, none, set 1⟩, ⟨255, none, set 2⟩]
  newDefault := app 3
  unRules := [⟨2, none, set 0⟩, ⟨3, none, set 1⟩, ⟨255, none, set 2⟩]
  unDefault := app 3
  order := [⟨0, true⟩, ⟨1, true⟩, ⟨2, true⟩, ⟨3, true⟩]
  lens := [0, 1, 2, 3]
  reset := true
  lenCheck := false
  early := true

/-- gtpv2/message/delete-session-req.go: New 41-127, MarshalTo 139-297, UnmarshalBinary 309-401, MarshalLen 404-484 -/
def deleteSessionRequest : Schema where
  name := "DeleteSessionRequest"
  typ := 36
  flags := 0x48
  hasTEIDArg := true
  fields := ["Cause", "LinkedEBI", "ULI", "IndicationFlags", "PCO", "OriginatingNode", "SenderFTEIDC",
    "UETimeZone", "ULITimestamp", "RANNASReleaseCause", "TWANIdentifier", "TWANIdentifierTimestamp",
    "MMESGSNOverloadControlInformation", "SGWOverloadControlInformaion",
    "TWANePDGOverloadControlInformaion", "WLANLocationInformation", "WLANLocationTimeStamp",
    "UELocalIPAddress", "UEUDPPort", "EPCO", "UETCPPort", "SecondaryRATUsageDataReport",
    "PrivateExtension", "AdditionalIEs"]
  multi := [23]
  newRules := [⟨2, none, set 0⟩, ⟨73, none, set 1⟩, ⟨86, none, set 2⟩, ⟨77, none, set 3⟩, ⟨78, none, set 4⟩,
    ⟨135, none, set 5⟩, ⟨87, none, set 6⟩, ⟨114, none, set 7⟩, ⟨170, none, set 8⟩, ⟨172, none, set 9⟩,
    ⟨169, some 0, set 10⟩, ⟨169, some 1, set 15⟩, ⟨169, none, app 23⟩, ⟨179, some 0, set 11⟩,
    ⟨179, some 1, set 16⟩, ⟨179, none, app 23⟩, ⟨180, some 0, set 12⟩, ⟨180, some 1, set 13⟩,
    ⟨180, some 2, set 14⟩, ⟨180, none, app 23⟩, ⟨74, none, set 17⟩, ⟨126, some 0, set 18⟩,
    ⟨126, some 1, set 20⟩, ⟨126, none, app 23⟩, ⟨197, none, set 19⟩, ⟨201, none, set 21⟩,
    ⟨255, none, set 22⟩]
  newDefault := app 23
  unRules := [⟨2, none, set 0⟩, ⟨73, none, set 1⟩, ⟨86, none, set 2⟩, ⟨77, none, set 3⟩, ⟨78, none, set 4⟩,
    ⟨135, none, set 5⟩, ⟨87, none, set 6⟩, ⟨114, none, set 7⟩, ⟨170, none, set 8⟩, ⟨172, none, set 9⟩,
    ⟨169, some 0, set 10⟩, ⟨169, some 1, set 15⟩, ⟨169, none, app 23⟩, ⟨179, some 0, set 11⟩,
    ⟨179, some 1, set 16⟩, ⟨179, none, app 23⟩, ⟨180, some 0, set 12⟩, ⟨180, some 1, set 13⟩,
    ⟨180, some 2, set 14⟩, ⟨180, none, app 23⟩, ⟨74, none, set 17⟩, ⟨126, some 0, set 18⟩,
    ⟨126, some 1, set 20⟩, ⟨126, none, app 23⟩, ⟨197, none, set 19⟩, ⟨201, none, set 21⟩,
    ⟨255, none, set 22⟩]
  unDefault := app 23
  order := [⟨0, true⟩, ⟨1, true⟩, ⟨2, true⟩, ⟨3, true⟩, ⟨4, true⟩, ⟨5, true⟩, ⟨6, true⟩, ⟨7, true⟩, ⟨8, true⟩,
    ⟨9, true⟩, ⟨10, true⟩, ⟨11, true⟩, ⟨12, true⟩, ⟨13, true⟩, ⟨14, true⟩, ⟨15, true⟩, ⟨16, true⟩,
    ⟨17, true⟩, ⟨18, true⟩, ⟨19, true⟩, ⟨20, true⟩, ⟨21, true⟩, ⟨22, true⟩, ⟨23, true⟩]
  lens := [0, 1, 2, 3, 4, 5, 6, 7, 8, 9, 10, 11, 12, 13, 14, 15, 16, 17, 18, 19, 20, 21, 22, 23]
  reset := true
  lenCheck := false
  early := true

/-- gtpv2/message/delete-session-res.go: New 30-84, MarshalTo 96-188, UnmarshalBinary 200-260, MarshalLen 263-310 -/
def deleteSessionResponse : Schema where
  name := "DeleteSessionResponse"
  typ := 37
  flags := 0x48
  hasTEIDArg := true
  fields := ["Cause", "Recovery", "PCO", "IndicationFlags", "PGWNodeLoadControlInformation",
    "PGWAPNLoadControlInformation", "SGWNodeLoadControlInformation", "PGWOverloadControlInformation",
    "SGWOverloadControlInformation", "EPCO", "APNRateControlStatus", "PrivateExtension",
    "AdditionalIEs"]
  multi := [12]
  newRules := [⟨2, none, set 0⟩, ⟨3, none, set 1⟩, ⟨78, none, set 2⟩, ⟨77, none, set 3⟩, ⟨181, some 1, set 4⟩,
    ⟨181, some 2, set 5⟩, ⟨181, some 3, set 6⟩, ⟨181, none, app 12⟩, ⟨180, some 1, set 7⟩,
    ⟨180, some 2, set 8⟩, ⟨180, none, app 12⟩, ⟨197, none, set 9⟩, ⟨204, none, set 10⟩,
    ⟨255, none, set 11⟩]
  newDefault := app 12
  unRules := [⟨2, none, set 0⟩, ⟨3, none, set 1⟩, ⟨78, none, set 2⟩, ⟨77, none, set 3⟩, ⟨181, some 1, set 4⟩,
    ⟨181, some 2, set 5⟩, ⟨181, some 3, set 6⟩, ⟨181, none, app 12⟩, ⟨180, some 1, set 7⟩,
    ⟨180, some 2, set 8⟩, ⟨180, none, app 12⟩, ⟨197, none, set 9⟩, ⟨204, none, set 10⟩,
    ⟨255, none, set 11⟩]
  unDefault := app 12
  order := [⟨0, true⟩, ⟨1, true⟩, ⟨2, true⟩, ⟨3, true⟩, ⟨4, true⟩, ⟨5, true⟩, ⟨6, true⟩, ⟨7, true⟩, ⟨8, true⟩,
    ⟨9, true⟩, ⟨10, true⟩, ⟨11, true⟩, ⟨12, true⟩]
  lens := [0, 1, 2, 3, 4, 5, 6, 7, 8, 9, 10, 11, 12]
  reset := true
  lenCheck := false
  early := true

/-- gtpv2/message/detach-acknowledge.go: New 21-47, MarshalTo 60-98, UnmarshalBinary 110-141, MarshalLen 144-164 -/
def detachAcknowledge : Schema where
  name := "DetachAcknowledge"
  typ := 150
  flags := 0x48
  hasTEIDArg := true
  fields := ["Cause", "Recovery", "PrivateExtension", "AdditionalIEs"]
  multi := [3]
  newRules := [⟨2, none, set 0⟩, ⟨3, none, set 1⟩, ⟨255, none, set 2⟩]
  newDefault := app 3
  unRules := [⟨2, none, set 0⟩, ⟨3, none, set 1⟩, ⟨255, none, set 2⟩]
  unDefault := app 3
  order := [⟨0, true⟩, ⟨1, true⟩, ⟨2, true⟩, ⟨3, true⟩]
  lens := [0, 1, 2, 3]
  reset := true
  lenCheck := false
  early := true

/-- gtpv2/message/detach-notification.go: New 21-47, MarshalTo 59-97, UnmarshalBinary 109-140, MarshalLen 143-163 -/
def detachNotification : Schema where
  name := "DetachNotification"
  typ := 149
  flags := 0x48
  hasTEIDArg := true
  fields := ["Cause", "DetachType", "PrivateExtension", "AdditionalIEs"]
  multi := [3]
  newRules := [⟨2, none, set 0⟩, ⟨150, none, set 1⟩, ⟨255, none, set 2⟩]
  newDefault := app 3
  unRules := [⟨2, none, set 0⟩, ⟨150, none, set 1⟩, ⟨255, none, set 2⟩]
  unDefault := app 3
  order := [⟨0, true⟩, ⟨1, true⟩, ⟨2, true⟩, ⟨3, true⟩]
  lens := [0, 1, 2, 3]
  reset := true
  lenCheck := false
  early := true

/-- gtpv2/message/downlink-data-notification-ack.go: New 26-62, MarshalTo 74-142, UnmarshalBinary 154-195, MarshalLen 198-233 -/
def downlinkDataNotificationAcknowledge : Schema where
  name := "DownlinkDataNotificationAcknowledge"
  typ := 177
  flags := 0x48
  hasTEIDArg := true
  fields := ["Cause", "DataNotificationDelay", "Recovery", "DLLowPriorityTrafficThrottling", "IMSI",
    "DLBufferingDuration", "DLBufferingSuggestedPacketCount", "PrivateExtension", "AdditionalIEs"]
  multi := [8]
  newRules := [⟨2, none, set 0⟩, ⟨92, none, set 1⟩, ⟨3, none, set 2⟩, ⟨154, none, set 3⟩, ⟨1, none, set 4⟩,
    ⟨156, none, set 5⟩, ⟨187, none, set 6⟩, ⟨255, none, set 7⟩]
  newDefault := app 8
  unRules := [⟨2, none, set 0⟩, ⟨92, none, set 1⟩, ⟨3, none, set 2⟩, ⟨154, none, set 3⟩, ⟨1, none, set 4⟩,
    ⟨156, none, set 5⟩, ⟨187, none, set 6⟩, ⟨255, none, set 7⟩]
  unDefault := app 8
  order := [⟨0, true⟩, ⟨1, true⟩, ⟨2, true⟩, ⟨3, true⟩, ⟨4, true⟩, ⟨5, true⟩, ⟨6, true⟩, ⟨7, true⟩, ⟨8, true⟩]
  lens := [0, 1, 2, 3, 4, 5, 6, 7, 8]
  reset := true
  lenCheck := false
  early := true

/-- gtpv2/message/downlink-data-notification-failure-indication.go: New 22-50, MarshalTo 62-106, UnmarshalBinary 118-151, MarshalLen 154-177 -/
def downlinkDataNotificationFailureIndication : Schema where
  name := "DownlinkDataNotificationFailureIndication"
  typ := 70
  flags := 0x48
  hasTEIDArg := true
  fields := ["Cause", "OriginatingNode", "IMSI", "PrivateExtension", "AdditionalIEs"]
  multi := [4]
  newRules := [⟨2, none, set 0⟩, ⟨135, none, set 1⟩, ⟨1, none, set 2⟩, ⟨255, none, set 3⟩]
  newDefault := app 4
  unRules := [⟨2, none, set 0⟩, ⟨135, none, set 1⟩, ⟨1, none, set 2⟩, ⟨255, none, set 3⟩]
  unDefault := app 4
  order := [⟨0, true⟩, ⟨1, true⟩, ⟨2, true⟩, ⟨3, true⟩, ⟨4, true⟩]
  lens := [0, 1, 2, 3, 4]
  reset := true
  lenCheck := false
  early := true

/-- gtpv2/message/downlink-data-notification.go: New 29-71, MarshalTo 83-169, UnmarshalBinary 181-228, MarshalLen 231-275 -/
def downlinkDataNotification : Schema where
  name := "DownlinkDataNotification"
  typ := 176
  flags := 0x48
  hasTEIDArg := true
  fields := ["Cause", "EPSBearerID", "AllocationRetensionPriority", "IMSI", "SenderFTEIDC", "IndicationFlags",
    "SGWNodeLoadControlInformation", "SGWOverloadControlInformation", "PagingAndServiceInformation",
    "DLDataPacketsSize", "PrivateExtension", "AdditionalIEs"]
  multi := [11]
  newRules := [⟨2, none, set 0⟩, ⟨73, none, set 1⟩, ⟨155, none, set 2⟩, ⟨1, none, set 3⟩, ⟨87, none, set 4⟩,
    ⟨77, none, set 5⟩, ⟨181, none, set 6⟩, ⟨180, none, set 7⟩, ⟨186, none, set 8⟩, ⟨187, none, set 9⟩,
    ⟨255, none, set 10⟩]
  newDefault := app 11
  unRules := [⟨2, none, set 0⟩, ⟨73, none, set 1⟩, ⟨155, none, set 2⟩, ⟨1, none, set 3⟩, ⟨87, none, set 4⟩,
    ⟨77, none, set 5⟩, ⟨181, none, set 6⟩, ⟨180, none, set 7⟩, ⟨186, none, set 8⟩, ⟨187, none, set 9⟩,
    ⟨255, none, set 10⟩]
  unDefault := app 11
  order := [⟨0, true⟩, ⟨1, true⟩, ⟨2, true⟩, ⟨3, true⟩, ⟨4, true⟩, ⟨5, true⟩, ⟨6, true⟩, ⟨7, true⟩, ⟨8, true⟩,
    ⟨9, true⟩, ⟨10, true⟩, ⟨11, true⟩]
  lens := [0, 1, 2, 3, 4, 5, 6, 7, 8, 9, 10, 11]
  reset := true
  lenCheck := false
  early := true

/-- gtpv2/message/echo-req.go: New 21-47, MarshalTo 60-95, UnmarshalBinary 107-139, MarshalLen 142-160 -/
def echoRequest : Schema where
  name := "EchoRequest"
  typ := 1
  flags := 0x40
  hasTEIDArg := false
  fields := ["Recovery", "SendingNodeFeatures", "PrivateExtension", "AdditionalIEs"]
  multi := [3]
  newRules := [⟨3, none, set 0⟩, ⟨152, none, set 1⟩, ⟨255, none, set 2⟩]
  newDefault := app 3
  unRules := [⟨3, none, set 0⟩, ⟨152, none, set 1⟩, ⟨255, none, set 2⟩]
  unDefault := app 3
  order := [⟨0, true⟩, ⟨1, true⟩, ⟨2, true⟩, ⟨3, true⟩]
  lens := [0, 1, 2, 3]
  reset := true
  lenCheck := false
  early := true

/-- gtpv2/message/echo-res.go: New 21-47, MarshalTo 60-98, UnmarshalBinary 110-142, MarshalLen 145-165 -/
def echoResponse : Schema where
  name := "EchoResponse"
  typ := 2
  flags := 0x40
  hasTEIDArg := false
  fields := ["Recovery", "SendingNodeFeatures", "PrivateExtension", "AdditionalIEs"]
  multi := [3]
  newRules := [⟨3, none, set 0⟩, ⟨152, none, set 1⟩, ⟨255, none, set 2⟩]
  newDefault := app 3
  unRules := [⟨3, none, set 0⟩, ⟨152, none, set 1⟩, ⟨255, none, set 2⟩]
  unDefault := app 3
  order := [⟨0, true⟩, ⟨1, true⟩, ⟨2, true⟩, ⟨3, true⟩]
  lens := [0, 1, 2, 3]
  reset := true
  lenCheck := false
  early := true

/-- gtpv2/message/modify-access-bearers-req.go: New 24-63, MarshalTo 75-143, UnmarshalBinary 155-199, MarshalLen 202-236 -/
def modifyAccessBearersRequest : Schema where
  name := "ModifyAccessBearersRequest"
  typ := 211
  flags := 0x48
  hasTEIDArg := true
  fields := ["IndicationFlags", "SenderFTEIDC", "DelayDownlinkPacketNotificationRequest",
    "BearerContextsToBeModified", "BearerContextsToBeRemoved", "Recovery",
    "SecondaryRATUsageDataReport", "PrivateExtension", "AdditionalIEs"]
  multi := [3, 4, 6, 8]
  newRules := [⟨77, none, set 0⟩, ⟨135, none, set 1⟩, ⟨92, none, set 2⟩, ⟨93, some 0, app 3⟩, ⟨93, some 1, app 4⟩,
    ⟨93, none, drop⟩, ⟨3, none, set 5⟩, ⟨201, none, app 6⟩, ⟨255, none, set 7⟩]
  newDefault := app 8
  unRules := [⟨77, none, set 0⟩, ⟨135, none, set 1⟩, ⟨92, none, set 2⟩, ⟨93, some 0, app 3⟩, ⟨93, some 1, app 4⟩,
    ⟨93, none, drop⟩, ⟨3, none, set 5⟩, ⟨201, none, app 6⟩, ⟨255, none, set 7⟩]
  unDefault := app 8
  order := [⟨0, true⟩, ⟨1, true⟩, ⟨2, true⟩, ⟨3, true⟩, ⟨4, true⟩, ⟨5, true⟩, ⟨6, true⟩, ⟨7, true⟩, ⟨8, true⟩]
  lens := [0, 1, 2, 3, 4, 5, 6, 7, 8]
  reset := true
  lenCheck := false
  early := true

/-- gtpv2/message/modify-access-bearers-res.go: New 24-63, MarshalTo 75-143, UnmarshalBinary 155-199, MarshalLen 202-236 -/
def modifyAccessBearersResponse : Schema where
  name := "ModifyAccessBearersResponse"
  typ := 212
  flags := 0x48
  hasTEIDArg := true
  fields := ["Cause", "BearerContextsModified", "BearerContextsMarkedForRemoval", "Recovery",
    "IndicationFlags", "SGWNodeLoadControlInformation", "SGWOverloadControlInformation",
    "PrivateExtension", "AdditionalIEs"]
  multi := [1, 2, 8]
  newRules := [⟨2, none, set 0⟩, ⟨93, some 0, app 1⟩, ⟨93, some 1, app 2⟩, ⟨93, none, drop⟩, ⟨3, none, set 3⟩,
    ⟨77, none, set 4⟩, ⟨181, none, set 5⟩, ⟨180, none, set 6⟩, ⟨255, none, set 7⟩]
  newDefault := app 8
  unRules := [⟨2, none, set 0⟩, ⟨93, some 0, app 1⟩, ⟨93, some 1, app 2⟩, ⟨93, none, drop⟩, ⟨3, none, set 3⟩,
    ⟨77, none, set 4⟩, ⟨181, none, set 5⟩, ⟨180, none, set 6⟩, ⟨255, none, set 7⟩]
  unDefault := app 8
  order := [⟨0, true⟩, ⟨1, true⟩, ⟨2, true⟩, ⟨3, true⟩, ⟨4, true⟩, ⟨5, true⟩, ⟨6, true⟩, ⟨7, true⟩, ⟨8, true⟩]
  lens := [0, 1, 2, 3, 4, 5, 6, 7, 8]
  reset := true
  lenCheck := false
  early := true

/-- gtpv2/message/modify-bearer-command.go: New 23-60, MarshalTo 72-134, UnmarshalBinary 146-188, MarshalLen 191-222 -/
def modifyBearerCommand : Schema where
  name := "ModifyBearerCommand"
  typ := 64
  flags := 0x48
  hasTEIDArg := true
  fields := ["APNAMBR", "BearerContext", "MMESGSNOverloadControlInformation", "SGWOverloadControlInformation",
    "TWANePDGOverloadControlInformation", "SenderFTEIDC", "PrivateExtension", "AdditionalIEs"]
  multi := [7]
  newRules := [⟨72, none, set 0⟩, ⟨93, none, set 1⟩, ⟨180, some 0, set 2⟩, ⟨180, some 1, set 3⟩,
    ⟨180, some 2, set 4⟩, ⟨180, none, drop⟩, ⟨87, none, set 5⟩, ⟨255, none, set 6⟩]
  newDefault := app 7
  unRules := [⟨72, none, set 0⟩, ⟨93, none, set 1⟩, ⟨180, some 0, set 2⟩, ⟨180, some 1, set 3⟩,
    ⟨180, some 2, set 4⟩, ⟨180, none, drop⟩, ⟨87, none, set 5⟩, ⟨255, none, set 6⟩]
  unDefault := app 7
  order := [⟨0, true⟩, ⟨1, true⟩, ⟨2, true⟩, ⟨3, true⟩, ⟨4, true⟩, ⟨5, true⟩, ⟨6, true⟩, ⟨7, true⟩]
  lens := [0, 1, 2, 3, 4, 5, 6, 7]
  reset := true
  lenCheck := false
  early := true

/-- gtpv2/message/modify-bearer-failure-indication.go: New 22-57, MarshalTo 69-125, UnmarshalBinary 137-177, MarshalLen 180-208 -/
def modifyBearerFailureIndication : Schema where
  name := "ModifyBearerFailureIndication"
  typ := 65
  flags := 0x48
  hasTEIDArg := true
  fields := ["Cause", "Recovery", "IndicationFlags", "PGWOverloadControlInformation",
    "SGWOverloadControlInformation", "PrivateExtension", "AdditionalIEs"]
  multi := [6]
  newRules := [⟨2, none, set 0⟩, ⟨3, none, set 1⟩, ⟨77, none, set 2⟩, ⟨180, some 0, set 3⟩, ⟨180, some 1, set 4⟩,
    ⟨180, none, drop⟩, ⟨255, none, set 5⟩]
  newDefault := app 6
  unRules := [⟨2, none, set 0⟩, ⟨3, none, set 1⟩, ⟨77, none, set 2⟩, ⟨180, some 0, set 3⟩, ⟨180, some 1, set 4⟩,
    ⟨180, none, drop⟩, ⟨255, none, set 5⟩]
  unDefault := app 6
  order := [⟨0, true⟩, ⟨1, true⟩, ⟨2, true⟩, ⟨3, true⟩, ⟨4, true⟩, ⟨5, true⟩, ⟨6, true⟩]
  lens := [0, 1, 2, 3, 4, 5, 6]
  reset := true
  lenCheck := false
  early := true

/-- gtpv2/message/modify-bearer-req.go: New 53-178, MarshalTo 190-420, UnmarshalBinary 432-563, MarshalLen 566-682 -/
def modifyBearerRequest : Schema where
  name := "ModifyBearerRequest"
  typ := 34
  flags := 0x48
  hasTEIDArg := true
  fields := ["MEI", "ULI", "ServingNetwork", "RATType", "IndicationFlags", "SenderFTEIDC", "AMBR",
    "DelayDownlinkPacketNotificationRequest", "BearerContextsToBeModified",
    "BearerContextsToBeRemoved", "Recovery", "UETimeZone", "MMEFQCSID", "SGWFQCSID", "UCI",
    "UELocalIPAddress", "UEUDPPort", "MMESGSNLDN", "SGWLDN", "HeNBLocalIPAddress", "HeNBUDPPort",
    "MMESGSNIdentifier", "CNOperatorSelectionEntity", "PresenceReportingAreaInformation",
    "MMESGSNOverloadControlInformation", "SGWOverloadControlInformation",
    "EPDGOverloadControlInformation", "ServingPLMNRateControl", "MOExceptionDataCounter", "IMSI",
    "ULIForSGW", "WLANLocationInformation", "WLANLocationTimeStamp", "SecondaryRATUsageDataReport",
    "PrivateExtension", "AdditionalIEs"]
  multi := [8, 9, 23, 33, 35]
  newRules := [⟨75, none, set 0⟩, ⟨86, some 0, set 1⟩, ⟨86, some 1, set 30⟩, ⟨86, none, app 35⟩, ⟨83, none, set 2⟩,
    ⟨82, none, set 3⟩, ⟨77, none, set 4⟩, ⟨87, none, set 5⟩, ⟨72, none, set 6⟩, ⟨92, none, set 7⟩,
    ⟨93, some 0, app 8⟩, ⟨93, some 1, app 9⟩, ⟨93, none, app 35⟩, ⟨3, none, set 10⟩, ⟨114, none, set 11⟩,
    ⟨132, some 0, set 12⟩, ⟨132, some 1, set 13⟩, ⟨132, none, app 35⟩, ⟨145, none, set 14⟩,
    ⟨74, some 0, set 15⟩, ⟨74, some 1, set 19⟩, ⟨74, none, app 35⟩, ⟨126, some 0, set 16⟩,
    ⟨126, some 1, set 20⟩, ⟨126, some 2, set 21⟩, ⟨126, none, app 35⟩, ⟨151, some 0, set 17⟩,
    ⟨151, some 1, set 18⟩, ⟨151, none, app 35⟩, ⟨173, none, set 22⟩, ⟨178, none, app 23⟩,
    ⟨180, some 0, set 24⟩, ⟨180, some 1, set 25⟩, ⟨180, some 2, set 26⟩, ⟨180, none, app 35⟩,
    ⟨198, none, set 27⟩, ⟨199, none, set 28⟩, ⟨1, none, set 29⟩, ⟨169, none, set 31⟩,
    ⟨179, none, set 32⟩, ⟨201, none, app 33⟩, ⟨255, none, set 34⟩]
  newDefault := app 35
  unRules := [⟨75, none, set 0⟩, ⟨86, some 0, set 1⟩, ⟨86, some 1, set 30⟩, ⟨86, none, app 35⟩, ⟨83, none, set 2⟩,
    ⟨82, none, set 3⟩, ⟨77, none, set 4⟩, ⟨87, none, set 5⟩, ⟨72, none, set 6⟩, ⟨92, none, set 7⟩,
    ⟨93, some 0, app 8⟩, ⟨93, some 1, app 9⟩, ⟨93, none, app 35⟩, ⟨3, none, set 10⟩, ⟨114, none, set 11⟩,
    ⟨132, some 0, set 12⟩, ⟨132, some 1, set 13⟩, ⟨132, none, app 35⟩, ⟨145, none, set 14⟩,
    ⟨74, some 0, set 15⟩, ⟨74, some 1, set 19⟩, ⟨74, none, app 35⟩, ⟨126, some 0, set 16⟩,
    ⟨126, some 1, set 20⟩, ⟨126, some 2, set 21⟩, ⟨126, none, app 35⟩, ⟨151, some 0, set 17⟩,
    ⟨151, some 1, set 18⟩, ⟨151, none, app 35⟩, ⟨173, none, set 22⟩, ⟨178, none, app 23⟩,
    ⟨180, some 0, set 24⟩, ⟨180, some 1, set 25⟩, ⟨180, some 2, set 26⟩, ⟨180, none, app 35⟩,
    ⟨198, none, set 27⟩, ⟨199, none, set 28⟩, ⟨1, none, set 29⟩, ⟨169, none, set 31⟩,
    ⟨179, none, set 32⟩, ⟨201, none, app 33⟩, ⟨255, none, set 34⟩]
  unDefault := app 35
  order := [⟨0, true⟩, ⟨1, true⟩, ⟨2, true⟩, ⟨3, true⟩, ⟨4, true⟩, ⟨5, true⟩, ⟨6, true⟩, ⟨7, true⟩, ⟨8, true⟩,
    ⟨9, true⟩, ⟨10, true⟩, ⟨11, true⟩, ⟨12, true⟩, ⟨13, true⟩, ⟨14, true⟩, ⟨15, true⟩, ⟨16, true⟩,
    ⟨17, true⟩, ⟨18, true⟩, ⟨19, true⟩, ⟨20, true⟩, ⟨21, true⟩, ⟨22, true⟩, ⟨23, true⟩, ⟨24, true⟩,
    ⟨25, true⟩, ⟨26, true⟩, ⟨27, true⟩, ⟨28, true⟩, ⟨29, true⟩, ⟨30, true⟩, ⟨31, true⟩, ⟨32, true⟩,
    ⟨33, true⟩, ⟨34, true⟩, ⟨35, true⟩]
  lens := [0, 1, 2, 3, 4, 5, 6, 7, 8, 9, 10, 11, 12, 13, 14, 15, 16, 17, 18, 19, 20, 21, 22, 23, 24, 25, 26, 27, 28, 29, 30, 31, 32, 33, 34, 35]
  reset := true
  lenCheck := false
  early := true

/-- gtpv2/message/modify-bearer-res.go: New 44-141, MarshalTo 153-329, UnmarshalBinary 341-444, MarshalLen 447-536 -/
def modifyBearerResponse : Schema where
  name := "ModifyBearerResponse"
  typ := 35
  flags := 0x48
  hasTEIDArg := true
  fields := ["Cause", "MSISDN", "LinkedEBI", "APNRestriction", "PCO", "BearerContextsModified",
    "BearerContextsMarkedForRemoval", "ChangeReportingAction", "CSGInformationReportingAction",
    "HeNBInformationReporting", "ChargingGatewayName", "ChargingGatewayAddress", "PGWFQCSID",
    "SGWFQCSID", "Recovery", "SGWLDN", "PGWLDN", "IndicationFlags", "PresenceReportingAreaAction",
    "PGWNodeLoadControlInformation", "PGWAPNLoadControlInformation", "SGWNodeLoadControlInformation",
    "PGWOverloadControlInformation", "SGWOverloadControlInformation", "PDNConnectionChargingID",
    "PrivateExtension", "AdditionalIEs"]
  multi := [5, 6, 18, 26]
  newRules := [⟨2, none, set 0⟩, ⟨76, none, set 1⟩, ⟨73, none, set 2⟩, ⟨127, none, set 3⟩, ⟨78, none, set 4⟩,
    ⟨93, some 0, app 5⟩, ⟨93, some 1, app 6⟩, ⟨93, none, app 26⟩, ⟨131, none, set 7⟩, ⟨146, none, set 8⟩,
    ⟨165, none, set 9⟩, ⟨136, none, set 10⟩, ⟨74, none, set 11⟩, ⟨132, some 0, set 12⟩,
    ⟨132, some 1, set 13⟩, ⟨132, none, app 26⟩, ⟨3, none, set 14⟩, ⟨151, some 0, set 15⟩,
    ⟨151, some 1, set 16⟩, ⟨151, none, app 26⟩, ⟨77, none, set 17⟩, ⟨177, none, app 18⟩,
    ⟨181, some 0, set 19⟩, ⟨181, some 1, set 20⟩, ⟨181, none, app 26⟩, ⟨180, some 0, set 21⟩,
    ⟨180, some 1, set 22⟩, ⟨180, some 2, set 23⟩, ⟨180, none, app 26⟩, ⟨94, none, set 24⟩,
    ⟨255, none, set 25⟩]
  newDefault := app 26
  unRules := [⟨2, none, set 0⟩, ⟨76, none, set 1⟩, ⟨73, none, set 2⟩, ⟨127, none, set 3⟩, ⟨78, none, set 4⟩,
    ⟨93, some 0, app 5⟩, ⟨93, some 1, app 6⟩, ⟨93, none, app 26⟩, ⟨131, none, set 7⟩, ⟨146, none, set 8⟩,
    ⟨165, none, set 9⟩, ⟨136, none, set 10⟩, ⟨74, none, set 11⟩, ⟨132, some 0, set 12⟩,
    ⟨132, some 1, set 13⟩, ⟨132, none, app 26⟩, ⟨3, none, set 14⟩, ⟨151, some 0, set 15⟩,
    ⟨151, some 1, set 16⟩, ⟨151, none, app 26⟩, ⟨77, none, set 17⟩, ⟨177, none, app 18⟩,
    ⟨181, some 0, set 19⟩, ⟨181, some 1, set 20⟩, ⟨181, none, app 26⟩, ⟨180, some 0, set 21⟩,
    ⟨180, some 1, set 22⟩, ⟨180, some 2, set 23⟩, ⟨180, none, app 26⟩, ⟨94, none, set 24⟩,
    ⟨255, none, set 25⟩]
  unDefault := app 26
  order := [⟨0, true⟩, ⟨1, true⟩, ⟨2, true⟩, ⟨3, true⟩, ⟨4, true⟩, ⟨5, true⟩, ⟨6, true⟩, ⟨7, true⟩, ⟨8, true⟩,
    ⟨9, true⟩, ⟨10, true⟩, ⟨11, true⟩, ⟨12, true⟩, ⟨13, true⟩, ⟨14, true⟩, ⟨15, true⟩, ⟨16, true⟩,
    ⟨17, true⟩, ⟨18, true⟩, ⟨19, true⟩, ⟨20, true⟩, ⟨21, true⟩, ⟨22, true⟩, ⟨23, true⟩, ⟨24, true⟩,
    ⟨25, true⟩, ⟨26, true⟩]
  lens := [0, 1, 2, 3, 4, 5, 6, 7, 8, 9, 10, 11, 12, 13, 14, 15, 16, 17, 18, 19, 20, 21, 22, 23, 24, 25, 26]
  reset := true
  lenCheck := false
  early := true

/-- gtpv2/message/pgw-restart-notification-acknowledge.go: New 20-44, MarshalTo 56-88, UnmarshalBinary 100-129, MarshalLen 132-149 -/
def pGWRestartNotificationAcknowledge : Schema where
  name := "PGWRestartNotificationAcknowledge"
  typ := 180
  flags := 0x48
  hasTEIDArg := true
  fields := ["Cause", "PrivateExtension", "AdditionalIEs"]
  multi := [2]
  newRules := [⟨2, none, set 0⟩, ⟨255, none, set 1⟩]
  newDefault := app 2
  unRules := [⟨2, none, set 0⟩, ⟨255, none, set 1⟩]
  unDefault := app 2
  order := [⟨0, true⟩, ⟨1, true⟩, ⟨2, true⟩]
  lens := [0, 1, 2]
  reset := true
  lenCheck := false
  early := true

/-- gtpv2/message/pgw-restart-notification.go: New 22-55, MarshalTo 67-111, UnmarshalBinary 123-161, MarshalLen 164-187 -/
def pGWRestartNotification : Schema where
  name := "PGWRestartNotification"
  typ := 179
  flags := 0x48
  hasTEIDArg := true
  fields := ["PGWS5S8IPAddressForControlPlaneOrPMIP", "SGWS11S4IPAddressForControlPlane", "Cause",
    "PrivateExtension", "AdditionalIEs"]
  multi := [4]
  newRules := [⟨74, some 0, set 0⟩, ⟨74, some 1, set 1⟩, ⟨74, none, app 4⟩, ⟨2, none, set 2⟩, ⟨255, none, set 3⟩]
  newDefault := app 4
  unRules := [⟨74, some 0, set 0⟩, ⟨74, some 1, set 1⟩, ⟨74, none, app 4⟩, ⟨2, none, set 2⟩, ⟨255, none, set 3⟩]
  unDefault := app 4
  order := [⟨0, true⟩, ⟨1, true⟩, ⟨2, true⟩, ⟨3, true⟩, ⟨4, true⟩]
  lens := [0, 1, 2, 3, 4]
  reset := true
  lenCheck := false
  early := true

/-- gtpv2/message/release-access-bearers-req.go: New 21-51, MarshalTo 63-113, UnmarshalBinary 125-160, MarshalLen 163-188 -/
def releaseAccessBearersRequest : Schema where
  name := "ReleaseAccessBearersRequest"
  typ := 170
  flags := 0x48
  hasTEIDArg := true
  fields := ["ListOfRABs", "OriginatingNode", "IndicationFlags", "SecondaryRATUsageDataReport",
    "PrivateExtension", "AdditionalIEs"]
  multi := [0, 3, 5]
  newRules := [⟨73, none, app 0⟩, ⟨135, none, set 1⟩, ⟨77, none, set 2⟩, ⟨201, none, app 3⟩, ⟨255, none, set 4⟩]
  newDefault := app 5
  unRules := [⟨73, none, app 0⟩, ⟨135, none, set 1⟩, ⟨77, none, set 2⟩, ⟨201, none, app 3⟩, ⟨255, none, set 4⟩]
  unDefault := app 5
  order := [⟨0, true⟩, ⟨1, true⟩, ⟨2, true⟩, ⟨3, true⟩, ⟨4, true⟩, ⟨5, true⟩]
  lens := [0, 1, 2, 3, 4, 5]
  reset := true
  lenCheck := false
  early := true

/-- gtpv2/message/release-access-bearers-res.go: New 22-54, MarshalTo 66-122, UnmarshalBinary 134-171, MarshalLen 174-203 -/
def releaseAccessBearersResponse : Schema where
  name := "ReleaseAccessBearersResponse"
  typ := 171
  flags := 0x48
  hasTEIDArg := true
  fields := ["Cause", "Recovery", "IndicationFlags", "SGWNodeLoadControlInformation",
    "SGWOverloadControlInformation", "PrivateExtension", "AdditionalIEs"]
  multi := [6]
  newRules := [⟨2, none, set 0⟩, ⟨3, none, set 1⟩, ⟨77, none, set 2⟩, ⟨181, none, set 3⟩, ⟨180, none, set 4⟩,
    ⟨255, none, set 5⟩]
  newDefault := app 6
  unRules := [⟨2, none, set 0⟩, ⟨3, none, set 1⟩, ⟨77, none, set 2⟩, ⟨181, none, set 3⟩, ⟨180, none, set 4⟩,
    ⟨255, none, set 5⟩]
  unDefault := app 6
  order := [⟨0, true⟩, ⟨1, true⟩, ⟨2, true⟩, ⟨3, true⟩, ⟨4, true⟩, ⟨5, true⟩, ⟨6, true⟩]
  lens := [0, 1, 2, 3, 4, 5, 6]
  reset := true
  lenCheck := false
  early := true

/-- gtpv2/message/resume-acknowledge.go: New 19-41, MarshalTo 53-74, UnmarshalBinary 86-113, MarshalLen 116-126 -/
def resumeAcknowledge : Schema where
  name := "ResumeAcknowledge"
  typ := 165
  flags := 0x48
  hasTEIDArg := true
  fields := ["Cause", "PrivateExtension"]
  multi := []
  newRules := [⟨2, none, set 0⟩, ⟨255, none, set 1⟩]
  newDefault := drop
  unRules := [⟨2, none, set 0⟩, ⟨255, none, set 1⟩]
  unDefault := drop
  order := [⟨0, true⟩, ⟨1, false⟩]
  lens := [0, 1]
  reset := true
  lenCheck := false
  early := true

/-- gtpv2/message/resume-notification.go: New 22-50, MarshalTo 62-101, UnmarshalBinary 113-147, MarshalLen 150-168 -/
def resumeNotification : Schema where
  name := "ResumeNotification"
  typ := 164
  flags := 0x48
  hasTEIDArg := true
  fields := ["IMSI", "LinkedEPSBearerID", "OriginatingNode", "SenderFTEIDForControlPlane", "PrivateExtension"]
  multi := []
  newRules := [⟨1, none, set 0⟩, ⟨73, none, set 1⟩, ⟨135, none, set 2⟩, ⟨87, none, set 3⟩, ⟨255, none, set 4⟩]
  newDefault := drop
  unRules := [⟨1, none, set 0⟩, ⟨73, none, set 1⟩, ⟨135, none, set 2⟩, ⟨87, none, set 3⟩, ⟨255, none, set 4⟩]
  unDefault := drop
  order := [⟨0, true⟩, ⟨1, true⟩, ⟨2, true⟩, ⟨3, true⟩, ⟨4, false⟩]
  lens := [0, 1, 2, 3, 4]
  reset := true
  lenCheck := false
  early := true

/-- gtpv2/message/stop-paging-indication.go: New 18-42, MarshalTo 54-86, UnmarshalBinary 98-127, MarshalLen 130-146 -/
def stopPagingIndication : Schema where
  name := "StopPagingIndication"
  typ := 73
  flags := 0x48
  hasTEIDArg := true
  fields := ["IMSI", "PrivateExtension", "AdditionalIEs"]
  multi := [2]
  newRules := [⟨1, none, set 0⟩, ⟨255, none, set 1⟩]
  newDefault := app 2
  unRules := [⟨1, none, set 0⟩, ⟨255, none, set 1⟩]
  unDefault := app 2
  order := [⟨0, true⟩, ⟨1, true⟩, ⟨2, true⟩]
  lens := [0, 1, 2]
  reset := true
  lenCheck := false
  early := true

/-- gtpv2/message/suspend-acknowledge.go: New 20-44, MarshalTo 56-88, UnmarshalBinary 100-129, MarshalLen 132-149 -/
def suspendAcknowledge : Schema where
  name := "SuspendAcknowledge"
  typ := 163
  flags := 0x48
  hasTEIDArg := true
  fields := ["Cause", "PrivateExtension", "AdditionalIEs"]
  multi := [2]
  newRules := [⟨2, none, set 0⟩, ⟨255, none, set 1⟩]
  newDefault := app 2
  unRules := [⟨2, none, set 0⟩, ⟨255, none, set 1⟩]
  unDefault := app 2
  order := [⟨0, true⟩, ⟨1, true⟩, ⟨2, true⟩]
  lens := [0, 1, 2]
  reset := true
  lenCheck := false
  early := true

/-- gtpv2/message/suspend-notification.go: New 28-68, MarshalTo 80-160, UnmarshalBinary 172-218, MarshalLen 221-261 -/
def suspendNotification : Schema where
  name := "SuspendNotification"
  typ := 162
  flags := 0x48
  hasTEIDArg := true
  fields := ["IMSI", "RAI", "LinkedEBI", "PTMSI", "OriginatingNode", "AddressForControlPlane",
    "UDPSourcePortNumber", "HopCounter", "SenderFTEIDC", "PrivateExtension", "AdditionalIEs"]
  multi := [10]
  newRules := [⟨1, none, set 0⟩, ⟨86, none, set 1⟩, ⟨73, none, set 2⟩, ⟨111, none, set 3⟩, ⟨135, none, set 4⟩,
    ⟨74, none, set 5⟩, ⟨126, none, set 6⟩, ⟨113, none, set 7⟩, ⟨87, none, set 8⟩, ⟨255, none, set 9⟩]
  newDefault := app 10
  unRules := [⟨1, none, set 0⟩, ⟨86, none, set 1⟩, ⟨111, none, set 3⟩, ⟨73, none, set 2⟩, ⟨135, none, set 4⟩,
    ⟨74, none, set 5⟩, ⟨126, none, set 6⟩, ⟨113, none, set 7⟩, ⟨87, none, set 8⟩, ⟨255, none, set 9⟩]
  unDefault := app 10
  order := [⟨0, true⟩, ⟨1, true⟩, ⟨2, true⟩, ⟨3, true⟩, ⟨4, true⟩, ⟨5, true⟩, ⟨6, true⟩, ⟨7, true⟩, ⟨8, true⟩,
    ⟨9, true⟩, ⟨10, true⟩]
  lens := [0, 1, 3, 2, 4, 5, 6, 7, 8, 9, 10]
  reset := true
  lenCheck := false
  early := true

/-- gtpv2/message/update-bearer-req.go: New 36-107, MarshalTo 119-247, UnmarshalBinary 259-332, MarshalLen 335-400 -/
def updateBearerRequest : Schema where
  name := "UpdateBearerRequest"
  typ := 97
  flags := 0x48
  hasTEIDArg := true
  fields := ["BearerContexts", "PTI", "PCO", "APNAMBR", "ChangeReportingAction",
    "CSGInformationReportingAction", "HeNBInformationReporting", "IndicationFlags", "PGWFQCSID",
    "SGWFQCSID", "PresenceReportingAction", "PGWNodeLoadControlInformation",
    "PGWAPNLoadControlInformation", "SGWNodeLoadControlInformation", "PGWOverloadControlInformation",
    "SGWOverloadControlInformation", "NBIFOMContainer", "PrivateExtension", "AdditionalIEs"]
  multi := [0, 10, 18]
  newRules := [⟨93, none, app 0⟩, ⟨100, none, set 1⟩, ⟨78, none, set 2⟩, ⟨72, none, set 3⟩, ⟨131, none, set 4⟩,
    ⟨146, none, set 5⟩, ⟨165, none, set 6⟩, ⟨77, none, set 7⟩, ⟨132, some 0, set 8⟩,
    ⟨132, some 1, set 9⟩, ⟨132, none, app 18⟩, ⟨177, none, app 10⟩, ⟨181, some 0, set 11⟩,
    ⟨181, some 1, set 12⟩, ⟨181, some 2, set 13⟩, ⟨181, none, app 18⟩, ⟨180, some 0, set 14⟩,
    ⟨180, some 1, set 15⟩, ⟨180, none, app 18⟩, ⟨118, none, set 16⟩, ⟨255, none, set 17⟩]
  newDefault := app 18
  unRules := [⟨93, none, app 0⟩, ⟨100, none, set 1⟩, ⟨78, none, set 2⟩, ⟨72, none, set 3⟩, ⟨131, none, set 4⟩,
    ⟨146, none, set 5⟩, ⟨165, none, set 6⟩, ⟨77, none, set 7⟩, ⟨132, some 0, set 8⟩,
    ⟨132, some 1, set 9⟩, ⟨132, none, app 18⟩, ⟨177, none, app 10⟩, ⟨181, some 0, set 11⟩,
    ⟨181, some 1, set 12⟩, ⟨181, some 2, set 13⟩, ⟨181, none, app 18⟩, ⟨180, some 0, set 14⟩,
    ⟨180, some 1, set 15⟩, ⟨180, none, app 18⟩, ⟨118, none, set 16⟩, ⟨255, none, set 17⟩]
  unDefault := app 18
  order := [⟨0, true⟩, ⟨1, true⟩, ⟨2, true⟩, ⟨3, true⟩, ⟨4, true⟩, ⟨5, true⟩, ⟨6, true⟩, ⟨7, true⟩, ⟨8, true⟩,
    ⟨9, true⟩, ⟨10, true⟩, ⟨11, true⟩, ⟨12, true⟩, ⟨13, true⟩, ⟨14, true⟩, ⟨15, true⟩, ⟨16, true⟩,
    ⟨17, true⟩, ⟨18, true⟩]
  lens := [0, 1, 2, 3, 4, 5, 6, 7, 8, 9, 10, 11, 12, 13, 14, 15, 16, 17, 18]
  reset := true
  lenCheck := false
  early := true

/-- gtpv2/message/update-bearer-res.go: New 42-138, MarshalTo 150-314, UnmarshalBinary 326-424, MarshalLen 427-510 -/
def updateBearerResponse : Schema where
  name := "UpdateBearerResponse"
  typ := 98
  flags := 0x48
  hasTEIDArg := true
  fields := ["Cause", "BearerContexts", "PCO", "Recovery", "MMEFQCSID", "SGWFQCSID", "EPDGFQCSID",
    "TWANFQCSID", "IndicationFlags", "UETimeZone", "ULI", "TWANIdentifier",
    "MMESGSNOverloadControlInformation", "SGWOverloadControlInformation",
    "PresenceReportingAreaAction", "MMESGSNIdentifier", "TWANePDGOverloadControlInformation",
    "WLANLocationInformation", "WLANLocationTimeStamp", "UELocalIPAddress", "UEUDPPort",
    "NBIFOMContainer", "UETCPPort", "PrivateExtension", "AdditionalIEs"]
  multi := [1, 14, 24]
  newRules := [⟨2, none, set 0⟩, ⟨93, none, app 1⟩, ⟨78, none, set 2⟩, ⟨3, none, set 3⟩, ⟨132, some 0, set 4⟩,
    ⟨132, some 1, set 5⟩, ⟨132, some 2, set 6⟩, ⟨132, some 3, set 7⟩, ⟨132, none, app 24⟩,
    ⟨77, none, set 8⟩, ⟨114, none, set 9⟩, ⟨86, none, set 10⟩, ⟨169, some 0, set 11⟩,
    ⟨169, some 1, set 17⟩, ⟨169, none, app 24⟩, ⟨180, some 0, set 12⟩, ⟨180, some 1, set 13⟩,
    ⟨180, some 2, set 16⟩, ⟨180, none, app 24⟩, ⟨177, none, app 14⟩, ⟨74, some 0, set 15⟩,
    ⟨74, some 1, set 19⟩, ⟨74, none, drop⟩, ⟨179, some 1, set 18⟩, ⟨179, none, app 24⟩,
    ⟨126, some 0, set 20⟩, ⟨126, some 1, set 22⟩, ⟨126, none, app 24⟩, ⟨118, none, set 21⟩,
    ⟨255, none, set 23⟩]
  newDefault := app 24
  unRules := [⟨2, none, set 0⟩, ⟨93, none, app 1⟩, ⟨78, none, set 2⟩, ⟨3, none, set 3⟩, ⟨132, some 0, set 4⟩,
    ⟨132, some 1, set 5⟩, ⟨132, some 2, set 6⟩, ⟨132, some 3, set 7⟩, ⟨132, none, app 24⟩,
    ⟨77, none, set 8⟩, ⟨114, none, set 9⟩, ⟨86, none, set 10⟩, ⟨169, some 0, set 11⟩,
    ⟨169, some 1, set 17⟩, ⟨169, none, app 24⟩, ⟨180, some 0, set 12⟩, ⟨180, some 1, set 13⟩,
    ⟨180, some 2, set 16⟩, ⟨180, none, app 24⟩, ⟨177, none, app 14⟩, ⟨74, some 0, set 15⟩,
    ⟨74, some 1, set 19⟩, ⟨74, none, drop⟩, ⟨179, some 1, set 18⟩, ⟨179, none, app 24⟩,
    ⟨126, some 0, set 20⟩, ⟨126, some 1, set 22⟩, ⟨126, none, app 24⟩, ⟨118, none, set 21⟩,
    ⟨255, none, set 23⟩]
  unDefault := app 24
  order := [⟨0, true⟩, ⟨1, true⟩, ⟨2, true⟩, ⟨3, true⟩, ⟨4, true⟩, ⟨5, true⟩, ⟨6, true⟩, ⟨7, true⟩, ⟨8, true⟩,
    ⟨9, true⟩, ⟨10, true⟩, ⟨11, true⟩, ⟨12, true⟩, ⟨13, true⟩, ⟨14, true⟩, ⟨15, true⟩, ⟨16, true⟩,
    ⟨17, true⟩, ⟨18, true⟩, ⟨19, true⟩, ⟨20, true⟩, ⟨21, true⟩, ⟨22, true⟩, ⟨23, true⟩, ⟨24, true⟩]
  lens := [0, 1, 2, 3, 4, 5, 6, 7, 8, 9, 10, 11, 12, 13, 14, 15, 16, 17, 18, 19, 20, 21, 22, 23, 24]
  reset := true
  lenCheck := false
  early := true

/-- gtpv2/message/update-pdn-connection-set-req.go: New 21-52, MarshalTo 64-102, UnmarshalBinary 114-150, MarshalLen 153-173 -/
def updatePDNConnectionSetRequest : Schema where
  name := "UpdatePDNConnectionSetRequest"
  typ := 200
  flags := 0x48
  hasTEIDArg := true
  fields := ["MMEFQCSID", "SGWFQCSID", "PrivateExtension", "AdditionalIEs"]
  multi := [3]
  newRules := [⟨132, some 0, set 0⟩, ⟨132, some 1, set 1⟩, ⟨132, none, app 3⟩, ⟨255, none, set 2⟩]
  newDefault := app 3
  unRules := [⟨132, some 0, set 0⟩, ⟨132, some 1, set 1⟩, ⟨132, none, app 3⟩, ⟨255, none, set 2⟩]
  unDefault := app 3
  order := [⟨0, true⟩, ⟨1, true⟩, ⟨2, true⟩, ⟨3, true⟩]
  lens := [0, 1, 2, 3]
  reset := true
  lenCheck := false
  early := true

/-- gtpv2/message/update-pdn-connection-set-res.go: New 22-50, MarshalTo 63-107, UnmarshalBinary 119-152, MarshalLen 155-178 -/
def updatePDNConnectionSetResponse : Schema where
  name := "UpdatePDNConnectionSetResponse"
  typ := 201
  flags := 0x48
  hasTEIDArg := true
  fields := ["Cause", "PGWFQCSID", "Recovery", "PrivateExtension", "AdditionalIEs"]
  multi := [4]
  newRules := [⟨2, none, set 0⟩, ⟨132, none, set 1⟩, ⟨3, none, set 2⟩, ⟨255, none, set 3⟩]
  newDefault := app 4
  unRules := [⟨2, none, set 0⟩, ⟨132, none, set 1⟩, ⟨3, none, set 2⟩, ⟨255, none, set 3⟩]
  unDefault := app 4
  order := [⟨0, true⟩, ⟨1, true⟩, ⟨2, true⟩, ⟨3, true⟩, ⟨4, true⟩]
  lens := [0, 1, 2, 3, 4]
  reset := true
  lenCheck := false
  early := true

/-- gtpv2/message/version-not-supported.go: New 20-37, MarshalTo 49-68, UnmarshalBinary 80-106, MarshalLen 109-118 -/
def versionNotSupportedIndication : Schema where
  name := "VersionNotSupportedIndication"
  typ := 3
  flags := 0x48
  hasTEIDArg := true
  fields := ["AdditionalIEs"]
  multi := [0]
  newRules := []
  newDefault := app 0
  unRules := []
  unDefault := app 0
  order := [⟨0, true⟩]
  lens := [0]
  reset := true
  lenCheck := false
  early := true

/-- all typed messages -/
def all : List Schema := [changeNotificationRequest,
  changeNotificationResponse,
  contextAcknowledge,
  contextRequest,
  contextResponse,
  createBearerRequest,
  createBearerResponse,
  createSessionRequest,
  createSessionResponse,
  deleteBearerCommand,
  deleteBearerFailureIndication,
  deleteBearerRequest,
  deleteBearerResponse,
  deletePDNConnectionSetRequest,
  deletePDNConnectionSetResponse,
  deleteSessionRequest,
  deleteSessionResponse,
  detachAcknowledge,
  detachNotification,
  downlinkDataNotificationAcknowledge,
  downlinkDataNotificationFailureIndication,
  downlinkDataNotification,
  echoRequest,
  echoResponse,
  modifyAccessBearersRequest,
  modifyAccessBearersResponse,
  modifyBearerCommand,
  modifyBearerFailureIndication,
  modifyBearerRequest,
  modifyBearerResponse,
  pGWRestartNotificationAcknowledge,
  pGWRestartNotification,
  releaseAccessBearersRequest,
  releaseAccessBearersResponse,
  resumeAcknowledge,
  resumeNotification,
  stopPagingIndication,
  suspendAcknowledge,
  suspendNotification,
  updateBearerRequest,
  updateBearerResponse,
  updatePDNConnectionSetRequest,
  updatePDNConnectionSetResponse,
  versionNotSupportedIndication]

/-- gtpv2/message/message.go:309-413 the switch of `Parse`: message type octet and the struct it is decoded into -/
def dispatch : List (UInt8 × Schema) := [(1, echoRequest),
  (2, echoResponse),
  (3, versionNotSupportedIndication),
  (32, createSessionRequest),
  (33, createSessionResponse),
  (36, deleteSessionRequest),
  (37, deleteSessionResponse),
  (64, modifyBearerCommand),
  (65, modifyBearerFailureIndication),
  (66, deleteBearerCommand),
  (67, deleteBearerFailureIndication),
  (99, deleteBearerRequest),
  (95, createBearerRequest),
  (96, createBearerResponse),
  (100, deleteBearerResponse),
  (34, modifyBearerRequest),
  (35, modifyBearerResponse),
  (97, updateBearerRequest),
  (98, updateBearerResponse),
  (130, contextRequest),
  (131, contextResponse),
  (132, contextAcknowledge),
  (170, releaseAccessBearersRequest),
  (171, releaseAccessBearersResponse),
  (73, stopPagingIndication),
  (211, modifyAccessBearersRequest),
  (212, modifyAccessBearersResponse),
  (101, deletePDNConnectionSetRequest),
  (102, deletePDNConnectionSetResponse),
  (200, updatePDNConnectionSetRequest),
  (201, updatePDNConnectionSetResponse),
  (179, pGWRestartNotification),
  (180, pGWRestartNotificationAcknowledge),
  (149, detachNotification),
  (150, detachAcknowledge),
  (165, resumeAcknowledge),
  (164, resumeNotification),
  (163, suspendAcknowledge),
  (162, suspendNotification),
  (38, changeNotificationRequest),
  (39, changeNotificationResponse),
  (176, downlinkDataNotification),
  (177, downlinkDataNotificationAcknowledge),
  (70, downlinkDataNotificationFailureIndication)]

end Verif.V2.Tab

