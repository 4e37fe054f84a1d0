import Verif.Model.Msg
/-
Generated from the text of gtpv1/message/*.go and gtpv1/ie/ie.go by tools/gen_tables.py.
One `Schema` per message type.  A rule `⟨t, i, act⟩` is the case of IE type t (and instance i).
-/
namespace Verif.V1.Tab
open Verif.Msg
open Verif.Msg.Act

/-- gtpv1/message/create-pdp-context-req.go: New 57-164, MarshalTo 177-431, UnmarshalBinary 443-558, MarshalLen 561-689 -/
def createPDPContextRequest : Schema where
  name := "CreatePDPContextRequest"
  typ := 16
  flags := 0x32
  hasTEIDArg := true
  fields := ["IMSI", "RAI", "Recovery", "SelectionMode", "TEIDDataI", "TEIDCPlane", "NSAPI", "LinkedNSAPI",
    "ChargingCharacteristics", "TraceReference", "TraceType", "EndUserAddress", "APN", "PCO",
    "SGSNAddressForSignalling", "SGSNAddressForUserTraffic", "MSISDN", "QoSProfile", "TFT",
    "TriggerID", "OMCIdentity", "CommonFlags", "APNRestriction", "RATType", "UserLocationInformation",
    "MSTimeZone", "IMEI", "CAMELChargingInformationContainer", "AdditionalTraceInfo", "CorrelationID",
    "EvolvedARPI", "ExtendedCommonFlags", "UCI", "APNAMBR", "SignallingPriorityIndication",
    "CNOperatorSelectionEntity", "MappedUEUsageType", "UPFunctionSelectionIndicationFlags",
    "PrivateExtension", "AdditionalIEs"]
  multi := [39]
  newRules := [⟨2, none, set 0⟩, ⟨3, none, set 1⟩, ⟨14, none, set 2⟩, ⟨15, none, set 3⟩, ⟨16, none, set 4⟩,
    ⟨17, none, set 5⟩, ⟨20, none, free 6 (free 7 (app 39))⟩, ⟨26, none, set 8⟩, ⟨27, none, set 9⟩,
    ⟨28, none, set 10⟩, ⟨128, none, set 11⟩, ⟨131, none, set 12⟩, ⟨132, none, set 13⟩,
    ⟨133, none, free 14 (free 15 (app 39))⟩, ⟨134, none, set 16⟩, ⟨135, none, set 17⟩,
    ⟨137, none, set 18⟩, ⟨142, none, set 19⟩, ⟨143, none, set 20⟩, ⟨148, none, set 21⟩,
    ⟨149, none, set 22⟩, ⟨151, none, set 23⟩, ⟨152, none, set 24⟩, ⟨153, none, set 25⟩,
    ⟨154, none, set 26⟩, ⟨155, none, set 27⟩, ⟨162, none, set 28⟩, ⟨183, none, set 29⟩,
    ⟨191, none, set 30⟩, ⟨193, none, set 31⟩, ⟨194, none, set 32⟩, ⟨198, none, set 33⟩,
    ⟨203, none, set 34⟩, ⟨216, none, set 35⟩, ⟨223, none, set 36⟩, ⟨224, none, set 37⟩,
    ⟨255, none, set 38⟩]
  newDefault := app 39
  unRules := [⟨2, none, set 0⟩, ⟨3, none, set 1⟩, ⟨14, none, set 2⟩, ⟨15, none, set 3⟩, ⟨16, none, set 4⟩,
    ⟨17, none, set 5⟩, ⟨20, none, free 6 (free 7 (app 39))⟩, ⟨26, none, set 8⟩, ⟨27, none, set 9⟩,
    ⟨28, none, set 10⟩, ⟨128, none, set 11⟩, ⟨131, none, set 12⟩, ⟨132, none, set 13⟩,
    ⟨133, none, free 14 (free 15 (app 39))⟩, ⟨134, none, set 16⟩, ⟨135, none, set 17⟩,
    ⟨137, none, set 18⟩, ⟨142, none, set 19⟩, ⟨143, none, set 20⟩, ⟨148, none, set 21⟩,
    ⟨149, none, set 22⟩, ⟨151, none, set 23⟩, ⟨152, none, set 24⟩, ⟨153, none, set 25⟩,
    ⟨154, none, set 26⟩, ⟨155, none, set 27⟩, ⟨162, none, set 28⟩, ⟨183, none, set 29⟩,
    ⟨191, none, set 30⟩, ⟨193, none, set 31⟩, ⟨194, none, set 32⟩, ⟨198, none, set 33⟩,
    ⟨203, none, set 34⟩, ⟨216, none, set 35⟩, ⟨223, none, set 36⟩, ⟨224, none, set 37⟩,
    ⟨255, none, set 38⟩]
  unDefault := app 39
  order := [⟨0, true⟩, ⟨1, true⟩, ⟨2, true⟩, ⟨3, true⟩, ⟨4, true⟩, ⟨5, true⟩, ⟨6, true⟩, ⟨7, true⟩, ⟨8, true⟩,
    ⟨9, true⟩, ⟨10, true⟩, ⟨11, true⟩, ⟨12, true⟩, ⟨13, true⟩, ⟨14, true⟩, ⟨15, true⟩, ⟨16, true⟩,
    ⟨17, true⟩, ⟨18, true⟩, ⟨19, true⟩, ⟨20, true⟩, ⟨21, true⟩, ⟨22, true⟩, ⟨23, true⟩, ⟨24, true⟩,
    ⟨25, true⟩, ⟨26, true⟩, ⟨27, true⟩, ⟨28, true⟩, ⟨29, true⟩, ⟨30, true⟩, ⟨31, true⟩, ⟨32, true⟩,
    ⟨33, true⟩, ⟨34, true⟩, ⟨35, true⟩, ⟨36, true⟩, ⟨37, true⟩, ⟨38, true⟩, ⟨39, true⟩]
  lens := [0, 1, 2, 3, 4, 5, 6, 7, 8, 9, 10, 11, 12, 13, 14, 15, 16, 17, 18, 19, 20, 21, 22, 23, 24, 25, 26, 27, 28, 29, 30, 31, 32, 33, 34, 35, 36, 37, 38, 39]
  reset := false
  lenCheck := true
  early := true

/-- gtpv1/message/create-pdp-context-res.go: New 45-124, MarshalTo 137-319, UnmarshalBinary 331-419, MarshalLen 422-514 -/
def createPDPContextResponse : Schema where
  name := "CreatePDPContextResponse"
  typ := 17
  flags := 0x32
  hasTEIDArg := true
  fields := ["Cause", "ReorderingRequired", "Recovery", "TEIDDataI", "TEIDCPlane", "NSAPI", "ChargingID",
    "EndUserAddress", "PCO", "GGSNAddressForCPlane", "GGSNAddressForUserTraffic",
    "AltGGSNAddressForCPlane", "AltGGSNAddressForUserTraffic", "QoSProfile", "ChargingGatewayAddress",
    "AltChargingGatewayAddress", "CommonFlags", "APNRestriction", "MSInfoChangeReportingAction",
    "BearerControlMode", "EvolvedARPI", "ExtendedCommonFlags", "CSGInformationReportingAction",
    "APNAMBR", "GGSNBackOffTime", "ExtendedCommonFlagsII", "PrivateExtension", "AdditionalIEs"]
  multi := [27]
  newRules := [⟨1, none, set 0⟩, ⟨8, none, set 1⟩, ⟨14, none, set 2⟩, ⟨16, none, set 3⟩, ⟨17, none, set 4⟩,
    ⟨20, none, set 5⟩, ⟨127, none, set 6⟩, ⟨128, none, set 7⟩, ⟨132, none, set 8⟩,
    ⟨133, none, free 9 (free 10 (free 11 (set 12)))⟩, ⟨135, none, set 13⟩,
    ⟨251, none, free 14 (free 15 (drop))⟩, ⟨148, none, set 16⟩, ⟨149, none, set 17⟩, ⟨181, none, set 18⟩,
    ⟨184, none, set 19⟩, ⟨191, none, set 20⟩, ⟨193, none, set 21⟩, ⟨195, none, set 22⟩,
    ⟨198, none, set 23⟩, ⟨202, none, set 24⟩, ⟨218, none, set 25⟩, ⟨255, none, set 26⟩]
  newDefault := app 27
  unRules := [⟨1, none, set 0⟩, ⟨8, none, set 1⟩, ⟨14, none, set 2⟩, ⟨16, none, set 3⟩, ⟨17, none, set 4⟩,
    ⟨20, none, set 5⟩, ⟨127, none, set 6⟩, ⟨128, none, set 7⟩, ⟨132, none, set 8⟩,
    ⟨133, none, free 9 (free 10 (free 11 (set 12)))⟩, ⟨135, none, set 13⟩, ⟨251, none, free 14 (set 15)⟩,
    ⟨148, none, set 16⟩, ⟨149, none, set 17⟩, ⟨181, none, set 18⟩, ⟨184, none, set 19⟩,
    ⟨191, none, set 20⟩, ⟨193, none, set 21⟩, ⟨195, none, set 22⟩, ⟨198, none, set 23⟩,
    ⟨202, none, set 24⟩, ⟨218, none, set 25⟩, ⟨255, none, set 26⟩]
  unDefault := app 27
  order := [⟨0, true⟩, ⟨1, true⟩, ⟨2, true⟩, ⟨3, true⟩, ⟨4, true⟩, ⟨5, true⟩, ⟨6, true⟩, ⟨7, true⟩, ⟨8, true⟩,
    ⟨9, true⟩, ⟨10, true⟩, ⟨11, true⟩, ⟨12, true⟩, ⟨13, true⟩, ⟨14, true⟩, ⟨15, true⟩, ⟨16, true⟩,
    ⟨17, true⟩, ⟨18, true⟩, ⟨19, true⟩, ⟨20, true⟩, ⟨21, true⟩, ⟨22, true⟩, ⟨23, true⟩, ⟨24, true⟩,
    ⟨25, true⟩, ⟨26, true⟩, ⟨27, true⟩]
  lens := [0, 1, 2, 3, 4, 5, 6, 7, 8, 9, 10, 11, 12, 13, 14, 15, 16, 17, 18, 19, 20, 21, 22, 23, 24, 25, 26, 27]
  reset := false
  lenCheck := true
  early := true

/-- gtpv1/message/delete-pdp-context-req.go: New 27-62, MarshalTo 75-149, UnmarshalBinary 161-204, MarshalLen 207-245 -/
def deletePDPContextRequest : Schema where
  name := "DeletePDPContextRequest"
  typ := 20
  flags := 0x32
  hasTEIDArg := true
  fields := ["Cause", "TeardownInd", "NSAPI", "PCO", "ULI", "MSTimeZone", "ExtendedCommonFlags",
    "ULITimestamp", "PrivateExtension", "AdditionalIEs"]
  multi := [9]
  newRules := [⟨1, none, set 0⟩, ⟨19, none, set 1⟩, ⟨20, none, set 2⟩, ⟨132, none, set 3⟩, ⟨152, none, set 4⟩,
    ⟨153, none, set 5⟩, ⟨193, none, set 6⟩, ⟨214, none, set 7⟩, ⟨255, none, set 8⟩]
  newDefault := app 9
  unRules := [⟨1, none, set 0⟩, ⟨19, none, set 1⟩, ⟨20, none, set 2⟩, ⟨132, none, set 3⟩, ⟨152, none, set 4⟩,
    ⟨153, none, set 5⟩, ⟨193, none, set 6⟩, ⟨214, none, set 7⟩, ⟨255, none, set 8⟩]
  unDefault := app 9
  order := [⟨0, true⟩, ⟨1, true⟩, ⟨2, true⟩, ⟨3, true⟩, ⟨4, true⟩, ⟨5, true⟩, ⟨6, true⟩, ⟨7, true⟩, ⟨8, true⟩,
    ⟨9, true⟩]
  lens := [0, 1, 2, 3, 4, 5, 6, 7, 8, 9]
  reset := false
  lenCheck := true
  early := true

/-- gtpv1/message/delete-pdp-context-res.go: New 24-53, MarshalTo 66-122, UnmarshalBinary 134-171, MarshalLen 174-203 -/
def deletePDPContextResponse : Schema where
  name := "DeletePDPContextResponse"
  typ := 21
  flags := 0x32
  hasTEIDArg := true
  fields := ["Cause", "PCO", "ULI", "MSTimeZone", "ULITimestamp", "PrivateExtension", "AdditionalIEs"]
  multi := [6]
  newRules := [⟨1, none, set 0⟩, ⟨132, none, set 1⟩, ⟨152, none, set 2⟩, ⟨153, none, set 3⟩, ⟨214, none, set 4⟩,
    ⟨255, none, set 5⟩]
  newDefault := app 6
  unRules := [⟨1, none, set 0⟩, ⟨132, none, set 1⟩, ⟨152, none, set 2⟩, ⟨153, none, set 3⟩, ⟨214, none, set 4⟩,
    ⟨255, none, set 5⟩]
  unDefault := app 6
  order := [⟨0, true⟩, ⟨1, true⟩, ⟨2, true⟩, ⟨3, true⟩, ⟨4, true⟩, ⟨5, true⟩, ⟨6, true⟩]
  lens := [0, 1, 2, 3, 4, 5, 6]
  reset := false
  lenCheck := true
  early := true

/-- gtpv1/message/echo-req.go: New 19-38, MarshalTo 51-77, UnmarshalBinary 89-114, MarshalLen 117-131 -/
def echoRequest : Schema where
  name := "EchoRequest"
  typ := 1
  flags := 0x32
  hasTEIDArg := false
  fields := ["PrivateExtension", "AdditionalIEs"]
  multi := [1]
  newRules := [⟨255, none, set 0⟩]
  newDefault := app 1
  unRules := [⟨255, none, set 0⟩]
  unDefault := app 1
  order := [⟨0, true⟩, ⟨1, true⟩]
  lens := [0, 1]
  reset := true
  lenCheck := false
  early := false

/-- gtpv1/message/echo-res.go: New 20-41, MarshalTo 54-86, UnmarshalBinary 98-127, MarshalLen 130-148 -/
def echoResponse : Schema where
  name := "EchoResponse"
  typ := 2
  flags := 0x32
  hasTEIDArg := false
  fields := ["Recovery", "PrivateExtension", "AdditionalIEs"]
  multi := [2]
  newRules := [⟨14, none, set 0⟩, ⟨255, none, set 1⟩]
  newDefault := app 2
  unRules := [⟨14, none, set 0⟩, ⟨255, none, set 1⟩]
  unDefault := app 2
  order := [⟨0, true⟩, ⟨1, true⟩, ⟨2, true⟩]
  lens := [0, 1, 2]
  reset := true
  lenCheck := false
  early := true

/-- gtpv1/message/end-marker.go: New 19-38, MarshalTo 51-77, UnmarshalBinary 89-114, MarshalLen 117-131 -/
def endMarker : Schema where
  name := "EndMarker"
  typ := 254
  flags := 0x30
  hasTEIDArg := false
  fields := ["PrivateExtension", "AdditionalIEs"]
  multi := [1]
  newRules := [⟨255, none, set 0⟩]
  newDefault := app 1
  unRules := [⟨255, none, set 0⟩]
  unDefault := app 1
  order := [⟨0, true⟩, ⟨1, true⟩]
  lens := [0, 1]
  reset := true
  lenCheck := false
  early := false

/-- gtpv1/message/error-indication.go: New 19-42, MarshalTo 55-93, UnmarshalBinary 105-136, MarshalLen 139-159 -/
def errorIndication : Schema where
  name := "ErrorIndication"
  typ := 26
  flags := 0x32
  hasTEIDArg := true
  fields := ["TEIDDataI", "GTPUPeerAddress", "PrivateExtension", "AdditionalIEs"]
  multi := [3]
  newRules := [⟨16, none, set 0⟩, ⟨133, none, set 1⟩, ⟨255, none, set 2⟩]
  newDefault := app 3
  unRules := [⟨16, none, set 0⟩, ⟨133, none, set 1⟩, ⟨255, none, set 2⟩]
  unDefault := app 3
  order := [⟨0, true⟩, ⟨1, true⟩, ⟨2, true⟩, ⟨3, true⟩]
  lens := [0, 1, 2, 3]
  reset := false
  lenCheck := true
  early := true

/-- gtpv1/message/supported-extension-header-notification.go: New 19-38, MarshalTo 51-77, UnmarshalBinary 89-116, MarshalLen 119-133 -/
def supportedExtensionHeaderNotification : Schema where
  name := "SupportedExtensionHeaderNotification"
  typ := 31
  flags := 0x30
  hasTEIDArg := true
  fields := ["ExtensionHeaderTypeList", "AdditionalIEs"]
  multi := [1]
  newRules := [⟨141, none, set 0⟩]
  newDefault := app 1
  unRules := [⟨141, none, set 0⟩]
  unDefault := app 1
  order := [⟨0, true⟩, ⟨1, true⟩]
  lens := [0, 1]
  reset := false
  lenCheck := true
  early := true

/-- gtpv1/message/update-pdp-context-req.go: New 49-134, MarshalTo 147-353, UnmarshalBinary 365-458, MarshalLen 461-565 -/
def updatePDPContextRequest : Schema where
  name := "UpdatePDPContextRequest"
  typ := 18
  flags := 0x32
  hasTEIDArg := true
  fields := ["IMSI", "RAI", "Recovery", "TEIDDataI", "TEIDCPlane", "NSAPI", "TraceReference", "TraceType",
    "PCO", "SGSNAddressForCPlane", "SGSNAddressForUserTraffic", "AlternativeSGSNAddressForCPlane",
    "AlternativeSGSNAddressForUserTraffic", "QoSProfile", "TFT", "TriggerID", "OMCIdentity",
    "CommonFlags", "RATType", "ULI", "MSTimeZone", "AdditionalTraceInfo", "DirectTunnelFlags",
    "EvolvedARPI", "ExtendedCommonFlags", "UCI", "APNAMBR", "SignallingPriorityIndication",
    "CNOperatorSelectionEntity", "IMEI", "PrivateExtension", "AdditionalIEs"]
  multi := [31]
  newRules := [⟨2, none, set 0⟩, ⟨3, none, set 1⟩, ⟨14, none, set 2⟩, ⟨16, none, set 3⟩, ⟨17, none, set 4⟩,
    ⟨20, none, set 5⟩, ⟨27, none, set 6⟩, ⟨28, none, set 7⟩, ⟨132, none, set 8⟩,
    ⟨133, none, free 9 (free 10 (free 11 (set 12)))⟩, ⟨135, none, set 13⟩, ⟨137, none, set 14⟩,
    ⟨142, none, set 15⟩, ⟨143, none, set 16⟩, ⟨148, none, set 17⟩, ⟨151, none, set 18⟩,
    ⟨152, none, set 19⟩, ⟨153, none, set 20⟩, ⟨162, none, set 21⟩, ⟨182, none, set 22⟩,
    ⟨191, none, set 23⟩, ⟨193, none, set 24⟩, ⟨194, none, set 25⟩, ⟨198, none, set 26⟩,
    ⟨203, none, set 27⟩, ⟨216, none, set 28⟩, ⟨154, none, set 29⟩, ⟨255, none, set 30⟩]
  newDefault := app 31
  unRules := [⟨2, none, set 0⟩, ⟨3, none, set 1⟩, ⟨14, none, set 2⟩, ⟨16, none, set 3⟩, ⟨17, none, set 4⟩,
    ⟨20, none, set 5⟩, ⟨27, none, set 6⟩, ⟨28, none, set 7⟩, ⟨132, none, set 8⟩,
    ⟨133, none, free 9 (free 10 (free 11 (set 12)))⟩, ⟨135, none, set 13⟩, ⟨137, none, set 14⟩,
    ⟨142, none, set 15⟩, ⟨143, none, set 16⟩, ⟨148, none, set 17⟩, ⟨151, none, set 18⟩,
    ⟨152, none, set 19⟩, ⟨153, none, set 20⟩, ⟨162, none, set 21⟩, ⟨182, none, set 22⟩,
    ⟨191, none, set 23⟩, ⟨193, none, set 24⟩, ⟨194, none, set 25⟩, ⟨198, none, set 26⟩,
    ⟨203, none, set 27⟩, ⟨216, none, set 28⟩, ⟨154, none, set 29⟩, ⟨255, none, set 30⟩]
  unDefault := app 31
  order := [⟨0, true⟩, ⟨1, true⟩, ⟨2, true⟩, ⟨3, true⟩, ⟨4, true⟩, ⟨5, true⟩, ⟨6, true⟩, ⟨7, true⟩, ⟨8, true⟩,
    ⟨9, true⟩, ⟨10, true⟩, ⟨11, true⟩, ⟨12, true⟩, ⟨13, true⟩, ⟨14, true⟩, ⟨15, true⟩, ⟨16, true⟩,
    ⟨17, true⟩, ⟨18, true⟩, ⟨19, true⟩, ⟨20, true⟩, ⟨21, true⟩, ⟨22, true⟩, ⟨23, true⟩, ⟨24, true⟩,
    ⟨25, true⟩, ⟨26, true⟩, ⟨27, true⟩, ⟨28, true⟩, ⟨29, true⟩, ⟨30, true⟩, ⟨31, true⟩]
  lens := [0, 1, 2, 3, 4, 5, 6, 7, 8, 9, 10, 11, 12, 13, 14, 15, 16, 17, 18, 19, 20, 21, 22, 23, 24, 25, 26, 27, 28, 29, 30, 31]
  reset := false
  lenCheck := true
  early := true

/-- gtpv1/message/update-pdp-context-res.go: New 39-106, MarshalTo 119-265, UnmarshalBinary 277-352, MarshalLen 355-429 -/
def updatePDPContextResponse : Schema where
  name := "UpdatePDPContextResponse"
  typ := 19
  flags := 0x32
  hasTEIDArg := true
  fields := ["Cause", "Recovery", "TEIDDataI", "TEIDCPlane", "ChargingID", "PCO", "GGSNAddressForCPlane",
    "GGSNAddressForUserTraffic", "AltGGSNAddressForCPlane", "AltGGSNAddressForUserTraffic",
    "QoSProfile", "ChargingGatewayAddress", "AltChargingGatewayAddress", "CommonFlags",
    "APNRestriction", "BearerControlMode", "MSInfoChangeReportingAction", "EvolvedARPI",
    "CSGInformationReportingAction", "APNAMBR", "PrivateExtension", "AdditionalIEs"]
  multi := [21]
  newRules := [⟨1, none, set 0⟩, ⟨14, none, set 1⟩, ⟨16, none, set 2⟩, ⟨17, none, set 3⟩, ⟨127, none, set 4⟩,
    ⟨132, none, set 5⟩, ⟨133, none, free 6 (free 7 (free 8 (set 9)))⟩, ⟨135, none, set 10⟩,
    ⟨251, none, free 11 (free 12 (drop))⟩, ⟨148, none, set 13⟩, ⟨149, none, set 14⟩, ⟨184, none, set 15⟩,
    ⟨181, none, set 16⟩, ⟨191, none, set 17⟩, ⟨195, none, set 18⟩, ⟨198, none, set 19⟩,
    ⟨255, none, set 20⟩]
  newDefault := app 21
  unRules := [⟨1, none, set 0⟩, ⟨14, none, set 1⟩, ⟨16, none, set 2⟩, ⟨17, none, set 3⟩, ⟨127, none, set 4⟩,
    ⟨132, none, set 5⟩, ⟨133, none, free 6 (free 7 (free 8 (set 9)))⟩, ⟨135, none, set 10⟩,
    ⟨251, none, free 11 (free 12 (drop))⟩, ⟨148, none, set 13⟩, ⟨149, none, set 14⟩, ⟨184, none, set 15⟩,
    ⟨181, none, set 16⟩, ⟨191, none, set 17⟩, ⟨195, none, set 18⟩, ⟨198, none, set 19⟩,
    ⟨255, none, set 20⟩]
  unDefault := app 21
  order := [⟨0, true⟩, ⟨1, true⟩, ⟨2, true⟩, ⟨3, true⟩, ⟨4, true⟩, ⟨5, true⟩, ⟨6, true⟩, ⟨7, true⟩, ⟨8, true⟩,
    ⟨9, true⟩, ⟨10, true⟩, ⟨11, true⟩, ⟨12, true⟩, ⟨13, true⟩, ⟨14, true⟩, ⟨15, true⟩, ⟨16, true⟩,
    ⟨17, true⟩, ⟨18, true⟩, ⟨19, true⟩, ⟨20, true⟩, ⟨21, true⟩]
  lens := [0, 1, 2, 3, 4, 5, 6, 7, 8, 9, 10, 11, 12, 13, 14, 15, 16, 17, 18, 19, 20, 21]
  reset := false
  lenCheck := true
  early := true

/-- gtpv1/message/version-not-supported.go: New 18-32, MarshalTo 45-64, UnmarshalBinary 76-98, MarshalLen 101-111 -/
def versionNotSupported : Schema where
  name := "VersionNotSupported"
  typ := 3
  flags := 0x32
  hasTEIDArg := true
  fields := ["AdditionalIEs"]
  multi := [0]
  newRules := []
  newDefault := app 0
  unRules := []
  unDefault := app 0
  order := [⟨0, true⟩]
  lens := [0]
  reset := false
  lenCheck := true
  early := true

/-- all typed messages -/
def all : List Schema := [createPDPContextRequest,
  createPDPContextResponse,
  deletePDPContextRequest,
  deletePDPContextResponse,
  echoRequest,
  echoResponse,
  endMarker,
  errorIndication,
  supportedExtensionHeaderNotification,
  updatePDPContextRequest,
  updatePDPContextResponse,
  versionNotSupported]

/-- gtpv1/message/message.go:117-162 the switch of `Parse`: message type octet and the struct it is decoded into (T-PDU is handled separately) -/
def dispatch : List (UInt8 × Schema) := [(1, echoRequest),
  (2, echoResponse),
  (16, createPDPContextRequest),
  (17, createPDPContextResponse),
  (18, updatePDPContextRequest),
  (19, updatePDPContextResponse),
  (20, deletePDPContextRequest),
  (3, versionNotSupported),
  (21, deletePDPContextResponse),
  (26, errorIndication),
  (31, supportedExtensionHeaderNotification),
  (254, endMarker)]

end Verif.V1.Tab

