import Verif.Model.Msg
/-
Generated from the text of gtpv0/message/*.go and gtpv0/ie/ie.go by tools/gen_tables.py.
One `Schema` per message type.  A rule `⟨t, i, act⟩` is the case of IE type t (and instance i).
-/
namespace Verif.V0.Tab
open Verif.Msg
open Verif.Msg.Act

/-- gtpv0/message/create-pdp-context-req.go: New 31-79, MarshalTo 92-190, UnmarshalBinary 202-256, MarshalLen 259-309 -/
def createPDPContextRequest : Schema where
  name := "CreatePDPContextRequest"
  typ := 16
  flags := 0x1e
  hasTEIDArg := true
  fields := ["RAI", "QoSProfile", "Recovery", "SelectionMode", "FlowLabelDataI", "FlowLabelSignalling",
    "EndUserAddress", "APN", "PCO", "SGSNAddressForSignalling", "SGSNAddressForUserTraffic", "MSISDN",
    "PrivateExtension", "AdditionalIEs"]
  multi := [13]
  newRules := [⟨3, none, set 0⟩, ⟨6, none, set 1⟩, ⟨14, none, set 2⟩, ⟨15, none, set 3⟩, ⟨16, none, set 4⟩,
    ⟨17, none, set 5⟩, ⟨128, none, set 6⟩, ⟨131, none, set 7⟩, ⟨132, none, set 8⟩,
    ⟨133, none, free 9 (set 10)⟩, ⟨134, none, set 11⟩, ⟨255, none, set 12⟩]
  newDefault := app 13
  unRules := [⟨3, none, set 0⟩, ⟨6, none, set 1⟩, ⟨14, none, set 2⟩, ⟨15, none, set 3⟩, ⟨16, none, set 4⟩,
    ⟨17, none, set 5⟩, ⟨128, none, set 6⟩, ⟨131, none, set 7⟩, ⟨132, none, set 8⟩,
    ⟨133, none, free 9 (set 10)⟩, ⟨134, none, set 11⟩, ⟨255, none, set 12⟩]
  unDefault := app 13
  order := [⟨0, true⟩, ⟨1, true⟩, ⟨2, true⟩, ⟨3, true⟩, ⟨4, true⟩, ⟨5, true⟩, ⟨6, true⟩, ⟨7, true⟩, ⟨8, true⟩,
    ⟨9, true⟩, ⟨10, true⟩, ⟨11, true⟩, ⟨12, true⟩, ⟨13, true⟩]
  lens := [0, 1, 2, 3, 4, 5, 6, 7, 8, 9, 10, 11, 12, 13]
  reset := true
  lenCheck := false
  early := true

/-- gtpv0/message/create-pdp-context-res.go: New 31-78, MarshalTo 91-189, UnmarshalBinary 201-255, MarshalLen 258-307 -/
def createPDPContextResponse : Schema where
  name := "CreatePDPContextResponse"
  typ := 17
  flags := 0x1e
  hasTEIDArg := true
  fields := ["Cause", "QoSProfile", "ReorderingRequired", "Recovery", "FlowLabelDataI", "FlowLabelSignalling",
    "ChargingID", "EndUserAddress", "PCO", "GGSNAddressForSignalling", "GGSNAddressForUserTraffic",
    "ChargingGatewayAddress", "PrivateExtension", "AdditionalIEs"]
  multi := [13]
  newRules := [⟨1, none, set 0⟩, ⟨6, none, set 1⟩, ⟨8, none, set 2⟩, ⟨14, none, set 3⟩, ⟨16, none, set 4⟩,
    ⟨17, none, set 5⟩, ⟨127, none, set 6⟩, ⟨128, none, set 7⟩, ⟨132, none, set 8⟩,
    ⟨133, none, free 9 (set 10)⟩, ⟨251, none, set 11⟩, ⟨255, none, set 12⟩]
  newDefault := app 13
  unRules := [⟨1, none, set 0⟩, ⟨6, none, set 1⟩, ⟨8, none, set 2⟩, ⟨14, none, set 3⟩, ⟨16, none, set 4⟩,
    ⟨17, none, set 5⟩, ⟨127, none, set 6⟩, ⟨128, none, set 7⟩, ⟨132, none, set 8⟩,
    ⟨133, none, free 9 (set 10)⟩, ⟨251, none, set 11⟩, ⟨255, none, set 12⟩]
  unDefault := app 13
  order := [⟨0, true⟩, ⟨1, true⟩, ⟨2, true⟩, ⟨3, true⟩, ⟨4, true⟩, ⟨5, true⟩, ⟨6, true⟩, ⟨7, true⟩, ⟨8, true⟩,
    ⟨9, true⟩, ⟨10, true⟩, ⟨11, true⟩, ⟨12, true⟩, ⟨13, true⟩]
  lens := [0, 1, 2, 3, 4, 5, 6, 7, 8, 9, 10, 11, 12, 13]
  reset := true
  lenCheck := false
  early := true

/-- gtpv0/message/delete-pdp-context-req.go: New 21-42, MarshalTo 55-81, UnmarshalBinary 93-121, MarshalLen 124-138 -/
def deletePDPContextRequest : Schema where
  name := "DeletePDPContextRequest"
  typ := 20
  flags := 0x1e
  hasTEIDArg := true
  fields := ["PrivateExtension", "AdditionalIEs"]
  multi := [1]
  newRules := [⟨255, none, set 0⟩]
  newDefault := app 1
  unRules := [⟨255, none, set 0⟩]
  unDefault := app 1
  order := [⟨0, true⟩, ⟨1, true⟩]
  lens := [0, 1]
  reset := true
  lenCheck := false
  early := true

/-- gtpv0/message/delete-pdp-context-res.go: New 20-43, MarshalTo 56-87, UnmarshalBinary 99-129, MarshalLen 132-149 -/
def deletePDPContextResponse : Schema where
  name := "DeletePDPContextResponse"
  typ := 21
  flags := 0x1e
  hasTEIDArg := true
  fields := ["Cause", "PrivateExtension", "AdditionalIEs"]
  multi := [2]
  newRules := [⟨1, none, set 0⟩, ⟨255, none, set 1⟩]
  newDefault := app 2
  unRules := [⟨1, none, set 0⟩, ⟨255, none, set 1⟩]
  unDefault := app 2
  order := [⟨0, true⟩, ⟨1, true⟩, ⟨2, true⟩]
  lens := [0, 1, 2]
  reset := false
  lenCheck := false
  early := true

/-- gtpv0/message/echo-req.go: New 21-42, MarshalTo 55-81, UnmarshalBinary 93-121, MarshalLen 124-139 -/
def echoRequest : Schema where
  name := "EchoRequest"
  typ := 1
  flags := 0x1e
  hasTEIDArg := true
  fields := ["PrivateExtension", "AdditionalIEs"]
  multi := [1]
  newRules := [⟨255, none, set 0⟩]
  newDefault := app 1
  unRules := [⟨255, none, set 0⟩]
  unDefault := app 1
  order := [⟨0, true⟩, ⟨1, true⟩]
  lens := [0, 1]
  reset := true
  lenCheck := false
  early := true

/-- gtpv0/message/echo-res.go: New 20-43, MarshalTo 56-88, UnmarshalBinary 100-130, MarshalLen 133-151 -/
def echoResponse : Schema where
  name := "EchoResponse"
  typ := 2
  flags := 0x1e
  hasTEIDArg := true
  fields := ["Recovery", "PrivateExtension", "AdditionalIEs"]
  multi := [2]
  newRules := [⟨14, none, set 0⟩, ⟨255, none, set 1⟩]
  newDefault := app 2
  unRules := [⟨14, none, set 0⟩, ⟨255, none, set 1⟩]
  unDefault := app 2
  order := [⟨0, true⟩, ⟨1, true⟩, ⟨2, true⟩]
  lens := [0, 1, 2]
  reset := true
  lenCheck := false
  early := true

/-- gtpv0/message/update-pdp-context-req.go: New 27-66, MarshalTo 79-153, UnmarshalBinary 165-211, MarshalLen 214-252 -/
def updatePDPContextRequest : Schema where
  name := "UpdatePDPContextRequest"
  typ := 18
  flags := 0x1e
  hasTEIDArg := true
  fields := ["RAI", "QoSProfile", "Recovery", "FlowLabelDataI", "FlowLabelSignalling", "EndUserAddress",
    "SGSNAddressForSignalling", "SGSNAddressForUserTraffic", "PrivateExtension", "AdditionalIEs"]
  multi := [9]
  newRules := [⟨3, none, set 0⟩, ⟨6, none, set 1⟩, ⟨14, none, set 2⟩, ⟨16, none, set 3⟩, ⟨17, none, set 4⟩,
    ⟨128, none, set 5⟩, ⟨133, none, free 6 (set 7)⟩, ⟨255, none, set 8⟩]
  newDefault := app 9
  unRules := [⟨3, none, set 0⟩, ⟨6, none, set 1⟩, ⟨14, none, set 2⟩, ⟨16, none, set 3⟩, ⟨17, none, set 4⟩,
    ⟨128, none, set 5⟩, ⟨133, none, free 6 (set 7)⟩, ⟨255, none, set 8⟩]
  unDefault := app 9
  order := [⟨0, true⟩, ⟨1, true⟩, ⟨2, true⟩, ⟨3, true⟩, ⟨4, true⟩, ⟨5, true⟩, ⟨6, true⟩, ⟨7, true⟩, ⟨8, true⟩,
    ⟨9, true⟩]
  lens := [0, 1, 2, 3, 4, 5, 6, 7, 8, 9]
  reset := true
  lenCheck := false
  early := true

/-- gtpv0/message/update-pdp-context-res.go: New 29-72, MarshalTo 85-171, UnmarshalBinary 183-233, MarshalLen 236-280 -/
def updatePDPContextResponse : Schema where
  name := "UpdatePDPContextResponse"
  typ := 19
  flags := 0x1e
  hasTEIDArg := true
  fields := ["Cause", "QoSProfile", "Recovery", "FlowLabelDataI", "FlowLabelSignalling", "ChargingID",
    "EndUserAddress", "GGSNAddressForSignalling", "GGSNAddressForUserTraffic",
    "ChargingGatewayAddress", "PrivateExtension", "AdditionalIEs"]
  multi := [11]
  newRules := [⟨1, none, set 0⟩, ⟨6, none, set 1⟩, ⟨14, none, set 2⟩, ⟨16, none, set 3⟩, ⟨17, none, set 4⟩,
    ⟨127, none, set 5⟩, ⟨128, none, set 6⟩, ⟨133, none, free 7 (set 8)⟩, ⟨251, none, set 9⟩,
    ⟨255, none, set 10⟩]
  newDefault := app 11
  unRules := [⟨1, none, set 0⟩, ⟨6, none, set 1⟩, ⟨14, none, set 2⟩, ⟨16, none, set 3⟩, ⟨17, none, set 4⟩,
    ⟨127, none, set 5⟩, ⟨128, none, set 6⟩, ⟨133, none, free 7 (set 8)⟩, ⟨251, none, set 9⟩,
    ⟨255, none, set 10⟩]
  unDefault := app 11
  order := [⟨0, true⟩, ⟨1, true⟩, ⟨2, true⟩, ⟨3, true⟩, ⟨4, true⟩, ⟨5, true⟩, ⟨6, true⟩, ⟨7, true⟩, ⟨8, true⟩,
    ⟨9, true⟩, ⟨10, true⟩, ⟨11, true⟩]
  lens := [0, 1, 2, 3, 4, 5, 6, 7, 8, 9, 10, 11]
  reset := true
  lenCheck := false
  early := true

/-- all typed messages -/
def all : List Schema := [createPDPContextRequest,
  createPDPContextResponse,
  deletePDPContextRequest,
  deletePDPContextResponse,
  echoRequest,
  echoResponse,
  updatePDPContextRequest,
  updatePDPContextResponse]

/-- gtpv0/message/message.go:106-142 the switch of `Parse`: message type octet and the struct it is decoded into (T-PDU is handled separately) -/
def dispatch : List (UInt8 × Schema) := [(1, echoRequest),
  (2, echoResponse),
  (16, createPDPContextRequest),
  (17, createPDPContextResponse),
  (18, updatePDPContextRequest),
  (19, updatePDPContextResponse),
  (20, deletePDPContextRequest),
  (21, deletePDPContextResponse)]

end Verif.V0.Tab

