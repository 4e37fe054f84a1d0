import Verif.Model.Consts
import Verif.Spec.Consts
/-
C73: the constants the library offers carry the numbers of the standards, and names of messages and information elements are
those the standards give to the number. Both sides are finite tables, compared whole.
-/
namespace Verif.Consts
open Verif.Spec (prefixed upFrom)

/-- the number an identifier of a table stands for -/
def val (l : List (String × Nat)) (s : String) : Option Nat := (l.find? fun e => e.1 == s).map (·.2)

/-- the constants of a block are those of the standard -/
theorem val_eq {l m : List (String × Nat)} (h : l = m) (s : String) : val l s = val m s := by rw [h]

/-! ### message types -/

/-- C73: every message type of GTPv0 and GTPv2 has the number of the standard -/
theorem C73_message_types :
    v0Messages = Spec.v0Messages ∧ v2Messages = Spec.v2Messages := by
  constructor <;> decide +kernel

/-- C73: and so has every message type of GTPv1, but for five (what is missing: the five, see `C73_message_types_wrong`) -/
theorem C73_message_types_v1_partial :
    v1Messages.filter (fun e => !(Spec.v1MessagesMM.map (·.1)).contains e.1) = Spec.v1MessagesSM ++ Spec.v1MessagesRest := by
  decide +kernel

/-- Departure: Identification Request and Response and SGSN Context Request, Response and Acknowledge have numbers 48 to 52 in
TS 29.060; the library offers 56 to 60 for them -/
theorem C73_message_types_wrong :
    v1Messages.filter (fun e => (Spec.v1MessagesMM.map (·.1)).contains e.1) =
      Spec.v1MessagesMM.map (fun e => (e.1, e.2 + 8)) ∧
    ∀ e ∈ Spec.v1MessagesMM, e ∉ v1Messages := by
  constructor <;> decide +kernel

example : val v2Messages "MsgTypeCreateSessionRequest" = some 32 ∧ val v2Messages "MsgTypeModifyAccessBearersResponse" = some 212 ∧
    val v1Messages "MsgTypeSGSNContextRequest" = some 58 ∧ val Spec.v1MessagesMM "MsgTypeSGSNContextRequest" = some 50 := by
  decide +kernel

/-- C73: two message types of one version never share a number -/
theorem C73_message_types_distinct :
    (v0Messages.map (·.2)).Nodup ∧ (v1Messages.map (·.2)).Nodup ∧ (v2Messages.map (·.2)).Nodup := by
  refine ⟨?_, ?_, ?_⟩ <;> decide +kernel

/-- C73: the types of extension headers are those of the standard -/
theorem C73_extension_headers : v1ExtensionHeaders = Spec.v1ExtensionHeaders := by decide +kernel

example : val v1ExtensionHeaders "ExtHeaderTypePDUSessionContainer" = some 0x85 := by decide +kernel

/-! ### information elements -/

/-- C73: every type of information element has the number of the standard -/
theorem C73_ie_types :
    v0TV ++ v0TLV = Spec.v0TV ++ Spec.v0TLV ∧ v1TV ++ v1TLV = Spec.v1TV ++ Spec.v1TLV ∧ v2IE = Spec.v2IE := by
  refine ⟨?_, ?_, ?_⟩ <;> decide +kernel

example : val v2IE "FullyQualifiedTEID" = some 87 ∧ val v1TLV "EvolvedAllocationRetentionPriorityI" = some 191 ∧
    val v0TV "FlowLabelSignalling" = some 17 := by decide +kernel

/-- C73: two types of one version never share a number, and the most significant bit tells fixed length from variable -/
theorem C73_ie_types_distinct :
    ((v0TV ++ v0TLV).map (·.2)).Nodup ∧ ((v1TV ++ v1TLV).map (·.2)).Nodup ∧ (v2IE.map (·.2)).Nodup ∧
    (∀ e ∈ v0TV ++ v1TV, e.2 < 128) ∧ (∀ e ∈ v0TLV ++ v1TLV, 128 ≤ e.2 ∧ e.2 < 256) ∧ (∀ e ∈ v2IE, 0 < e.2 ∧ e.2 < 256) := by
  refine ⟨?_, ?_, ?_, ?_, ?_, ?_⟩ <;> decide +kernel

/-! ### causes and other codes -/

/-- C73: every cause has the number of the standard -/
theorem C73_causes :
    v0Causes = Spec.v0Causes ∧ v1ReqCauses = Spec.v1ReqCauses ∧ v1Acceptance = Spec.v1Acceptance ∧
    v1Rejection = Spec.v1Rejection ∧ v2Causes = Spec.v2Causes ∧ mapCauses = Spec.mapCauses ∧ ranapCauses = Spec.ranapCauses := by
  refine ⟨?_, ?_, ?_, ?_, ?_, ?_, ?_⟩ <;> decide +kernel

example : val v2Causes "CauseRequestAccepted" = some 16 ∧ val v1Rejection "ResCauseContextNotFound" = some 210 ∧
    val ranapCauses "RANAPCauseNormalRelease" = some 83 ∧ val mapCauses "MAPCauseSystemFailure" = some 34 := by decide +kernel

/-- C73: the other codes of GTPv2 have the numbers of the standard -/
theorem C73_codes_v2 :
    interfaceTypes = Spec.interfaceTypes ∧ v2APNRestrictions = Spec.apnRestrictions ∧ csgMemberships = Spec.csgMemberships ∧
    detachTypes = Spec.detachTypes ∧ nodeIDTypes = Spec.nodeIDTypes ∧ nodeTypes = Spec.nodeTypes ∧
    v2Protocols = prefixed "ProtoID" Spec.protocolIDs ∧ v2Containers = Spec.containerIDs "3GPPPSDataOffUEstatus" ∧
    v2ConfigProtocols = [("ConfigProtocolPPPWithIP", 0)] ∧ pdnTypes = Spec.pdnTypes ∧ protocolTypes = Spec.protocolTypes ∧
    causeTypes = Spec.causeTypes ∧ ratTypes = Spec.ratTypes ∧ v2SelectionModes = Spec.selectionModes ∧
    serviceIndicators = Spec.serviceIndicators ∧ accessModes = Spec.accessModes ∧
    daylightSavings = prefixed "DaylightSaving" (Spec.daylight "NoAdjustment" "PlusOneHour" "PlusTwoHours") ∧
    tftOperations = Spec.tftOperations ∧ tftDirections = Spec.tftDirections ∧ tftComponents = Spec.tftComponents ∧
    tftParameters = Spec.tftParameters ∧ ipcpOptions = Spec.ipcpOptions ∧
    pcoProtocols = prefixed "PCOProtocolIdentifier" Spec.protocolIDs ∧
    pppCodes = prefixed "PCOPPPConfiguration" [("Request", 1), ("Ack", 2)] ∧
    pcoConfigProtocols = [("ConfigurationProtocolPPPForUseWithIPPDPTypeOrIPPDNType", 0)] := by
  repeat' apply And.intro
  all_goals decide +kernel

/-- C73: the identifiers added with corrected spelling stand for the same numbers as those they replace -/
theorem C73_renamed :
    v2Renamed = [("ContIDMSSupportOfNetworkRequestedBearerControlIndicator", 5), ("ContIDIPAddressAllocationViaNASSignalling", 10),
      ("ContIDIPv4AddressAllocationViaDHCPv4", 11), ("ContID3GPPPSDataOffUEStatus", 23),
      ("SelectionModeMSOrNetworkProvidedAPNSubscribedVerified", 0)] ∧
    [val v2Containers "ContIDMSSupportofNetworkRequestedBearerControlIndicator",
      val v2Containers "ContIDIPaddressAllocationViaNASSignalling", val v2Containers "ContIDIPv4addressAllocationViaDHCPv4",
      val v2Containers "ContID3GPPPSDataOffUEstatus",
      val v2SelectionModes "SelectionModeMSorNetworkProvidedAPNSubscribedVerified"] = v2Renamed.map (fun e => some e.2) := by
  constructor <;> decide +kernel

/-- C73: and so have those of GTPv0 and GTPv1, where the spare bits of a selection mode are set in the constant -/
theorem C73_codes_v1 :
    v0PDPTypes = Spec.pdpTypes ∧ v1PDPTypes = Spec.pdpTypes ∧
    v0SelectionModes = Spec.selectionModes.map (fun e => (e.1, e.2 + 0xf0)) ∧
    v1SelectionModes = Spec.selectionModes.map (fun e => (e.1, e.2 + 0xf0)) ∧
    v1Protocols = prefixed "ProtoID" Spec.protocolIDs ∧ v1Containers = Spec.containerIDs "3GPPPSDataOffUEStatus" ∧
    v1ConfigProtocols = [("ConfigProtocolPPPWithIP", 0)] ∧ v1RatTypes = Spec.v1RatTypes ∧ v1LocTypes = Spec.v1LocTypes ∧
    v1APNRestrictions = Spec.apnRestrictions ∧
    v1TimeAdjusts = prefixed "TimeAdjust" (Spec.daylight "NoDaylightSaving" "DaylightSavingOneHour" "DaylightSavingTwoHour") := by
  repeat' apply And.intro
  all_goals decide +kernel

example : val interfaceTypes "IFTypeS11MMEGTPC" = some 10 ∧ val ratTypes "RATTypeEUTRAN" = some 6 ∧
    val tftComponents "PFCompEthertype" = some 0x87 := by decide +kernel

/-! ### names -/

/-- a message type as a number of eight bits -/
private theorem all256 {P : UInt8 → Prop} (h : ∀ n : Fin 256, P (UInt8.ofFin n)) (t : UInt8) : P t := h t.toFin

theorem entry_v0 : ∀ t : UInt8, entry v0MsgNames t = Spec.v0Name t.toNat := all256 (by decide +kernel)
theorem entry_v2 : ∀ t : UInt8, entry v2MsgNames t = Spec.v2Name t.toNat := all256 (by decide +kernel)
theorem entry_v1 : ∀ t : UInt8, t ≠ 26 → entry v1MsgNames t = Spec.v1Name t.toNat := all256 (by decide +kernel)

/-- C73: a message of GTPv0 or GTPv2 names itself as the standard names its type; for a type the library has no message for it
says "Unknown" and gives the number -/
theorem C73_message_names (t : UInt8) :
    msgName v0MsgNames t = (Spec.v0Name t.toNat).getD ("Unknown (" ++ toString t.toNat ++ ")") ∧
    msgName v2MsgNames t = (Spec.v2Name t.toNat).getD ("Unknown (" ++ toString t.toNat ++ ")") := by
  unfold msgName
  rw [entry_v0, entry_v2]
  constructor
  · cases Spec.v0Name t.toNat <;> rfl
  · cases Spec.v2Name t.toNat <;> rfl

/-- C73: a message of GTPv1 too, but for one (what is missing: type 26, see `C73_message_names_wrong`) -/
theorem C73_message_names_v1_partial (t : UInt8) (h : t ≠ 26) :
    msgName v1MsgNames t = (Spec.v1Name t.toNat).getD ("Unknown (" ++ toString t.toNat ++ ")") := by
  unfold msgName
  rw [entry_v1 t h]
  cases Spec.v1Name t.toNat <;> rfl

/-- Departure: an Error Indication of GTPv1 spells its name with three r -/
theorem C73_message_names_wrong :
    msgName v1MsgNames 26 = "Errror Indication" ∧ Spec.v1Name 26 = some "Error Indication" := by decide +kernel

example : msgName v2MsgNames 32 = "Create Session Request" ∧ msgName v2MsgNames 40 = "Unknown (40)" ∧
    msgName v1MsgNames 255 = "T-PDU" ∧ msgName v0MsgNames 26 = "Unknown (26)" := by decide +kernel

/-- the identifier the standard's table has for a number -/
def nameOf (l : List (String × Nat)) (t : UInt8) : Option String := (l.find? fun e => e.2 == t.toNat).map (·.1)

theorem entry_ie0 : ∀ t : UInt8, entry v0IENames t = nameOf (Spec.v0TV ++ Spec.v0TLV) t := all256 (by decide +kernel)
theorem entry_ie1 : ∀ t : UInt8, entry v1IENames t = nameOf Spec.v1TLV t := all256 (by decide +kernel)
theorem entry_ie2 : ∀ t : UInt8, t ∉ [120, 121, 122, 130] → entry v2IENames t = nameOf Spec.v2IE t :=
  all256 (by decide +kernel)

theorem ieName_eq {m t o} (h : entry m t = o) : ieName m t = o.getD "Undefined" := by
  unfold ieName; rw [h]; cases o <;> rfl

/-- C73: an information element of GTPv0 names itself as the table of the standard does, and is "Undefined" only for types the
table leaves free -/
theorem C73_ie_names_v0 (t : UInt8) :
    ieName v0IENames t = (nameOf (Spec.v0TV ++ Spec.v0TLV) t).getD "Undefined" := ieName_eq (entry_ie0 t)

/-- C73: so does one of GTPv1 of variable length (what is missing: those of fixed length, see `C73_ie_names_v1_wrong`) -/
theorem C73_ie_names_v1_partial (t : UInt8) (h : 128 ≤ t.toNat) :
    ieName v1IENames t = (nameOf (Spec.v1TV ++ Spec.v1TLV) t).getD "Undefined" := by
  rw [ieName_eq (entry_ie1 t)]
  congr 1
  revert t
  exact all256 (by decide +kernel)

/-- Departure: no information element of GTPv1 of fixed length has a name: IMSI, Cause, TEID and all others are "Undefined" -/
theorem C73_ie_names_v1_wrong :
    (∀ t : UInt8, t.toNat < 128 → ieName v1IENames t = "Undefined") ∧
    ∀ e ∈ Spec.v1TV, ieName v1IENames (UInt8.ofNat e.2) ≠ e.1 := by
  constructor
  · exact all256 (by decide +kernel)
  · decide +kernel

/-- C73: and one of GTPv2 (what is missing: types 120, 121, 122 and 130, see `C73_ie_names_v2_wrong`) -/
theorem C73_ie_names_v2_partial (t : UInt8) (h : t ∉ [120, 121, 122, 130]) :
    ieName v2IENames t = (nameOf Spec.v2IE t).getD "Undefined" := ieName_eq (entry_ie2 t h)

/-- Departure: PLMN ID (120) has no name, Target Identification (121) calls itself PLMNID, and the reserved type 122 calls
itself TargetIdentification -/
theorem C73_ie_names_v2_wrong :
    nameOf Spec.v2IE 120 = some "PLMNID" ∧ ieName v2IENames 120 = "Undefined" ∧
    nameOf Spec.v2IE 121 = some "TargetIdentification" ∧ ieName v2IENames 121 = "PLMNID" ∧
    nameOf Spec.v2IE 122 = none ∧ ieName v2IENames 122 = "TargetIdentification" ∧
    nameOf Spec.v2IE 130 = none ∧ ieName v2IENames 130 = "Reserved" := by decide +kernel

example : ieName v2IENames 87 = "FullyQualifiedTEID" ∧ ieName v2IENames 4 = "Undefined" ∧ ieName v1IENames 135 = "QoSProfile" ∧
    ieName v0IENames 2 = "IMSI" := by decide +kernel

end Verif.Consts

namespace Verif.Consts
/-! ### cases that meet the hypotheses -/

example := C73_message_names_v1_partial 255 (by decide)
example := C73_ie_names_v1_partial 135 (by decide)
example := C73_ie_names_v2_partial 87 (by decide)
end Verif.Consts
