import Verif.Props.Typed.ULI
import Verif.Props.Typed.Plain
import Verif.Props.Typed.Time
import Verif.Props.Typed.Plmn
import Verif.Props.Typed.PCO
import Verif.Props.Typed.TFT
import Verif.Props.Typed.Indication
import Verif.Props.Typed.V1
import Verif.Model.Typed.V1PCO
/-
Property theorems C76: an accessor called on an element that does not carry the value asked for returns an error, or false where
the accessor has no error result.  The types carrying a value are listed here, as in TS 29.274 table 8.1-1, TS 29.060 table 37
and GSM 09.60 table 38, by number.
-/
set_option linter.unusedSimpArgs false
set_option linter.unusedVariables false

namespace Verif.V2
open Res Utils Spec

variable (g : UInt8 → Bool)

/-- on an element whose type is not in `ts` the accessor returns an error -/
def Refuses {α : Type} (ts : List UInt8) (acc : IE → Res α) : Prop := ∀ i : IE, i.typ ∉ ts → ∃ e, acc i = err e
/-- the same for an accessor that returns a truth value and no error -/
def Denies (ts : List UInt8) (acc : IE → Res Bool) : Prop := ∀ i : IE, i.typ ∉ ts → acc i = ok false
/-- called on a Bearer Context without a child of type `t` - or one that cannot be parsed - the accessor returns an error -/
def NeedsChild {α : Type} (t : UInt8) (acc : IE → Res α) : Prop :=
  ∀ i : IE, i.typ = 93 → (∀ ies, i.bearerContext g = ok ies → ∀ c ∈ ies, c.typ ≠ t) → ∃ e, acc i = err e

local macro "refuse" : tactic => `(tactic| (
  intro i hn
  simp only [List.mem_cons, List.not_mem_nil, or_false, not_or] at hn
  simp [*, IE.fteid, IE.interfaceType, IE.greKey, IE.teid, IE.s103, IE.ebis, IE.s1udf, IE.ip, IE.ipv6, IE.imsi, IE.msisdn,
    IE.mei, IE.pco, IE.chargingID, IE.ebi, IE.ptmsiSignature, IE.csgID, IE.cmi, IE.enterpriseID, IE.privateExtension,
    IE.nodeFeatures, IE.mbmsFlags, IE.bearerFlags, IE.cause, IE.causeFlags, IE.offendingIE, IE.ranNAS, IE.paging,
    IE.pagingPolicy, IE.plmnString, IE.cnid, IE.traceID, IE.uci, IE.accessMode, IE.guti, IE.mmeGroupID, IE.mmeCode, IE.mtmsi,
    IE.csid, IE.nodeIDType, IE.nodeID, IE.csids, IE.ambr, IE.ambrUp, IE.ambrDown, IE.bearerContext, IE.bearerQoS, IE.arp,
    IE.priorityLevel, IE.flowQoS, IE.qciLabel, IE.mbrUp, IE.mbrDown, IE.gbrUp, IE.gbrDown, bitRate, IE.tft, IE.timer,
    IE.throttling, IE.timeZone, IE.daylightSaving, IE.timestamp, IE.delayValue, IE.uli, IE.plmn]
  try ((repeat' split) <;> simp)))

/-- C76: tunnel endpoints and addresses -/
theorem C76_addr : Refuses [87] IE.fteid ∧ Refuses [87] IE.interfaceType ∧ Refuses [87, 90] IE.greKey ∧
    Refuses [87, 91] IE.teid ∧ Refuses [90] IE.s103 ∧ Refuses [90] IE.ebis ∧ Refuses [91] IE.s1udf ∧
    Refuses [74, 79, 87, 90, 91] IE.ip ∧ Refuses [74, 79, 87, 90, 91] IE.ipv4 ∧ Refuses [74, 79, 87, 90, 91] IE.ipv6 := by
  have hip : Refuses [74, 79, 87, 90, 91] IE.ip := by refuse
  refine ⟨by refuse, by refuse, by refuse, by refuse, by refuse, by refuse, by refuse, hip, ?_, by refuse⟩
  intro i hn
  obtain ⟨e, he⟩ := hip i hn
  exact ⟨e, by simp [IE.ipv4, he]⟩

/-- C76: identities, location, network names -/
theorem C76_identity (spare : Bytes) (t : UInt8) : Refuses [1] IE.imsi ∧ Refuses [76] IE.msisdn ∧ Refuses [75] IE.mei ∧
    Refuses [t] (IE.plmnString t) ∧ Refuses [89] IE.cnid ∧ Refuses [115, 96] IE.traceID ∧ Refuses [145] IE.uci ∧
    Refuses [145] IE.accessMode ∧ Refuses [117] (fun i => i.guti spare) ∧ Refuses [117] IE.mmeGroupID ∧
    Refuses [117] IE.mmeCode ∧ Refuses [117] IE.mtmsi ∧ Refuses [132] IE.csid ∧ Refuses [132] IE.nodeIDType ∧
    Refuses [132] IE.nodeID ∧ Refuses [132] IE.csids ∧ Refuses [86] IE.uli ∧
    Refuses [83, 120, 89, 115, 117, 145, 86] IE.plmn := by
  refine ⟨by refuse, by refuse, by refuse, by refuse, by refuse, by refuse, by refuse, by refuse, by refuse, by refuse, by refuse,
    by refuse, by refuse, by refuse, by refuse, by refuse, by refuse, by refuse⟩

/-- C76: quality of service, time -/
theorem C76_qos : Refuses [72] IE.ambr ∧ Refuses [72] IE.ambrUp ∧ Refuses [72] IE.ambrDown ∧ Refuses [93] (IE.bearerContext g) ∧
    Refuses [80, 93] (IE.bearerQoS g) ∧ Refuses [155] (IE.arp g) ∧ Refuses [155, 80] (IE.priorityLevel g) ∧
    Refuses [81] IE.flowQoS ∧ Refuses [80, 81] (IE.qciLabel g) ∧ Refuses [80, 81] IE.mbrUp ∧ Refuses [80, 81] IE.mbrDown ∧
    Refuses [80, 81] IE.gbrUp ∧ Refuses [80, 81] IE.gbrDown ∧ Refuses [84, 85, 93] (IE.tft g) ∧
    Refuses [156] IE.timer ∧ Refuses [154] IE.throttling ∧ Refuses [114] IE.timeZone ∧ Refuses [114] IE.daylightSaving ∧
    Refuses [170, 179] IE.timestamp ∧ Refuses [92] IE.delayValue := by
  refine ⟨by refuse, by refuse, by refuse, by refuse, by refuse, by refuse, by refuse, by refuse, by refuse, by refuse, by refuse,
    by refuse, by refuse, by refuse, by refuse, by refuse, by refuse, by refuse, by refuse, by refuse⟩

/-- C76: the elements holding one plain value and flags -/
theorem C76_plain : Refuses [78, 93] (IE.pco g) ∧ Refuses [94, 93] (IE.chargingID g) ∧ Refuses [73, 93] (IE.ebi g) ∧
    Refuses [112] IE.ptmsiSignature ∧ Refuses [147, 145] (IE.csgID g) ∧ Refuses [148, 145] (IE.cmi g) ∧
    Refuses [255] IE.enterpriseID ∧ Refuses [255] IE.privateExtension ∧ Refuses [152] (IE.nodeFeatures g) ∧
    Refuses [171] (IE.mbmsFlags g) ∧ Refuses [97, 93] (IE.bearerFlags g) ∧ Refuses [2, 93] (IE.cause g) ∧
    Refuses [2, 93] (IE.causeFlags g) ∧ Refuses [2] (IE.offendingIE g) ∧ Refuses [172, 93] (IE.ranNAS g) ∧
    Refuses [186] IE.paging ∧ Refuses [186] IE.pagingPolicy := by
  refine ⟨by refuse, by refuse, by refuse, by refuse, by refuse, by refuse, by refuse, by refuse, by refuse, by refuse, by refuse,
    by refuse, by refuse, by refuse, by refuse, by refuse, by refuse⟩

/-- the types carrying the value an accessor of Model/Typed/Plain.lean returns; PDN Address Allocation begins with a PDN type -/
def carriers : List (String × List UInt8) := [
  ("Recovery", [3]), ("RATType", [82]), ("PDNType", [99, 79]), ("ProcedureTransactionID", [100]), ("HopCounter", [113]),
  ("APNRestriction", [127]), ("SelectionMode", [128]), ("NodeType", [135]), ("RFSPIndex", [144]), ("ServiceIndicator", [149]),
  ("DetachType", [150]), ("NodeFeatures", [152]), ("ChargingCharacteristics", [95]), ("PortNumber", [126]),
  ("IntegerNumber", [187]), ("TMSI", [88]), ("PacketTMSI", [111]), ("LocalDistinguishedName", [151]),
  ("AccessPointName", [71]), ("FullyQualifiedDomainName", [136])]

private theorem read_refuses {α : Type} (r : Plain) (k : IE → Res α) : Refuses r.acc (fun i => r.read i (k i)) := by
  intro i hn
  exact ⟨.invalidType, by simp [Plain.read, hn]⟩

/-- C76: the accessors of the plain elements, for every row of the tables -/
theorem C76_tables :
    (∀ r ∈ plain8, ∃ ts, (r.name, ts) ∈ carriers ∧ Refuses ts (r.get8 g)) ∧
    (∀ r ∈ plain16, ∃ ts, (r.name, ts) ∈ carriers ∧ Refuses ts (r.get16 g)) ∧
    (∀ r ∈ plain32, ∃ ts, (r.name, ts) ∈ carriers ∧ Refuses ts (r.get32 g)) ∧
    (∀ r ∈ plainStr, ∃ ts, (r.name, ts) ∈ carriers ∧ Refuses ts (r.getStr g)) ∧
    (∀ r ∈ plainName, ∃ ts, (r.name, ts) ∈ carriers ∧ Refuses ts (r.getName g)) := by
  refine ⟨fun r hr => ⟨r.acc, ?_, read_refuses r _⟩, fun r hr => ⟨r.acc, ?_, read_refuses r _⟩,
    fun r hr => ⟨r.acc, ?_, read_refuses r _⟩, fun r hr => ⟨r.acc, ?_, read_refuses r _⟩,
    fun r hr => ⟨r.acc, ?_, read_refuses r _⟩⟩
  · revert r; decide
  · revert r; decide
  · revert r; decide
  · revert r; decide
  · revert r; decide

/-- C76: the accessors answering with a truth value -/
theorem C76_flags : Denies [87] IE.hasIPv4 ∧ Denies [87] IE.hasIPv6 ∧ Denies [155] (IE.hasPVI g) ∧ Denies [155] (IE.hasPCI g) ∧
    (∀ a ∈ indAccessors, Denies [77] (IE.indFlag a)) ∧
    (∀ i : IE, i.typ ≠ 152 → ∀ r ∈ i.nodeFeatureFlags g, r = ok false) ∧
    Denies [171] (IE.hasMSRI g) ∧ Denies [171] (IE.hasLMRI g) ∧ Denies [171] (IE.localMBMSRelease g) ∧
    Denies [171] (IE.mbmsReEstablishment g) ∧ Denies [97, 93] (IE.hasPPC g) ∧ Denies [97, 93] (IE.hasVB g) ∧
    Denies [97, 93] (IE.hasVind g) ∧ Denies [97, 93] (IE.hasASI g) ∧ Denies [97, 93] (IE.activityStatus g) ∧
    Denies [97, 93] (IE.vsrvcc g) ∧ Denies [97, 93] (IE.voiceBearer g) ∧ Denies [97, 93] (IE.prohibitCompression g) ∧
    Denies [2, 93] (IE.hasCS g) ∧ Denies [2, 93] (IE.hasBCE g) ∧ Denies [2, 93] (IE.hasPCE g) ∧
    Denies [2] IE.isRemoteCause ∧ Denies [2] IE.isBearerContextIEError ∧ Denies [2] IE.isPDNConnectionIEError := by
  have flag : ∀ {ts : List UInt8} {acc : IE → Res UInt8} {f : UInt8 → Bool}, Refuses ts acc →
      Denies ts (fun i => flagOf (acc i) f) := by
    intro ts acc f h i hn
    obtain ⟨e, he⟩ := h i hn
    simp [he, flagOf]
  obtain ⟨-, -, -, -, -, -, -, -, hnf, hmb, hbf, -, hcf, -⟩ := C76_plain g
  have harp : Refuses [155] (IE.arp g) := (C76_qos g).2.2.2.2.2.1
  refine ⟨?_, ?_, ?_, ?_, ?_, ?_, flag hmb, flag hmb, flag hmb, flag hmb, flag hbf, flag hbf, flag hbf, flag hbf, flag hbf,
    flag hbf, flag hbf, flag hbf, flag hcf, flag hcf, flag hcf, ?_, ?_, ?_⟩
  · intro i hn; simp at hn; simp [IE.hasIPv4, hn]
  · intro i hn; simp at hn; simp [IE.hasIPv6, hn]
  · intro i hn; obtain ⟨e, he⟩ := harp i hn; simp [IE.hasPVI, he]
  · intro i hn; obtain ⟨e, he⟩ := harp i hn; simp [IE.hasPCI, he]
  · intro a _ i hn; simp at hn; simp [IE.indFlag, hn]
  · intro i hn r hr
    obtain ⟨e, he⟩ := hnf i (by simpa using hn)
    simp [IE.nodeFeatureFlags, he, flagOf] at hr
    simpa using hr
  · intro i hn; simp at hn; simp [IE.isRemoteCause, causeBit, hn]
  · intro i hn; simp at hn; simp [IE.isBearerContextIEError, causeBit, hn]
  · intro i hn; simp at hn; simp [IE.isPDNConnectionIEError, causeBit, hn]

private theorem inBearer_needs {α : Type} (t : UInt8) (f : IE → Res α) (i : IE)
    (h : ∀ ies, i.bearerContext g = ok ies → ∀ c ∈ ies, c.typ ≠ t) :
    ∃ e, inBearer g i t f = err e := by
  have hr : Returns (i.bearerContext g) := bearerContext_returns g i
  unfold inBearer
  match hb : i.bearerContext g with
  | err e => exact ⟨e, by simp⟩
  | .panic => exact absurd hb hr.1
  | diverge => exact absurd hb hr.2
  | ok ies =>
    have hf : ies.find? (fun c => c.typ == t) = none := by
      rw [List.find?_eq_none]; intro c hc; simpa using h ies hb c hc
    exact ⟨.notFound, by simp [hf]⟩

/-- C76: on a Bearer Context the accessors that look inside return a value only if there is a child carrying it -/
theorem C76_bearer : NeedsChild g 94 (IE.chargingID g) ∧ NeedsChild g 73 (IE.ebi g) ∧ NeedsChild g 97 (IE.bearerFlags g) ∧
    NeedsChild g 2 (IE.cause g) ∧ NeedsChild g 2 (IE.causeFlags g) ∧ NeedsChild g 172 (IE.ranNAS g) ∧
    NeedsChild g 78 (IE.pco g) ∧ NeedsChild g 80 (IE.bearerQoS g) ∧ NeedsChild g 84 (IE.tft g) := by
  refine ⟨?_, ?_, ?_, ?_, ?_, ?_, ?_, ?_, ?_⟩
  · intro i ht h; obtain ⟨e, he⟩ := inBearer_needs g 94 (fun c => c.valueAsUint32 g) i h; exact ⟨e, by simp [IE.chargingID, ht, he]⟩
  · intro i ht h; obtain ⟨e, he⟩ := inBearer_needs g 73 (fun c => c.valueAsUint8 g) i h; exact ⟨e, by simp [IE.ebi, ht, he]⟩
  · intro i ht h; obtain ⟨e, he⟩ := inBearer_needs g 97 (fun c => c.valueAsUint8 g) i h; exact ⟨e, by simp [IE.bearerFlags, ht, he]⟩
  · intro i ht h; obtain ⟨e, he⟩ := inBearer_needs g 2 (fun c => c.valueAsUint8 g) i h; exact ⟨e, by simp [IE.cause, ht, he]⟩
  · intro i ht h; obtain ⟨e, he⟩ := inBearer_needs g 2 (fun c => c.valueAsUint8 g) i h; exact ⟨e, by simp [IE.causeFlags, ht, he]⟩
  · intro i ht h; obtain ⟨e, he⟩ := inBearer_needs g 172 (fun c => parseRANNAS c.payload) i h; exact ⟨e, by simp [IE.ranNAS, ht, he]⟩
  · intro i ht h
    obtain ⟨e, he⟩ := inBearer_needs g 78 (fun c => if c.payload.length < 1 then err .eof else parsePCO c.payload) i h
    exact ⟨e, by rw [← he]; simp [IE.pco, ht, inBearer]; rfl⟩
  · intro i ht h
    obtain ⟨e, he⟩ := inBearer_needs g 80 (fun c => parseBearerQoS c.payload) i h
    exact ⟨e, by rw [← he]; simp [IE.bearerQoS, ht, inBearer]; rfl⟩
  · intro i ht h
    obtain ⟨e, he⟩ := inBearer_needs g 84 (fun c => parseTFT c.payload) i h
    exact ⟨e, by rw [← he]; simp [IE.tft, ht, inBearer]; rfl⟩

-- a Recovery element is no F-TEID, an F-TEID is; a Bearer Context holding an EPS Bearer ID only has no Charging ID
example : (newIE 3 0 [9]).fteid = err .invalidType ∧
    (newIE 87 0 [0x8a, 0, 0, 0, 7, 10, 0, 0, 1]).fteid = ok ⟨0x80, 0x0a, 7, some [10, 0, 0, 1], none⟩ := by decide
example : (newIE 93 0 [73, 0, 1, 0, 5]).ebi (fun t => t == 93) = ok 5 ∧
    (newIE 93 0 [73, 0, 1, 0, 5]).chargingID (fun t => t == 93) = err .notFound ∧
    (newIE 73 0 [5]).hasPVI (fun t => t == 93) = ok false := by decide

/-- C76 fails for the deprecated `UserLocationInfo`: it does not look at the type, so that an IMSI is read as a location -/
theorem C76_uli_old : ∃ i : IE, i.typ = 1 ∧ ∃ v, i.uliOld = ok v := by
  refine ⟨newIE 1 0 [0x00], rfl, ?_⟩
  exact ⟨_, rfl⟩

end Verif.V2

namespace Verif.TLV
open Res Utils

/-- on an element whose type is not in `ts` the accessor returns an error -/
def Refuses {α : Type} (ts : List UInt8) (acc : IE → Res α) : Prop := ∀ i : IE, i.typ ∉ ts → ∃ e, acc i = err e
/-- the same for an accessor that returns a truth value and no error -/
def Denies (ts : List UInt8) (acc : IE → Res Bool) : Prop := ∀ i : IE, i.typ ∉ ts → acc i = ok false

local macro "refuse" : tactic => `(tactic| (
  intro i hn
  simp only [List.mem_cons, List.not_mem_nil, or_false, not_or] at hn
  simp [*, IE.imsi, IE.msisdn, IE.imeisv, IE.teid, IE.nsapi0, IE.flowLabelData, IE.ptmsiSignature, IE.extensionIdentifier,
    IE.extensionValue, IE.flags, Plain.get8, Plain.get16, Plain.get32, Plain.getRaw, IE.apn1, IE.apn0, IE.mcc1, IE.mnc1, IE.lac1,
    IE.rac1, IE.cell, IE.mcc0, IE.mnc0, IE.lac0, IE.rac0, IE.address, IE.pdpTypeOrganization, IE.pdpTypeNumber, IE.ip,
    IE.timeZone, IE.daylightSaving, IE.timestamp, IE.rand, IE.sres, IE.kc, IE.quintuplet, IE.xres, IE.ck, IE.ik, IE.autn,
    IE.qosDelay, IE.qosReliability, IE.qosPeak, IE.qosPrecedence, IE.qosMean, IE.qos0, IE.pco]
  try ((repeat' split) <;> simp)))

/-- C76 for GTPv1 -/
theorem C76_v1 : Refuses [2] IE.imsi ∧ Refuses [134] IE.msisdn ∧ Refuses [154] IE.imeisv ∧ Refuses [16, 17, 18] IE.teid ∧
    Refuses [12] IE.ptmsiSignature ∧ Refuses [255] IE.extensionIdentifier ∧ Refuses [255] IE.extensionValue ∧
    Refuses [148] (IE.flags 148) ∧ Refuses [193] (IE.flags 193) ∧ Refuses [218] (IE.flags 218) ∧ Refuses [131] IE.apn1 ∧
    Refuses [3, 152] IE.mcc1 ∧ Refuses [3, 152] IE.mnc1 ∧ Refuses [3, 152] IE.lac1 ∧ Refuses [3, 152] IE.rac1 ∧
    Refuses [152] (IE.cell 0) ∧ Refuses [152] (IE.cell 1) ∧ Refuses [133] (IE.address 133) ∧
    Refuses [128] IE.pdpTypeOrganization ∧ Refuses [128] IE.pdpTypeNumber ∧ Refuses [128, 133] IE.ip ∧
    Refuses [153] IE.timeZone ∧ Refuses [153] IE.daylightSaving ∧ Refuses [214] IE.timestamp ∧ Refuses [9, 136] IE.rand ∧
    Refuses [9] IE.sres ∧ Refuses [9] IE.kc ∧ Refuses [136] IE.quintuplet ∧ Refuses [136] IE.ck ∧ Refuses [136] IE.ik ∧
    Refuses [136] IE.autn ∧ Refuses [132] IE.pco := by
  refine ⟨?_, ?_, ?_, ?_, ?_, ?_, ?_, ?_, ?_, ?_, ?_, ?_, ?_, ?_, ?_, ?_, ?_, ?_, ?_, ?_, ?_, ?_, ?_, ?_, ?_, ?_, ?_, ?_, ?_, ?_,
    ?_, ?_⟩ <;> refuse

/-- C76 for GTPv0; `IMSI`, `PTMSISignature`, `ExtensionIdentifier`, `ExtensionValue`, `IPAddress` and the accessors of End User
Address are the same as in GTPv1 -/
theorem C76_v0 : Refuses [18] IE.nsapi0 ∧ Refuses [16, 17, 18] IE.flowLabelData ∧ Refuses [131] IE.apn0 ∧ Refuses [3] IE.mcc0 ∧
    Refuses [3] IE.mnc0 ∧ Refuses [3] IE.lac0 ∧ Refuses [3] IE.rac0 ∧ Refuses [133] (IE.address 133) ∧
    Refuses [251] (IE.address 251) ∧ Refuses [6] IE.qosDelay ∧ Refuses [6] IE.qosReliability ∧ Refuses [6] IE.qosPeak ∧
    Refuses [6] IE.qosPrecedence ∧ Refuses [6] IE.qosMean := by
  refine ⟨?_, ?_, ?_, ?_, ?_, ?_, ?_, ?_, ?_, ?_, ?_, ?_, ?_, ?_⟩ <;> refuse

/-- the type carrying the value an accessor of a plain element returns: TS 29.060 table 37 -/
def carriers1 : List (String × UInt8) := [("Cause", 1), ("MAPCause", 11), ("Recovery", 14), ("SelectionMode", 15), ("NSAPI", 20),
  ("RANAPCause", 21), ("APNRestriction", 149), ("RATType", 151), ("PacketTMSI", 5), ("ChargingID", 127),
  ("ReorderingRequired", 8), ("MSValidated", 13), ("TeardownInd", 19), ("QoSProfile", 135), ("ExtensionHeaderTypeList", 141)]
/-- GSM 09.60 table 38 -/
def carriers0 : List (String × UInt8) := [("Cause", 1), ("Recovery", 14), ("SelectionMode", 15), ("MSNotReachableReason", 19),
  ("FlowLabelDataI", 16), ("FlowLabelSignalling", 17), ("TemporaryLogicalLinkIdentity", 4), ("PacketTMSI", 5),
  ("ChargingID", 127), ("ReorderingRequired", 8)]
/-- the type in which the flag accessors of GTPv1 look: Common Flags 148, Extended Common Flags 193 and II 218 -/
def carriersFlags : List (String × UInt8) := [("IsDualAddressBearer", 148), ("IsUpgradeQoSSupported", 148), ("IsNRSN", 148),
  ("IsNoQoSNegotiation", 148), ("IsMBMSCountingInformation", 148), ("IsRANProceduresReady", 148), ("IsMBMSServiceType", 148),
  ("IsProhibitPayloadCompression", 148), ("IsUASI", 193), ("IsBDWI", 193), ("IsPCRI", 193), ("IsVB", 193), ("IsRetLoc", 193),
  ("IsCPSR", 193), ("IsCCRSI", 193), ("IsUnauthenticatedIMSI", 193), ("IsPMTSMI", 218), ("IsDTCI", 218), ("IsPNSI", 218)]

/-- C76: the plain elements of GTPv1 and GTPv0 and the flags of GTPv1, for every row of the tables -/
theorem C76_v1_tables :
    (∀ r ∈ plain8v1, ∃ t, (r.name, t) ∈ carriers1 ∧ Refuses [t] r.get8) ∧
    (∀ r ∈ plain32v1, ∃ t, (r.name, t) ∈ carriers1 ∧ Refuses [t] r.get32) ∧
    (∀ r ∈ plainBoolv1, ∃ t, (r.name, t) ∈ carriers1 ∧ Denies [t] r.getBool) ∧
    (∀ r ∈ plainRawv1, ∃ t, (r.name, t) ∈ carriers1 ∧ Refuses [t] r.getRaw) ∧
    (∀ r ∈ plain8v0, ∃ t, (r.name, t) ∈ carriers0 ∧ Refuses [t] r.get8) ∧
    (∀ r ∈ plain16v0, ∃ t, (r.name, t) ∈ carriers0 ∧ Refuses [t] r.get16) ∧
    (∀ r ∈ plain32v0, ∃ t, (r.name, t) ∈ carriers0 ∧ Refuses [t] r.get32) ∧
    (∀ r ∈ plainBoolv0, ∃ t, (r.name, t) ∈ carriers0 ∧ Denies [t] r.getBool) ∧
    (∀ f ∈ flagTab, ∃ t, (f.name, t) ∈ carriersFlags ∧ Denies [t] f.get) := by
  have r8 : ∀ r : Plain, Refuses [r.typ] r.get8 := fun r => by refuse
  have r16 : ∀ r : Plain, Refuses [r.typ] r.get16 := fun r => by refuse
  have r32 : ∀ r : Plain, Refuses [r.typ] r.get32 := fun r => by refuse
  have rr : ∀ r : Plain, Refuses [r.typ] r.getRaw := fun r => by refuse
  have rb : ∀ r : Plain, Denies [r.typ] r.getBool := fun r i hn => by simp at hn; simp [Plain.getBool, hn]
  have rf : ∀ f : Flag, Denies [f.typ] f.get := fun f i hn => by
    simp at hn; simp [Flag.get, IE.isFlag, IE.flags, Plain.get8, hn, V2.must]
  refine ⟨fun r hr => ⟨r.typ, ?_, r8 r⟩, fun r hr => ⟨r.typ, ?_, r32 r⟩, fun r hr => ⟨r.typ, ?_, rb r⟩,
    fun r hr => ⟨r.typ, ?_, rr r⟩, fun r hr => ⟨r.typ, ?_, r8 r⟩, fun r hr => ⟨r.typ, ?_, r16 r⟩,
    fun r hr => ⟨r.typ, ?_, r32 r⟩, fun r hr => ⟨r.typ, ?_, rb r⟩, fun r hr => ⟨r.typ, ?_, rf r⟩⟩ <;> (revert r; decide)

example : (newIE TLV.v1 16 [0, 0, 0, 7]).teid = ok 7 ∧ (newIE TLV.v1 127 [0, 0, 0, 7]).teid = err .invalidType ∧
    (newIE TLV.v1 127 [0, 0, 0, 7]).imsi = err .invalidType ∧ (newIE TLV.v1 14 []).xres = ok [] ∧
    (newIE TLV.v1 193 [0xff]).isFlag 148 3 = ok false ∧ (newIE TLV.v1 148 [0xff]).isFlag 148 3 = ok true := by decide

/-- C76 fails for `XRES` of GTPv1: on an element with an empty payload it returns no octets and no error, whatever the type;
on other elements it refuses -/
theorem C76_xres_partial : (∀ i : IE, i.payload = [] → i.xres = ok []) ∧
    (∀ i : IE, i.payload ≠ [] → i.typ ≠ 136 → i.xres = err .invalidType) := by
  refine ⟨fun i h => by simp [IE.xres, h], fun i h ht => by simp [IE.xres, h, ht]⟩

end Verif.TLV
