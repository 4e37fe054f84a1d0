import Verif.Props.V2Msg
import Verif.Props.V1Msg
import Verif.Props.V0Msg
/-
Property theorem C51: a named field of a message only ever holds IEs of the type it is named after.

`v2Names`, `v1Names`, `v0Names` list, per IE type code (29.274 table 8.1-1, 29.060 table 37, 09.60 table 38), the
struct field names that stand for an IE of that type; they are written from the field names and the standards, not
from the switch statements.
-/
namespace Verif.FieldTypes
open Res Msg

/-- 29.274 table 8.1-1 -/
def v2Names : List (Nat × List String) :=
  [(1, ["IMSI"]), (2, ["Cause"]), (3, ["Recovery"]), (71, ["APN"]), (72, ["AMBR", "APNAMBR"]),
   (73, ["EBI", "EBIs", "EPSBearerID", "LinkedEBI", "LinkedEPSBearerID", "ListOfRABs"]),
   (74, ["AddressForControlPlane", "ChargingGatewayAddress", "EPDGIPAddress", "HeNBLocalIPAddress",
     "MMESGSNIdentifier", "PGWS5S8IPAddressForControlPlane", "PGWS5S8IPAddressForControlPlaneOrPMIP",
     "S101IPAddress", "S102IPAddress", "SGWS11S4IPAddressForControlPlane", "UELocalIPAddress"]),
   (75, ["MEI"]), (76, ["MSISDN"]), (77, ["Indication", "IndicationFlags"]), (78, ["PCO"]), (79, ["PAA"]),
   (82, ["RATType"]), (83, ["ServingNetwork", "TargetPLMNID"]), (86, ["RAI", "ULI", "ULIForSGW"]),
   (87, ["AddressAndTEIDForCPlane", "ForwardingFTEID", "PGWS5S8FTEIDC", "SGWS11S4FTEID", "SenderFTEID",
     "SenderFTEIDC", "SenderFTEIDForControlPlane"]),
   (92, ["DataNotificationDelay", "DelayDownlinkPacketNotificationRequest"]),
   (93, ["BearerContext", "BearerContextMarkedForRemoval", "BearerContexts", "BearerContextsCreated",
     "BearerContextsMarkedForRemoval", "BearerContextsModified", "BearerContextsToBeCreated",
     "BearerContextsToBeModified", "BearerContextsToBeRemoved", "FailedBearerContext"]),
   (94, ["PDNConnectionChargingID"]), (95, ["ChargingCharacteristics"]), (96, ["TraceInformation"]),
   (99, ["PDNType"]), (100, ["PTI"]),
   (103, ["UEMMContext"]), (104, ["UEMMContext"]), (105, ["UEMMContext"]), (106, ["UEMMContext"]),
   (107, ["UEMMContext"]), (108, ["UEMMContext"]), (109, ["UEPDNConnections"]),
   (111, ["PTMSI"]), (112, ["PTMSISignature"]), (113, ["HopCounter"]), (114, ["UETimeZone"]),
   (116, ["CompleteTAURequestMessage"]), (117, ["GUTI"]), (118, ["FContainer", "NBIFOMContainer"]),
   (126, ["HeNBUDPPort", "UDPSourcePortNumber", "UETCPPort", "UEUDPPort"]), (127, ["APNRestriction"]),
   (128, ["SelectionMode"]), (131, ["ChangeReportingAction"]),
   (132, ["EPDGFQCSID", "MMEFQCSID", "PGWFQCSID", "SGWFQCSID", "TWANFQCSID"]), (135, ["OriginatingNode"]),
   (136, ["ChargingGatewayName", "MMENodeName", "SGSNNodeName", "SGWNodeName", "SGWUNodeName"]),
   (144, ["RFSPIndexInUse", "SubscribedRFSPIndex"]), (145, ["UCI"]), (146, ["CSGInformationReportingAction"]),
   (150, ["DetachType"]), (151, ["EPDGLDN", "MMESGSNLDN", "PGWLDN", "SGWLDN", "TWANLDN"]),
   (152, ["SendingNodeFeatures"]), (154, ["DLLowPriorityTrafficThrottling"]),
   (155, ["AllocationRetensionPriority"]), (156, ["DLBufferingDuration", "PGWBackOffTime"]),
   (157, ["SignallingPriorityIndication"]), (162, ["MDTConfiguration"]), (163, ["APCO"]),
   (165, ["HeNBInformationReporting"]), (166, ["TrustedTWANIPv4Parameters"]),
   (169, ["TWANIdentifier", "WLANLocationInformation"]), (170, ["ULITimestamp"]), (172, ["RANNASReleaseCause"]),
   (173, ["CNOperatorSelectionEntity"]), (174, ["TWMI"]), (175, ["MMENumberForMTSMS", "SGSNNumber"]),
   (176, ["MMEIdentifier", "MMEIdentifierForMTSMS", "SGSNIdentifier", "SGSNIdentifierForMTSMS",
     "TGPPAAAServerIdentifier"]),
   (177, ["PresenceReportingAction", "PresenceReportingAreaAction"]), (178, ["PresenceReportingAreaInformation"]),
   (179, ["TWANIdentifierTimestamp", "WLANLocationTimeStamp", "WLANLocationTimestamp"]),
   (180, ["EPDGOverloadControlInformation", "MMEOverloadControlInformation", "MMESGSNOverloadControlInformation",
     "PGWOverloadControlInformation", "SGWOverloadControlInformaion", "SGWOverloadControlInformation",
     "TWANePDGOverloadControlInformaion", "TWANePDGOverloadControlInformation"]),
   (181, ["PGWAPNLoadControlInformation", "PGWNodeLoadControlInformation", "SGWNodeLoadControlInformation"]),
   (186, ["PagingAndServiceInformation"]),
   (187, ["DLBufferingSuggestedPacketCount", "DLDataPacketsSize", "MaximumWaitTime",
     "RemainingRunningServiceGapTimer", "UEUsageType"]),
   (188, ["OriginationTimeStamp"]), (189, ["MonitoringEventInformation"]), (191, ["RemoteUEContextConnected"]),
   (194, ["CIoTOptimizationsSupportIndication"]), (195, ["SCEFPDNConnection"]), (197, ["EPCO"]),
   (198, ["ServingPLMNRateControl"]), (199, ["MOExceptionDataCounter"]), (200, ["MappedUEUsageType"]),
   (201, ["SecondaryRATDataUsageReport", "SecondaryRATUsageDataReport"]),
   (202, ["UPFunctionSelectionIndicationFlags"]), (204, ["APNRateControlStatus"]),
   (205, ["ExtendedTraceInformation"]), (206, ["MonitoringEventExtensionInformation"]),
   (207, ["AdditionalRRMPolicyIndexInUse", "SubscribedAdditionalRRMPolicyIndex"]), (255, ["PrivateExtension"])]

/-- 29.060 table 37 -/
def v1Names : List (Nat × List String) :=
  [(1, ["Cause"]), (2, ["IMSI"]), (3, ["RAI"]), (8, ["ReorderingRequired"]), (14, ["Recovery"]),
   (15, ["SelectionMode"]), (16, ["TEIDDataI"]), (17, ["TEIDCPlane"]), (19, ["TeardownInd"]),
   (20, ["NSAPI", "LinkedNSAPI"]), (26, ["ChargingCharacteristics"]), (27, ["TraceReference"]), (28, ["TraceType"]),
   (127, ["ChargingID"]), (128, ["EndUserAddress"]), (131, ["APN"]), (132, ["PCO"]),
   (133, ["GGSNAddressForCPlane", "GGSNAddressForUserTraffic", "GTPUPeerAddress", "SGSNAddressForCPlane",
     "SGSNAddressForSignalling", "SGSNAddressForUserTraffic", "AltGGSNAddressForCPlane",
     "AltGGSNAddressForUserTraffic", "AlternativeSGSNAddressForCPlane", "AlternativeSGSNAddressForUserTraffic"]),
   (134, ["MSISDN"]), (135, ["QoSProfile"]), (137, ["TFT"]), (141, ["ExtensionHeaderTypeList"]),
   (142, ["TriggerID"]), (143, ["OMCIdentity"]), (148, ["CommonFlags"]), (149, ["APNRestriction"]),
   (151, ["RATType"]), (152, ["ULI", "UserLocationInformation"]), (153, ["MSTimeZone"]), (154, ["IMEI"]),
   (155, ["CAMELChargingInformationContainer"]), (162, ["AdditionalTraceInfo"]),
   (181, ["MSInfoChangeReportingAction"]), (182, ["DirectTunnelFlags"]), (183, ["CorrelationID"]),
   (184, ["BearerControlMode"]), (191, ["EvolvedARPI"]), (193, ["ExtendedCommonFlags"]), (194, ["UCI"]),
   (195, ["CSGInformationReportingAction"]), (198, ["APNAMBR"]), (202, ["GGSNBackOffTime"]),
   (203, ["SignallingPriorityIndication"]), (214, ["ULITimestamp"]), (216, ["CNOperatorSelectionEntity"]),
   (218, ["ExtendedCommonFlagsII"]), (223, ["MappedUEUsageType"]), (224, ["UPFunctionSelectionIndicationFlags"]),
   (251, ["ChargingGatewayAddress", "AltChargingGatewayAddress"]), (255, ["PrivateExtension"])]

/-- 09.60 table 38 -/
def v0Names : List (Nat × List String) :=
  [(1, ["Cause"]), (3, ["RAI"]), (6, ["QoSProfile"]), (8, ["ReorderingRequired"]), (14, ["Recovery"]),
   (15, ["SelectionMode"]), (16, ["FlowLabelDataI"]), (17, ["FlowLabelSignalling"]), (127, ["ChargingID"]),
   (128, ["EndUserAddress"]), (131, ["APN"]), (132, ["PCO"]),
   (133, ["GGSNAddressForSignalling", "GGSNAddressForUserTraffic", "SGSNAddressForSignalling",
     "SGSNAddressForUserTraffic"]),
   (134, ["MSISDN"]), (251, ["ChargingGatewayAddress"]), (255, ["PrivateExtension"])]

/-- field names that stand for no particular IE type -/
def unnamed : List String := ["AdditionalIEs", "IEs"]

/-- the field called n may hold an IE of type t -/
def Fits (names : List (Nat × List String)) (n : String) (t : Nat) : Prop :=
  n ∈ unnamed ∨ ∃ p ∈ names, p.1 = t ∧ n ∈ p.2

/-- GTPv2 fields into which the code puts IEs of another type: message, field -/
def v2Wrong : List (String × String) :=
  [("ModifyBearerRequest", "MMESGSNIdentifier"), ("ModifyBearerResponse", "SGWNodeLoadControlInformation"),
   ("ModifyAccessBearersRequest", "SenderFTEIDC")]

/-! generic part -/

def okField (names : List (Nat × List String)) (wrong : List (String × String)) (s : Schema) (f t : Nat) : Bool :=
  match s.fields[f]? with
  | none => true
  | some n => wrong.contains (s.name, n) || unnamed.contains n || names.any (fun p => p.1 == t && p.2.contains n)

def okAct (p : Nat → Bool) : Act → Bool
  | .drop => true
  | .set f => p f
  | .app f => p f
  | .free f r => p f && okAct p r
  | .ifset f r => p f && okAct p r

def unnamedField (s : Schema) (f : Nat) : Bool :=
  match s.fields[f]? with
  | none => true
  | some n => unnamed.contains n

def okRules (names : List (Nat × List String)) (wrong : List (String × String)) (s : Schema) (rules : List Rule) (d : Act) :
    Bool :=
  rules.all (fun r => okAct (fun f => okField names wrong s f r.typ) r.act) && okAct (unnamedField s) d

theorem apply_inv {ι : Type} (P : Nat → ι → Prop) (x : ι) : ∀ (a : Act) (F : Fields ι),
    (∀ f, ∀ y ∈ F f, P f y) → (∀ p : Nat → Bool, (∀ f, p f = true → P f x) → okAct p a = true →
      ∀ f, ∀ y ∈ a.apply F x f, P f y) := by
  intro a
  induction a with
  | drop => intro F h p _ _; exact h
  | set g =>
    intro F h p hp ho f y hy
    simp only [Act.apply, upd] at hy
    split at hy
    · rename_i e; subst e
      simp only [List.mem_singleton] at hy
      subst hy; exact hp _ ho
    · exact h f y hy
  | app g =>
    intro F h p hp ho f y hy
    simp only [Act.apply, upd] at hy
    split at hy
    · rename_i e; subst e
      simp only [List.mem_append, List.mem_singleton] at hy
      rcases hy with hy | hy
      · exact h _ y hy
      · subst hy; exact hp _ ho
    · exact h f y hy
  | free g r ih =>
    intro F h p hp ho f y hy
    simp only [okAct, Bool.and_eq_true] at ho
    simp only [Act.apply] at hy
    split at hy
    · simp only [upd] at hy
      split at hy
      · rename_i e; subst e
        simp only [List.mem_singleton] at hy
        subst hy; exact hp _ ho.1
      · exact h f y hy
    · exact ih F h p hp ho.2 f y hy
  | ifset g r ih =>
    intro F h p hp ho f y hy
    simp only [okAct, Bool.and_eq_true] at ho
    simp only [Act.apply] at hy
    split at hy
    · exact ih F h p hp ho.2 f y hy
    · simp only [upd] at hy
      split at hy
      · rename_i e; subst e
        simp only [List.mem_singleton] at hy
        subst hy; exact hp _ ho.1
      · exact h f y hy

theorem classify_inv {ι : Type} (io : IEOps ι) (names : List (Nat × List String)) (wrong : List (String × String))
    (s : Schema) (rules : List Rule) (d : Act) (hok : okRules names wrong s rules d = true) (xs : List ι) :
    ∀ f, ∀ y ∈ Msg.classify io rules d xs f, okField names wrong s f (io.typ y).toNat = true := by
  unfold Msg.classify
  suffices H : ∀ F : Fields ι, (∀ f, ∀ y ∈ F f, okField names wrong s f (io.typ y).toNat = true) →
      ∀ f, ∀ y ∈ xs.foldl (fun F x => (Msg.sel rules d (io.typ x).toNat (io.inst x).toNat).apply F x) F f,
        okField names wrong s f (io.typ y).toNat = true by
    exact H _ (by intro f y hy; simp [Fields.empty] at hy)
  induction xs with
  | nil => intro F h; exact h
  | cons x xs ih =>
    intro F h
    simp only [List.foldl_cons]
    apply ih
    simp only [okRules, Bool.and_eq_true, List.all_eq_true] at hok
    unfold Msg.sel
    split
    · rename_i r hr
      have hmem := List.mem_of_find?_eq_some hr
      have hp := List.find?_some hr
      simp only [Bool.and_eq_true, beq_iff_eq] at hp
      refine apply_inv (fun f y => okField names wrong s f (io.typ y).toNat = true) x r.act F h
        (fun f => okField names wrong s f r.typ) ?_ (hok.1 r hmem)
      intro f hf
      rw [← hp.1]; exact hf
    · refine apply_inv (fun f y => okField names wrong s f (io.typ y).toNat = true) x d F h
        (unnamedField s) ?_ hok.2
      intro f hf
      unfold unnamedField at hf
      unfold okField
      split
      · rfl
      · rename_i n hn
        simp only [hn] at hf
        simp only [hf, Bool.or_true, Bool.true_or]

theorem fits_of_ok {names : List (Nat × List String)} {wrong : List (String × String)} {s : Schema} {f t : Nat}
    {n : String} (hn : s.fields[f]? = some n) (hw : (s.name, n) ∉ wrong)
    (h : okField names wrong s f t = true) : Fits names n t := by
  unfold okField at h
  simp only [hn, Bool.or_eq_true, List.contains_eq_mem, decide_eq_true_eq, List.any_eq_true, Bool.and_eq_true,
    beq_iff_eq] at h
  rcases h with (h | h) | ⟨p, hp, h1, h2⟩
  · exact absurd h hw
  · exact Or.inl h
  · exact Or.inr ⟨p, hp, h1, h2⟩

theorem unmarshal_fields {η ι : Type} {ho : HdrOps η} {io : IEOps ι} {s : Schema} {b : Bytes} {m : Message η ι}
    (h : Msg.unmarshal ho io s b = ok m) :
    m.schema = s ∧ ∃ xs, m.fields = Msg.classify io s.unRules s.unDefault xs := by
  unfold Msg.unmarshal at h
  cases hp : ho.parse b with
  | ok hd =>
    simp only [hp, bind_ok] at h
    split at h
    · injection h with h; subst h
      exact ⟨rfl, [], rfl⟩
    · cases hq : io.parseMulti (ho.payload hd) with
      | ok xs =>
        simp only [hq, bind_ok] at h
        injection h with h; subst h
        exact ⟨rfl, xs, rfl⟩
      | err e => simp [hq] at h
      | «panic» => simp [hq] at h
      | diverge => simp [hq] at h
  | err e => simp [hp] at h
  | «panic» => simp [hp] at h
  | diverge => simp [hp] at h

/-! ### GTPv2 -/

def checkAll (names : List (Nat × List String)) (wrong : List (String × String)) (l : List Schema) : Bool :=
  l.all (fun s => okRules names wrong s s.newRules s.newDefault && okRules names wrong s s.unRules s.unDefault)

theorem v2_check : checkAll v2Names v2Wrong V2.Tab.all = true := by decide +kernel
theorem v2_check' : checkAll v2Names v2Wrong (V2.Tab.dispatch.map (·.2)) = true := by decide +kernel
theorem v1_check : checkAll v1Names [] V1.Tab.all = true := by decide +kernel
theorem v1_check' : checkAll v1Names [] (V1.Tab.dispatch.map (·.2)) = true := by decide +kernel
theorem v0_check : checkAll v0Names [] V0.Tab.all = true := by decide +kernel
theorem v0_check' : checkAll v0Names [] (V0.Tab.dispatch.map (·.2)) = true := by decide +kernel

theorem check_mem {names : List (Nat × List String)} {wrong : List (String × String)} {l : List Schema}
    (h : checkAll names wrong l = true) {s : Schema} (hs : s ∈ l) :
    okRules names wrong s s.newRules s.newDefault = true ∧ okRules names wrong s s.unRules s.unDefault = true := by
  simp only [checkAll, List.all_eq_true, Bool.and_eq_true] at h
  exact h s hs

/-- C51, GTPv2 constructors: whatever IEs (or nil) are given to the constructor of a message type, every IE in a
named field has the type the field is named after.  Missing for the full claim: the three fields of `v2Wrong`
(`C51_v2_wrong`). -/
theorem C51_v2_new_partial (g : UInt8 → Bool) (s : Schema) (hs : s ∈ V2.Tab.all) (teid seq : UInt32)
    (ies : List (Option V2.IE)) (f : Nat) (n : String) (hn : s.fields[f]? = some n) (hw : (s.name, n) ∉ v2Wrong)
    (x : V2.IE) (hx : x ∈ (V2.newMessage g s teid seq ies).fields f) : Fits v2Names n x.typ.toNat :=
  fits_of_ok hn hw (classify_inv (V2.ieOps g) v2Names v2Wrong s _ _ (check_mem v2_check hs).1 _ f x hx)

/-- C51, GTPv2 parser: the same for every message parsed from any octets. -/
theorem C51_v2_parse_partial (g : UInt8 → Bool) (b : Bytes) (m : V2.Message) (h : V2.parseMsg g b = ok m)
    (f : Nat) (n : String) (hn : m.schema.fields[f]? = some n) (hw : (m.schema.name, n) ∉ v2Wrong)
    (x : V2.IE) (hx : x ∈ m.fields f) : Fits v2Names n x.typ.toNat := by
  unfold V2.parseMsg at h
  split at h
  · cases h
  · cases ht : idx b 1 with
    | ok t =>
      simp only [ht, bind_ok] at h
      obtain ⟨hs, xs, hf⟩ := unmarshal_fields h
      have hok : okRules v2Names v2Wrong m.schema m.schema.unRules m.schema.unDefault = true := by
        rw [hs]
        unfold V2.schemaOf
        split
        · rename_i p hp
          exact (check_mem v2_check' (List.mem_map_of_mem (List.mem_of_find?_eq_some hp))).2
        · rfl
      rw [hf, ← hs] at hx
      exact fits_of_ok hn hw (classify_inv (V2.ieOps g) v2Names v2Wrong m.schema _ _ hok _ f x hx)
    | err e => simp [ht] at h
    | «panic» => simp [ht] at h
    | diverge => simp [ht] at h

theorem v2_new_one (g : UInt8 → Bool) (s : Schema) (teid seq : UInt32) (t i : UInt8) (l : UInt16) (p : Bytes) :
    (V2.newMessage g s teid seq [some (.mk t l i p [])]).fields =
      (Msg.sel s.newRules s.newDefault t.toNat (V2.IE.instance' (.mk t l i p [])).toNat).apply Fields.empty (.mk t l i p []) := rfl

/-- the three exceptions are real: a UDP port number lands in the MME/SGSN identifier of a Modify Bearer Request,
an Overload Control Information in the load control field of a Modify Bearer Response, a Node Type in the sender
F-TEID of a Modify Access Bearers Request. -/
theorem C51_v2_wrong (g : UInt8 → Bool) (teid seq : UInt32) (p : Bytes) (l : UInt16) :
    (∃ f, V2.Tab.modifyBearerRequest.fields[f]? = some "MMESGSNIdentifier" ∧
      (V2.newMessage g V2.Tab.modifyBearerRequest teid seq [some (.mk 126 l 2 p [])]).fields f = [.mk 126 l 2 p []]) ∧
    (∃ f, V2.Tab.modifyBearerResponse.fields[f]? = some "SGWNodeLoadControlInformation" ∧
      (V2.newMessage g V2.Tab.modifyBearerResponse teid seq [some (.mk 180 l 0 p [])]).fields f = [.mk 180 l 0 p []]) ∧
    (∃ f, V2.Tab.modifyAccessBearersRequest.fields[f]? = some "SenderFTEIDC" ∧
      (V2.newMessage g V2.Tab.modifyAccessBearersRequest teid seq [some (.mk 135 l 0 p [])]).fields f =
        [.mk 135 l 0 p []]) := by
  have h0 : Msg.sel V2.Tab.modifyBearerRequest.newRules V2.Tab.modifyBearerRequest.newDefault (126 : UInt8).toNat (2 : UInt8).toNat = .set 21 := by decide +kernel
  have h1 : Msg.sel V2.Tab.modifyBearerResponse.newRules V2.Tab.modifyBearerResponse.newDefault (180 : UInt8).toNat (0 : UInt8).toNat = .set 21 := by decide +kernel
  have h2 : Msg.sel V2.Tab.modifyAccessBearersRequest.newRules V2.Tab.modifyAccessBearersRequest.newDefault (135 : UInt8).toNat (0 : UInt8).toNat = .set 1 := by decide +kernel
  refine ⟨⟨21, rfl, ?_⟩, ⟨21, rfl, ?_⟩, ⟨1, rfl, ?_⟩⟩
  · rw [v2_new_one, show (V2.IE.mk _ l _ p []).instance' = (2 : UInt8) from (by decide : (2 : UInt8) &&& 0x0f = 2), h0]; rfl
  · rw [v2_new_one, show (V2.IE.mk _ l _ p []).instance' = (0 : UInt8) from (by decide : (0 : UInt8) &&& 0x0f = 0), h1]; rfl
  · rw [v2_new_one, show (V2.IE.mk _ l _ p []).instance' = (0 : UInt8) from (by decide : (0 : UInt8) &&& 0x0f = 0), h2]; rfl

/-- a Node Type is not an F-TEID, and so on: the exceptions do violate the claim -/
example : ¬ Fits v2Names "MMESGSNIdentifier" 126 ∧ ¬ Fits v2Names "SGWNodeLoadControlInformation" 180 ∧
    ¬ Fits v2Names "SenderFTEIDC" 135 ∧ Fits v2Names "SenderFTEIDC" 87 ∧ Fits v2Names "AdditionalIEs" 135 := by
  unfold Fits; decide +kernel

/-! ### GTPv1, GTPv0 -/

/-- C51, GTPv1 constructors -/
theorem C51_v1_new (s : Schema) (hs : s ∈ V1.Tab.all) (teid : UInt32) (seq : UInt16)
    (ies : List (Option TLV.IE)) (f : Nat) (n : String) (hn : s.fields[f]? = some n)
    (x : TLV.IE) (hx : x ∈ (V1.newMessage s teid seq ies).fields f) : Fits v1Names n x.typ.toNat :=
  fits_of_ok hn (by simp) (classify_inv V1.ieOps v1Names [] s _ _ (check_mem v1_check hs).1 _ f x hx)

/-- C51, GTPv1 parser -/
theorem C51_v1_parse (b : Bytes) (m : V1.Message) (h : V1.parseMsg b = ok (.msg m))
    (f : Nat) (n : String) (hn : m.schema.fields[f]? = some n)
    (x : TLV.IE) (hx : x ∈ m.fields f) : Fits v1Names n x.typ.toNat := by
  unfold V1.parseMsg at h
  split at h
  · cases h
  · cases ht : idx b 1 with
    | ok t =>
      simp only [ht, bind_ok] at h
      split at h
      · cases hp : V1.Header.parse b <;> simp [hp] at h
      · cases hu : Msg.unmarshal V1.hdrOps V1.ieOps (V1.schemaOf t) b with
        | ok m' =>
          simp only [hu, bind_ok] at h
          injection h with h; injection h with h; subst h
          obtain ⟨hs, xs, hf⟩ := unmarshal_fields hu
          have hok : okRules v1Names [] m'.schema m'.schema.unRules m'.schema.unDefault = true := by
            rw [hs]
            unfold V1.schemaOf
            split
            · rename_i p hp
              exact (check_mem v1_check' (List.mem_map_of_mem (List.mem_of_find?_eq_some hp))).2
            · rfl
          rw [hf, ← hs] at hx
          exact fits_of_ok hn (by simp) (classify_inv V1.ieOps v1Names [] m'.schema _ _ hok _ f x hx)
        | err e => simp [hu] at h
        | «panic» => simp [hu] at h
        | diverge => simp [hu] at h
    | err e => simp [ht] at h
    | «panic» => simp [ht] at h
    | diverge => simp [ht] at h

/-- C51, GTPv0 constructors -/
theorem C51_v0_new (s : Schema) (hs : s ∈ V0.Tab.all) (seq label : UInt16) (tid : UInt64)
    (ies : List (Option TLV.IE)) (f : Nat) (n : String) (hn : s.fields[f]? = some n)
    (x : TLV.IE) (hx : x ∈ (V0.newMessage s seq label tid ies).fields f) : Fits v0Names n x.typ.toNat :=
  fits_of_ok hn (by simp) (classify_inv V0.ieOps v0Names [] s _ _ (check_mem v0_check hs).1 _ f x hx)

/-- C51, GTPv0 parser -/
theorem C51_v0_parse (b : Bytes) (m : V0.Message) (h : V0.parseMsg b = ok (.msg m))
    (f : Nat) (n : String) (hn : m.schema.fields[f]? = some n)
    (x : TLV.IE) (hx : x ∈ m.fields f) : Fits v0Names n x.typ.toNat := by
  unfold V0.parseMsg at h
  split at h
  · cases h
  · cases ht : idx b 1 with
    | ok t =>
      simp only [ht, bind_ok] at h
      split at h
      · cases hp : V0.Header.parse b <;> simp [hp] at h
      · cases hu : Msg.unmarshal V0.hdrOps V0.ieOps (V0.schemaOf t) b with
        | ok m' =>
          simp only [hu, bind_ok] at h
          injection h with h; injection h with h; subst h
          obtain ⟨hs, xs, hf⟩ := unmarshal_fields hu
          have hok : okRules v0Names [] m'.schema m'.schema.unRules m'.schema.unDefault = true := by
            rw [hs]
            unfold V0.schemaOf
            split
            · rename_i p hp
              exact (check_mem v0_check' (List.mem_map_of_mem (List.mem_of_find?_eq_some hp))).2
            · rfl
          rw [hf, ← hs] at hx
          exact fits_of_ok hn (by simp) (classify_inv V0.ieOps v0Names [] m'.schema _ _ hok _ f x hx)
        | err e => simp [hu] at h
        | «panic» => simp [hu] at h
        | diverge => simp [hu] at h
    | err e => simp [ht] at h
    | «panic» => simp [ht] at h
    | diverge => simp [ht] at h

/-- two GSN addresses in a Create PDP Context Request: signalling first, then user traffic -/
example (p q : Bytes) :
    (V1.newMessage V1.Tab.createPDPContextRequest 1 2 [some ⟨133, 4, p⟩, none, some ⟨133, 4, q⟩]).fields
      (V1.Tab.createPDPContextRequest.fields.idxOf "SGSNAddressForUserTraffic") = [⟨133, 4, q⟩] := rfl

/-! ### C54: every named field can be filled -/

/-- some rule of the constructor reaches the field with one to four equal IEs -/
def fillable {ι : Type} (io : IEOps ι) (mk : Nat → Nat → ι) (s : Schema) (f : Nat) : Bool :=
  s.newRules.any (fun r => [1, 2, 3, 4].any (fun k =>
    !(Msg.newFields io s (List.replicate k (some (mk r.typ (r.inst.getD 0)))) f).isEmpty))

/-- all named fields of all messages are fillable, but for the listed ones -/
def allFillable {ι : Type} (io : IEOps ι) (mk : Nat → Nat → ι) (except : List (String × String)) (l : List Schema) :
    Bool :=
  l.all (fun s => (List.range s.fields.length).all (fun f =>
    match s.fields[f]? with
    | none => true
    | some n => unnamed.contains n || except.contains (s.name, n) || fillable io mk s f))

theorem fill_of {ι : Type} {io : IEOps ι} {mk : Nat → Nat → ι} {except : List (String × String)} {l : List Schema}
    (h : allFillable io mk except l = true) {s : Schema} (hs : s ∈ l) {f : Nat} {n : String}
    (hn : s.fields[f]? = some n) (hu : n ∉ unnamed) (he : (s.name, n) ∉ except) :
    ∃ ies, Msg.newFields io s ies f ≠ [] := by
  simp only [allFillable, List.all_eq_true] at h
  have hf : f < s.fields.length := by
    rcases Nat.lt_or_ge f s.fields.length with h | h
    · exact h
    · rw [List.getElem?_eq_none h] at hn; cases hn
  have := h s hs f (List.mem_range.2 hf)
  simp only [hn, Bool.or_eq_true, List.contains_eq_mem, decide_eq_true_eq] at this
  rcases this with (h1 | h1) | h1
  · exact absurd h1 hu
  · exact absurd h1 he
  · simp only [fillable, List.any_eq_true, Bool.not_eq_true', List.isEmpty_eq_false_iff] at h1
    obtain ⟨r, _, k, _, h2⟩ := h1
    exact ⟨_, h2⟩

theorem v2_fill : allFillable (V2.ieOps V2.defaultGrouped) (fun t i => V2.IE.mk t.toUInt8 0 i.toUInt8 [] [])
    [("ContextResponse", "UEMMContext")] V2.Tab.all = true := by decide +kernel
theorem v1_fill : allFillable V1.ieOps (fun t _ => ⟨t.toUInt8, 0, []⟩) [] V1.Tab.all = true := by decide +kernel
theorem v0_fill : allFillable V0.ieOps (fun t _ => ⟨t.toUInt8, 0, []⟩) [] V0.Tab.all = true := by decide +kernel

/-- C54, GTPv2: for every named field there are IEs for which the constructor fills it.  Missing for the full claim:
the UE MM context of a Context Response, which can never be filled (`C54_v2_never`). -/
theorem C54_v2_partial (s : Schema) (hs : s ∈ V2.Tab.all) (teid seq : UInt32) (f : Nat) (n : String)
    (hn : s.fields[f]? = some n) (hu : n ∉ unnamed) (he : (s.name, n) ≠ ("ContextResponse", "UEMMContext")) :
    ∃ ies, (V2.newMessage V2.defaultGrouped s teid seq ies).fields f ≠ [] :=
  fill_of v2_fill hs hn hu (by simpa using he)

/-- C54, GTPv1 -/
theorem C54_v1 (s : Schema) (hs : s ∈ V1.Tab.all) (teid : UInt32) (seq : UInt16) (f : Nat) (n : String)
    (hn : s.fields[f]? = some n) (hu : n ∉ unnamed) : ∃ ies, (V1.newMessage s teid seq ies).fields f ≠ [] :=
  fill_of v1_fill hs hn hu (by simp)

/-- C54, GTPv0 -/
theorem C54_v0 (s : Schema) (hs : s ∈ V0.Tab.all) (seq label : UInt16) (tid : UInt64) (f : Nat) (n : String)
    (hn : s.fields[f]? = some n) (hu : n ∉ unnamed) : ∃ ies, (V0.newMessage s seq label tid ies).fields f ≠ [] :=
  fill_of v0_fill hs hn hu (by simp)

/-- the field is touched only if it is already filled -/
def guarded (f : Nat) : Act → Bool
  | .drop => true
  | .set g => g != f
  | .app g => g != f
  | .free g r => g != f && guarded f r
  | .ifset _ r => guarded f r

theorem apply_guarded {ι : Type} (f : Nat) (x : ι) : ∀ (a : Act) (F : Fields ι), guarded f a = true → F f = [] →
    a.apply F x f = [] := by
  intro a
  induction a with
  | drop => intro F _ h; exact h
  | set g =>
    intro F hg h
    simp only [guarded, bne_iff_ne, ne_eq] at hg
    simp only [Act.apply, upd, if_neg (fun e : f = g => hg e.symm), h]
  | app g =>
    intro F hg h
    simp only [guarded, bne_iff_ne, ne_eq] at hg
    simp only [Act.apply, upd, if_neg (fun e : f = g => hg e.symm), h]
  | free g r ih =>
    intro F hg h
    simp only [guarded, Bool.and_eq_true, bne_iff_ne, ne_eq] at hg
    simp only [Act.apply]
    split
    · simp only [upd, if_neg (fun e : f = g => hg.1 e.symm), h]
    · exact ih F hg.2 h
  | ifset g r ih =>
    intro F hg h
    simp only [Act.apply]
    split
    · exact ih F hg h
    · rename_i hne
      have hfg : f ≠ g := by intro e; subst e; rw [h] at hne; exact hne rfl
      simp only [upd, if_neg hfg, h]

theorem classify_guarded {ι : Type} (io : IEOps ι) (rules : List Rule) (d : Act) (f : Nat)
    (hr : rules.all (fun r => guarded f r.act) = true) (hd : guarded f d = true) (xs : List ι) :
    Msg.classify io rules d xs f = [] := by
  unfold Msg.classify
  suffices H : ∀ F : Fields ι, F f = [] →
      xs.foldl (fun F x => (Msg.sel rules d (io.typ x).toNat (io.inst x).toNat).apply F x) F f = [] from H _ rfl
  induction xs with
  | nil => intro F h; exact h
  | cons x xs ih =>
    intro F h
    simp only [List.foldl_cons]
    apply ih
    apply apply_guarded _ _ _ _ _ h
    unfold Msg.sel
    split
    · rename_i r hf
      exact (List.all_eq_true.1 hr) r (List.mem_of_find?_eq_some hf)
    · exact hd

/-- the exception is real: whatever is given to the constructor, and whatever is received, the UE MM context of a
Context Response stays empty. -/
theorem C54_v2_never (g : UInt8 → Bool) : V2.Tab.contextResponse.fields[2]? = some "UEMMContext" ∧
    (∀ teid seq ies, (V2.newMessage g V2.Tab.contextResponse teid seq ies).fields 2 = []) ∧
    (∀ b m, V2.parseMsg g b = ok m → m.schema.name = "ContextResponse" → m.fields 2 = []) := by
  refine ⟨rfl, fun teid seq ies => classify_guarded _ _ _ 2 (by decide +kernel) (by decide +kernel) _, ?_⟩
  intro b m h hname
  unfold V2.parseMsg at h
  split at h
  · cases h
  · cases ht : idx b 1 with
    | ok t =>
      simp only [ht, bind_ok] at h
      obtain ⟨hs, xs, hf⟩ := unmarshal_fields h
      have hg : (V2.schemaOf t).unRules.all (fun r => guarded 2 r.act) = true ∧
          guarded 2 (V2.schemaOf t).unDefault = true := by
        have hall : ∀ p ∈ V2.Tab.dispatch, p.2.name = "ContextResponse" →
            p.2.unRules.all (fun r => guarded 2 r.act) = true ∧ guarded 2 p.2.unDefault = true := by decide +kernel
        rw [hs] at hname
        unfold V2.schemaOf at hname ⊢
        split
        · rename_i p hp
          simp only [hp] at hname
          exact hall p (List.mem_of_find?_eq_some hp) hname
        · rename_i hp
          simp only [hp] at hname
          exact absurd hname (show ("Generic" : String) ≠ "ContextResponse" by decide)
      rw [hf]
      exact classify_guarded _ _ _ 2 hg.1 hg.2 _
    | err e => simp [ht] at h
    | «panic» => simp [ht] at h
    | diverge => simp [ht] at h

/-- the field exists in a parsed Context Response, and other fields do get filled -/
example : (V2.newMessage V2.defaultGrouped V2.Tab.contextResponse 1 2 [some V2.exIMSI]).fields 1 = [V2.exIMSI] := rfl

end Verif.FieldTypes

namespace Verif.FieldTypes
open Res Msg
/-! ### cases that meet the hypotheses -/

example := C51_v2_new_partial V2.defaultGrouped V2.Tab.contextResponse (by simp [V2.Tab.all]) 1 2 [none, some V2.exIMSI] 1 "IMSI" rfl (by decide)
  V2.exIMSI (.head _)
example := C51_v2_parse_partial V2.defaultGrouped [0x40, 1, 0, 9, 0, 0, 1, 0, 3, 0, 1, 0, 7] _ rfl 0 "Recovery" rfl (by decide) (.mk 3 1 0 [7] []) (.head _)
example := C51_v1_new V1.Tab.createPDPContextRequest (by simp [V1.Tab.all]) 1 2 [some ⟨133, 4, [10, 0, 0, 1]⟩, none, some ⟨133, 4, [10, 0, 0, 2]⟩]
  (V1.Tab.createPDPContextRequest.fields.idxOf "SGSNAddressForUserTraffic") "SGSNAddressForUserTraffic" rfl ⟨133, 4, [10, 0, 0, 2]⟩ (.head _)
example := C51_v1_parse [0x32, 2, 0, 6, 0, 0, 0, 0, 0xab, 0xcd, 0, 0, 14, 7] _ rfl 0 "Recovery" rfl ⟨14, 0, [7]⟩ (.head _)
example := C51_v0_new V0.Tab.echoResponse (by simp [V0.Tab.all]) 1 2 3 [none, some ⟨14, 0, [7]⟩] 0 "Recovery" rfl ⟨14, 0, [7]⟩ (.head _)
example := C51_v0_parse [0x1e, 2, 0, 2, 0, 1, 0, 2, 0xff, 0xff, 0xff, 0xff, 0, 0, 0, 0, 0, 0, 0, 3, 14, 7] _ rfl 0 "Recovery" rfl ⟨14, 0, [7]⟩ (.head _)
example := C54_v2_partial V2.Tab.contextResponse (by simp [V2.Tab.all]) 1 2 1 "IMSI" rfl (by decide) (by decide)
example := C54_v1 V1.Tab.createPDPContextRequest (by simp [V1.Tab.all]) 1 2 0 "IMSI" rfl (by decide)
example := C54_v0 V0.Tab.echoResponse (by simp [V0.Tab.all]) 1 2 3 0 "Recovery" rfl (by decide)
end Verif.FieldTypes
