import Verif.Props.Typed.Refuse
/-
C105: the accessors without an error result (MustXxx), of all three versions.  Each of the 158 has the body `v, _ := i.Xxx(); return v`
(`must`, Model/Typed/Bits.lean), so the theorems are about `must zero` of the accessor, for every `zero`.
-/
set_option linter.unusedSimpArgs false

namespace Verif.V2
open Res Utils Spec

/-- on every element the call returns: the value of the accessor with an error result if that has one, and the zero value otherwise, in
particular on an element of a type not in `ts` -/
def Tame {α : Type} (ts : List UInt8) (acc : IE → Res α) : Prop := ∀ (zero : α) (i : IE),
  (∃ v, must zero (acc i) = ok v) ∧ (∀ v, acc i = ok v → must zero (acc i) = ok v) ∧ ((∃ e, acc i = err e) → must zero (acc i) = ok zero) ∧
  (i.typ ∉ ts → must zero (acc i) = ok zero)

theorem tame {α : Type} {ts : List UInt8} {acc : IE → Res α} (hr : ∀ i, Returns (acc i)) (hf : Refuses ts acc) : Tame ts acc := by
  intro zero i
  refine ⟨?_, fun v h => by rw [h]; rfl, fun ⟨e, h⟩ => by rw [h]; rfl, fun h => ?_⟩
  · have := hr i
    cases h : acc i with
    | ok v => exact ⟨v, rfl⟩
    | err e => exact ⟨zero, rfl⟩
    | panic => rw [h] at this; simp at this
    | diverge => rw [h] at this; simp at this
  · obtain ⟨e, h⟩ := hf i h
    rw [h]; rfl

variable (g : UInt8 → Bool)

/-- **C105** addresses and tunnel endpoints: `InterfaceType`, `GREKey`, `TEID`, `EBIs`, `IP` (and its text, `IPAddress`, `HSGWAddress`,
`SGWAddress`), `IPv4`, `IPv6` -/
theorem C105_addr : Tame [87] IE.interfaceType ∧ Tame [87, 90] IE.greKey ∧ Tame [87, 91] IE.teid ∧ Tame [90] IE.ebis ∧
    Tame [74, 79, 87, 90, 91] IE.ip ∧ Tame [74, 79, 87, 90, 91] IE.ipv4 ∧ Tame [74, 79, 87, 90, 91] IE.ipv6 := by
  refine ⟨?_, ?_, ?_, ?_, ?_, ?_, ?_⟩ <;> exact tame (fun i => by simp [C48_addr]) (by simp [C76_addr])

/-- **C105** identities and networks: `IMSI`, `MSISDN`, `MobileEquipmentIdentity`, `PLMNID` (type 120), `ServingNetwork` (83), `CNID`,
`TraceID`, `AccessMode`, `MMEGroupID`, `MMECode`, `MTMSI`, `NodeIDType`, `NodeID`, `CSIDs`, `MCC` and `MNC` -/
theorem C105_identity (t : UInt8) : Tame [1] IE.imsi ∧ Tame [76] IE.msisdn ∧ Tame [75] IE.mei ∧ Tame [t] (IE.plmnString t) ∧
    Tame [89] IE.cnid ∧ Tame [115, 96] IE.traceID ∧ Tame [145] IE.accessMode ∧ Tame [117] IE.mmeGroupID ∧ Tame [117] IE.mmeCode ∧
    Tame [117] IE.mtmsi ∧ Tame [132] IE.nodeIDType ∧ Tame [132] IE.nodeID ∧ Tame [132] IE.csids ∧
    Tame [83, 120, 89, 115, 117, 145, 86] IE.plmn := by
  have h := C76_identity [] t
  refine ⟨?_, ?_, ?_, ?_, ?_, ?_, ?_, ?_, ?_, ?_, ?_, ?_, ?_, ?_⟩ <;>
    exact tame (fun i => by have k := C48_plmn i t; simp [C48_identity, k, C48_uli]) (by simp [h])

/-- **C105** quality of service and time -/
theorem C105_qos : Tame [72] IE.ambrUp ∧ Tame [72] IE.ambrDown ∧ Tame [80, 81] IE.mbrUp ∧ Tame [80, 81] IE.mbrDown ∧
    Tame [80, 81] IE.gbrUp ∧ Tame [80, 81] IE.gbrDown ∧ Tame [156] IE.timer ∧ Tame [114] IE.timeZone ∧ Tame [114] IE.daylightSaving ∧
    Tame [170, 179] IE.timestamp ∧ Tame [92] IE.delayValue := by
  have h := C76_qos defaultGrouped
  refine ⟨?_, ?_, ?_, ?_, ?_, ?_, ?_, ?_, ?_, ?_, ?_⟩ <;>
    exact tame (fun i => by have k := C48_qos defaultGrouped i; simp [k, C48_time]) (by simp [h])

/-- **C105** values and flags, Protocol Configuration Options, the offending element of a cause -/
theorem C105_plain : Tame [78, 93] (IE.pco g) ∧ Tame [94, 93] (IE.chargingID g) ∧ Tame [73, 93] (IE.ebi g) ∧ Tame [112] IE.ptmsiSignature ∧
    Tame [147, 145] (IE.csgID g) ∧ Tame [148, 145] (IE.cmi g) ∧ Tame [255] IE.enterpriseID ∧ Tame [255] IE.privateExtension ∧
    Tame [171] (IE.mbmsFlags g) ∧ Tame [97, 93] (IE.bearerFlags g) ∧ Tame [2, 93] (IE.cause g) ∧ Tame [2, 93] (IE.causeFlags g) ∧
    Tame [2] (IE.offendingIE g) ∧ Tame [186] IE.pagingPolicy := by
  have h := C76_plain g
  have hp : ∀ i : IE, Returns (i.pco g) := fun i => (C48_pco_partial g i []).1
  have hm : ∀ i : IE, Returns (i.mbmsFlags g) := fun i => by unfold IE.mbmsFlags; split <;> first | exact valueAsUint8_returns g _ | simp
  have hb : ∀ i : IE, Returns (i.bearerFlags g) := fun i => by
    unfold IE.bearerFlags
    (repeat' split) <;> first | exact valueAsUint8_returns g _ | exact inBearer_returns g i _ (valueAsUint8_returns g) | simp
  refine ⟨?_, ?_, ?_, ?_, ?_, ?_, ?_, ?_, ?_, ?_, ?_, ?_, ?_, ?_⟩ <;>
    exact tame (fun i => by have := C48_plain g i ⟨"", 0, []⟩; simp [this, hp, hm, hb]) (by simp [h])

/-- **C105** the elements that hold one plain value, for every row of the tables -/
theorem C105_tables :
    (∀ r ∈ plain8, ∃ ts, (r.name, ts) ∈ carriers ∧ Tame ts (r.get8 g)) ∧ (∀ r ∈ plain16, ∃ ts, (r.name, ts) ∈ carriers ∧ Tame ts (r.get16 g)) ∧
    (∀ r ∈ plain32, ∃ ts, (r.name, ts) ∈ carriers ∧ Tame ts (r.get32 g)) ∧ (∀ r ∈ plainStr, ∃ ts, (r.name, ts) ∈ carriers ∧ Tame ts (r.getStr g)) ∧
    (∀ r ∈ plainName, ∃ ts, (r.name, ts) ∈ carriers ∧ Tame ts (r.getName g)) := by
  obtain ⟨h1, h2, h3, h4, h5⟩ := C76_tables g
  refine ⟨fun r hr => ?_, fun r hr => ?_, fun r hr => ?_, fun r hr => ?_, fun r hr => ?_⟩
  · obtain ⟨ts, h, k⟩ := h1 r hr; exact ⟨ts, h, tame (fun i => (C48_plain g i r).1) k⟩
  · obtain ⟨ts, h, k⟩ := h2 r hr; exact ⟨ts, h, tame (fun i => (C48_plain g i r).2.1) k⟩
  · obtain ⟨ts, h, k⟩ := h3 r hr; exact ⟨ts, h, tame (fun i => (C48_plain g i r).2.2.1) k⟩
  · obtain ⟨ts, h, k⟩ := h4 r hr; exact ⟨ts, h, tame (fun i => (C48_plain g i r).2.2.2.1) k⟩
  · obtain ⟨ts, h, k⟩ := h5 r hr; exact ⟨ts, h, tame (fun i => (C48_plain g i r).2.2.2.2.1) k⟩

-- an EPS Bearer ID, the value 0 of one, an empty one, and another element
example : must 0 ((newIE 73 0 [5]).ebi defaultGrouped) = ok 5 ∧ must 0 ((newIE 73 0 [0]).ebi defaultGrouped) = ok 0 ∧
    must 0 ((newIE 73 0 []).ebi defaultGrouped) = ok 0 ∧ must 0 ((newIE 3 0 [5]).ebi defaultGrouped) = ok 0 := by decide

end Verif.V2

namespace Verif.TLV
open Res Utils
open V2 (must)

/-- as `V2.Tame` -/
def Tame {α : Type} (ts : List UInt8) (acc : IE → Res α) : Prop := ∀ (zero : α) (i : IE),
  (∃ v, must zero (acc i) = ok v) ∧ (∀ v, acc i = ok v → must zero (acc i) = ok v) ∧ ((∃ e, acc i = err e) → must zero (acc i) = ok zero) ∧
  (i.typ ∉ ts → must zero (acc i) = ok zero)

theorem tame {α : Type} {ts : List UInt8} {acc : IE → Res α} (hr : ∀ i, Returns (acc i)) (hf : Refuses ts acc) : Tame ts acc := by
  intro zero i
  refine ⟨?_, fun v h => by rw [h]; rfl, fun ⟨e, h⟩ => by rw [h]; rfl, fun h => ?_⟩
  · have := hr i
    cases h : acc i with
    | ok v => exact ⟨v, rfl⟩
    | err e => exact ⟨zero, rfl⟩
    | panic => rw [h] at this; simp at this
    | diverge => rw [h] at this; simp at this
  · obtain ⟨e, h⟩ := hf i h
    rw [h]; rfl

/-- **C105** GTPv1; `IP` also stands for its text `IPAddress`, `address 133` for `GSNAddress`, `cell` for `CGI` and `SAC`, `flags` for
`CommonFlags`, `ExtendedCommonFlags` and `ExtendedCommonFlagsII` -/
theorem C105_v1 : Tame [2] IE.imsi ∧ Tame [134] IE.msisdn ∧ Tame [154] IE.imeisv ∧ Tame [16, 17, 18] IE.teid ∧
    Tame [12] IE.ptmsiSignature ∧ Tame [255] IE.extensionIdentifier ∧ Tame [255] IE.extensionValue ∧ Tame [148] (IE.flags 148) ∧
    Tame [193] (IE.flags 193) ∧ Tame [218] (IE.flags 218) ∧ Tame [131] IE.apn1 ∧ Tame [3, 152] IE.mcc1 ∧ Tame [3, 152] IE.mnc1 ∧
    Tame [3, 152] IE.lac1 ∧ Tame [3, 152] IE.rac1 ∧ Tame [152] (IE.cell 0) ∧ Tame [152] (IE.cell 1) ∧ Tame [133] (IE.address 133) ∧
    Tame [128] IE.pdpTypeOrganization ∧ Tame [128] IE.pdpTypeNumber ∧ Tame [128, 133] IE.ip ∧ Tame [153] IE.timeZone ∧
    Tame [153] IE.daylightSaving ∧ Tame [214] IE.timestamp ∧ Tame [9, 136] IE.rand ∧ Tame [9] IE.sres ∧ Tame [9] IE.kc ∧
    Tame [136] IE.quintuplet ∧ Tame [136] IE.ck ∧ Tame [136] IE.ik ∧ Tame [132] IE.pco := by
  refine ⟨?_, ?_, ?_, ?_, ?_, ?_, ?_, ?_, ?_, ?_, ?_, ?_, ?_, ?_, ?_, ?_, ?_, ?_, ?_, ?_, ?_, ?_, ?_, ?_, ?_, ?_, ?_, ?_, ?_, ?_, ?_⟩ <;>
    exact tame (fun i => by
      have h1 := C48_v1_plain i ⟨"", 0⟩ 148 0
      have h2 := C48_v1_plain i ⟨"", 0⟩ 193 0
      have h3 := C48_v1_plain i ⟨"", 0⟩ 218 0
      have h4 := C48_v1_structured i 133 0
      have h5 := C48_v1_structured i 133 1
      simp [C48_identity, h1, h2, h3, h4, h5]) (by simp [C76_v1])

/-- **C105** GTPv0; the accessors it has in common with GTPv1 are in `C105_v1`; `address 251` is `ChargingGatewayAddress` -/
theorem C105_v0 : Tame [18] IE.nsapi0 ∧ Tame [16, 17, 18] IE.flowLabelData ∧ Tame [131] IE.apn0 ∧ Tame [3] IE.mcc0 ∧ Tame [3] IE.mnc0 ∧
    Tame [3] IE.lac0 ∧ Tame [3] IE.rac0 ∧ Tame [251] (IE.address 251) ∧ Tame [6] IE.qosDelay ∧ Tame [6] IE.qosReliability ∧ Tame [6] IE.qosPeak ∧
    Tame [6] IE.qosPrecedence ∧ Tame [6] IE.qosMean := by
  refine ⟨?_, ?_, ?_, ?_, ?_, ?_, ?_, ?_, ?_, ?_, ?_, ?_, ?_⟩ <;>
    exact tame (fun i => by
      have h1 := C48_v1_plain i ⟨"", 0⟩ 0 0
      have h2 := C48_v1_structured i 251 0
      simp [h1, h2]) (by simp [C76_v0])

/-- **C105** the elements of GTPv1 and GTPv0 that hold one plain value, and those read as they are: for any type `t` -/
theorem C105_v1_tables :
    (∀ r ∈ plain8v1, ∃ t, (r.name, t) ∈ carriers1 ∧ Tame [t] r.get8) ∧ (∀ r ∈ plain32v1, ∃ t, (r.name, t) ∈ carriers1 ∧ Tame [t] r.get32) ∧
    (∀ r ∈ plainRawv1, ∃ t, (r.name, t) ∈ carriers1 ∧ Tame [t] r.getRaw) ∧ (∀ r ∈ plain8v0, ∃ t, (r.name, t) ∈ carriers0 ∧ Tame [t] r.get8) ∧
    (∀ r ∈ plain16v0, ∃ t, (r.name, t) ∈ carriers0 ∧ Tame [t] r.get16) ∧ (∀ r ∈ plain32v0, ∃ t, (r.name, t) ∈ carriers0 ∧ Tame [t] r.get32) ∧
    (∀ t, Tame [t] (Plain.getRaw ⟨"", t⟩)) := by
  obtain ⟨h1, h2, -, h4, h5, h6, h7, -, -⟩ := C76_v1_tables
  have hr := fun (i : IE) (r : Plain) => C48_v1_plain i r 0 0
  refine ⟨fun r h => ?_, fun r h => ?_, fun r h => ?_, fun r h => ?_, fun r h => ?_, fun r h => ?_, fun t => ?_⟩
  · obtain ⟨ts, h, k⟩ := h1 r h; exact ⟨ts, h, tame (fun i => (hr i r).1) k⟩
  · obtain ⟨ts, h, k⟩ := h2 r h; exact ⟨ts, h, tame (fun i => (hr i r).2.2.1) k⟩
  · obtain ⟨ts, h, k⟩ := h4 r h; exact ⟨ts, h, tame (fun i => (hr i r).2.2.2.2.1) k⟩
  · obtain ⟨ts, h, k⟩ := h5 r h; exact ⟨ts, h, tame (fun i => (hr i r).1) k⟩
  · obtain ⟨ts, h, k⟩ := h6 r h; exact ⟨ts, h, tame (fun i => (hr i r).2.1) k⟩
  · obtain ⟨ts, h, k⟩ := h7 r h; exact ⟨ts, h, tame (fun i => (hr i r).2.2.1) k⟩
  · exact tame (fun i => (hr i _).2.2.2.2.1) (fun i hn => ⟨.invalidType, by simp only [List.mem_singleton] at hn; simp [Plain.getRaw, hn]⟩)

/-- **C105** `XRES`, which returns the zero value without an error on an empty element -/
theorem C105_xres (i : IE) : (∃ v, must [] i.xres = ok v) ∧ (∀ v, i.xres = ok v → must [] i.xres = ok v) ∧
    ((∃ e, i.xres = err e) → must [] i.xres = ok []) ∧ (i.typ ≠ 136 → must [] i.xres = ok []) := by
  refine ⟨?_, fun v h => by rw [h]; rfl, fun ⟨e, h⟩ => by rw [h]; rfl, fun ht => ?_⟩
  · have := C48_v1_structured i 0 0
    have hx : Returns i.xres := by simp [this]
    cases h : i.xres with
    | ok v => exact ⟨v, rfl⟩
    | err e => exact ⟨[], rfl⟩
    | panic => rw [h] at hx; simp at hx
    | diverge => rw [h] at hx; simp at hx
  · by_cases hp : i.payload = []
    · rw [C76_xres_partial.1 i hp]; rfl
    · rw [C76_xres_partial.2 i hp ht]; rfl

/-- **C105** fails for `AUTN` of GTPv1, and for it alone: it panics on a quintuplet of 50 octets; otherwise it is as the others -/
theorem C105_autn_partial (i : IE) : (must [] i.autn = .panic ↔ i.typ = 136 ∧ i.payload.length = 50) ∧
    (¬ (i.typ = 136 ∧ i.payload.length = 50) → ∃ v, must [] i.autn = ok v) ∧ (∀ v, i.autn = ok v → must [] i.autn = ok v) ∧
    ((∃ e, i.autn = err e) → must [] i.autn = ok []) ∧ (i.typ ≠ 136 → must [] i.autn = ok []) := by
  have hx := C48_autn_partial i
  have hd : ¬ (i.typ = 136 ∧ i.payload.length = 50) → ∃ v, must [] i.autn = ok v := by
    intro h
    have hx := hx.2 h
    cases h : i.autn with
    | ok v => exact ⟨v, rfl⟩
    | err e => exact ⟨[], rfl⟩
    | panic => rw [h] at hx; simp at hx
    | diverge => rw [h] at hx; simp at hx
  refine ⟨⟨fun h => ?_, fun h => ?_⟩, hd, fun v h => by rw [h]; rfl, fun ⟨e, h⟩ => by rw [h]; rfl, fun ht => ?_⟩
  · refine Classical.byContradiction fun hc => ?_
    obtain ⟨v, hv⟩ := hd hc
    rw [hv] at h; exact absurd h (by simp)
  · have hp : i.autn = .panic := by
      rw [IE.autn, if_pos h.1, if_neg (by omega), idx_of_lt (by omega), bind_ok]
      have : idx i.payload 50 = .panic := by simp [idx, h.2]
      simp [this]
    rw [hp]; rfl
  · obtain ⟨e, he⟩ : ∃ e, i.autn = err e := by
      have h := C76_v1
      have k : Refuses [136] IE.autn := by simp [h]
      exact k i (by simpa using ht)
    rw [he]; rfl

-- a TEID of GTPv1, another element asked for one, one octet of it; a quintuplet one octet short and one of 50 octets
example : must 0 (newIE TLV.v1 16 [0, 0, 0, 7]).teid = ok 7 ∧ must 0 (newIE TLV.v1 127 [0, 0, 0, 7]).teid = ok 0 ∧
    must 0 (newIE TLV.v1 16 [9]).teid = ok 0 ∧ must [] (newIE TLV.v1 136 (List.replicate 49 1)).autn = ok [] ∧
    must [] (newIE TLV.v1 136 (List.replicate 50 1)).autn = .panic := by decide

end Verif.TLV
