import Verif.Model.Typed.V1
import Verif.Model.Typed.V1PCO
import Verif.Props.Typed.PCO
import Verif.Proofs.V2Header
import Verif.Props.Typed.Identity
import Verif.Props.Typed.Plmn
import Verif.Props.Typed.Time
/-
Property theorems C58 (plain values and flags of GTPv1 and GTPv0 elements), C59 (structured elements of GTPv1 and GTPv0), and C48
for them.
-/
set_option linter.unusedSimpArgs false
namespace Verif.TLV
open Res Utils NetIP
open V2 (IsPLMN plmn_three uint24_be24 to4_some to16_some to4_4 to16_16 zoneOctet)

/-- the element has this type and payload and survives the wire of its version -/
structure Sent (v : Ver) (i : IE) (t : UInt8) (p : Bytes) : Prop where
  s_typ : i.typ = t
  s_payload : i.payload = p
  s_kept : Kept v i

theorem sent_fixed (v : Ver) {t : UInt8} {p : Bytes} (ht : t.toNat < 128) (hf : v.proto.fixed t = some p.length)
    (h0 : 0 < p.length) : Sent v (newIE v.cfg t p) t p :=
  ⟨by simp, by simp, kept_new v t p (fun _ => ⟨hf, h0⟩) (fun h => by omega)⟩

theorem sent_var (v : Ver) {t : UInt8} {p : Bytes} (ht : 128 ≤ t.toNat) (hs : v.proto.short t = false)
    (h : p.length < 65536) : Sent v (newIE v.cfg t p) t p :=
  ⟨by simp, by simp, kept_new v t p (fun h => by omega) (fun _ => by rw [hs]; simpa using h)⟩

/-- either way -/
theorem sent_any (v : Ver) {t : UInt8} {p : Bytes} (h : (t.toNat < 128 ∧ v.proto.fixed t = some p.length ∧ 0 < p.length) ∨
    (128 ≤ t.toNat ∧ v.proto.short t = false ∧ p.length < 65536)) : Sent v (newIE v.cfg t p) t p := by
  rcases h with ⟨h1, h2, h3⟩ | ⟨h1, h2, h3⟩
  · exact sent_fixed v h1 h2 h3
  · exact sent_var v h1 h2 h3

/-! ### C58: plain values -/

/-- TS 29.060 7.7, TS 09.60 7.9: the type numbers of the elements holding one octet -/
def std8 : Ver → List (String × UInt8)
  | .v1 => [("Cause", 1), ("MAPCause", 11), ("Recovery", 14), ("SelectionMode", 15), ("NSAPI", 20), ("RANAPCause", 21),
      ("APNRestriction", 149), ("RATType", 151)]
  | .v0 => [("Cause", 1), ("Recovery", 14), ("SelectionMode", 15), ("MSNotReachableReason", 19)]
def std16 : Ver → List (String × UInt8)
  | .v1 => []
  | .v0 => [("FlowLabelDataI", 16), ("FlowLabelSignalling", 17)]
def std32 : Ver → List (String × UInt8)
  | .v1 => [("PacketTMSI", 5), ("ChargingID", 127)]
  | .v0 => [("TemporaryLogicalLinkIdentity", 4), ("PacketTMSI", 5), ("ChargingID", 127)]
def stdBool : Ver → List (String × UInt8)
  | .v1 => [("ReorderingRequired", 8), ("MSValidated", 13), ("TeardownInd", 19)]
  | .v0 => [("ReorderingRequired", 8)]

/-- the constructor and accessor pairs of the code -/
def Ver.plain8 : Ver → List Plain | .v1 => plain8v1 | .v0 => plain8v0
def Ver.plain16 : Ver → List Plain | .v1 => [] | .v0 => plain16v0
def Ver.plain32 : Ver → List Plain | .v1 => plain32v1 | .v0 => plain32v0
def Ver.plainBool : Ver → List Plain | .v1 => plainBoolv1 | .v0 => plainBoolv0

def nt (r : Plain) : String × UInt8 := (r.name, r.typ)

/-- the type numbers are those of the standard, and nothing is missing -/
theorem C58_types (v : Ver) : v.plain8.map nt = std8 v ∧ v.plain16.map nt = std16 v ∧ v.plain32.map nt = std32 v ∧
    v.plainBool.map nt = stdBool v := by cases v <;> decide

example : ("RATType", 151) ∈ (Ver.v1.plain8.map nt) ∧ ("RATType", 151) ∉ (Ver.v0.plain8.map nt) := by decide

theorem sent8 (v : Ver) : ∀ r ∈ v.plain8 ++ v.plainBool, (r.typ.toNat < 128 ∧ v.proto.fixed r.typ = some 1) ∨
    (128 ≤ r.typ.toNat ∧ v.proto.short r.typ = false) := by cases v <;> decide
theorem sent16 (v : Ver) : ∀ r ∈ v.plain16, r.typ.toNat < 128 ∧ v.proto.fixed r.typ = some 2 := by cases v <;> decide
theorem sent32 (v : Ver) : ∀ r ∈ v.plain32, r.typ.toNat < 128 ∧ v.proto.fixed r.typ = some 4 := by cases v <;> decide

/-- **C58**, one octet: the accessor of the same name gives the value back, all others refuse the element -/
theorem C58_uint8 (v : Ver) (r : Plain) (hr : r ∈ v.plain8) (x : UInt8) :
    Sent v (r.new8 v.cfg x) r.typ [x] ∧ r.get8 (r.new8 v.cfg x) = ok x ∧
    ∀ r' ∈ v.plain8, r' ≠ r → r'.get8 (r.new8 v.cfg x) = err .invalidType := by
  refine ⟨sent_any v ?_, by simp [Plain.get8, Plain.new8], fun r' hr' hne => ?_⟩
  · rcases sent8 v r (by simp [hr]) with h | h
    · exact .inl ⟨h.1, h.2, by simp⟩
    · exact .inr ⟨h.1, h.2, by simp⟩
  · have : ∀ r ∈ v.plain8, ∀ r' ∈ v.plain8, r' ≠ r → r.typ ≠ r'.typ := by cases v <;> decide
    simp [Plain.get8, Plain.new8, this r hr r' hr' hne]

example : (Plain.new8 TLV.v1 ⟨"RATType", 151⟩ 6).payload = [6] ∧
    Plain.get8 ⟨"RATType", 151⟩ (Plain.new8 TLV.v1 ⟨"RATType", 151⟩ 6) = ok 6 ∧
    Plain.get8 ⟨"Cause", 1⟩ (Plain.new8 TLV.v1 ⟨"RATType", 151⟩ 6) = err .invalidType := by decide

/-- two octets -/
theorem C58_uint16 (v : Ver) (r : Plain) (hr : r ∈ v.plain16) (x : UInt16) :
    Sent v (r.new16 v.cfg x) r.typ (be16 x) ∧ r.get16 (r.new16 v.cfg x) = ok x ∧ (r.new16 v.cfg x).flowLabelData = ok x := by
  have h := sent16 v r hr
  refine ⟨sent_fixed v h.1 (by simpa using h.2) (by simp), by simp [Plain.get16, Plain.new16], ?_⟩
  have : r = ⟨"FlowLabelDataI", 16⟩ ∨ r = ⟨"FlowLabelSignalling", 17⟩ := by
    cases v
    · simpa [Ver.plain16, plain16v0] using hr
    · simp [Ver.plain16] at hr
  rcases this with rfl | rfl <;> simp [IE.flowLabelData, Plain.new16, Plain.get16]

example : (Plain.new16 TLV.v0 ⟨"FlowLabelDataI", 16⟩ 0x1234).payload = [0x12, 0x34] ∧
    Plain.get16 ⟨"FlowLabelDataI", 16⟩ (Plain.new16 TLV.v0 ⟨"FlowLabelDataI", 16⟩ 0x1234) = ok 0x1234 := by decide

/-- four octets -/
theorem C58_uint32 (v : Ver) (r : Plain) (hr : r ∈ v.plain32) (x : UInt32) :
    Sent v (r.new32 v.cfg x) r.typ (be32 x) ∧ r.get32 (r.new32 v.cfg x) = ok x := by
  have h := sent32 v r hr
  exact ⟨sent_fixed v h.1 (by simpa using h.2) (by simp), by simp [Plain.get32, Plain.new32]⟩

example : Plain.get32 ⟨"PacketTMSI", 5⟩ (Plain.new32 TLV.v1 ⟨"PacketTMSI", 5⟩ 0x01020304) = ok 0x01020304 := by decide

/-- truth values: TS 29.060 asks for all spare bits to be 1 and the value in bit 1 -/
theorem C58_bool (v : Ver) (r : Plain) (hr : r ∈ v.plainBool) (x : Bool) :
    Sent v (r.newBool v.cfg x) r.typ [UInt8.ofNat (254 + x.toNat)] ∧ r.getBool (r.newBool v.cfg x) = ok x := by
  have h := sent8 v r (by simp [hr])
  have e : UInt8.ofNat (254 + x.toNat) = if x then (0xff : UInt8) else 0xfe := by cases x <;> rfl
  rw [e]
  constructor
  · refine sent_any v ?_
    rcases h with h | h
    · exact .inl ⟨h.1, h.2, by simp⟩
    · exact .inr ⟨h.1, h.2, by simp⟩
  · cases x <;> simp [Plain.getBool, Plain.newBool]

example : (Plain.newBool TLV.v1 ⟨"TeardownInd", 19⟩ true).payload = [0xff] ∧
    Plain.getBool ⟨"TeardownInd", 19⟩ (Plain.newBool TLV.v1 ⟨"TeardownInd", 19⟩ false) = ok false := by decide

/-- octet strings of GTPv1; the Extension Header Type List has a one octet length -/
theorem C58_raw (r : Plain) (hr : r ∈ plainRawv1) (x : Bytes) (hx : x.length < if r.typ = 141 then 256 else 65536) :
    Sent .v1 (r.newRaw TLV.v1 x) r.typ x ∧ r.getRaw (r.newRaw TLV.v1 x) = ok x := by
  refine ⟨⟨by simp [Plain.newRaw], by simp [Plain.newRaw], ?_⟩, by simp [Plain.getRaw, Plain.newRaw]⟩
  simp only [plainRawv1, List.mem_cons, List.not_mem_nil, or_false] at hr
  rcases hr with rfl | rfl
  · exact kept_new .v1 135 x (fun h => absurd h (by decide)) (fun _ => by simpa [Ver.proto, Spec.v1] using hx)
  · exact kept_new .v1 141 x (fun h => absurd h (by decide)) (fun _ => by simpa [Ver.proto, Spec.v1] using hx)

example : Plain.getRaw ⟨"QoSProfile", 135⟩ (Plain.newRaw TLV.v1 ⟨"QoSProfile", 135⟩ [2, 0x1b, 0x93]) = ok [2, 0x1b, 0x93] := by
  decide

/-- tunnel identifiers of GTPv1 -/
theorem C58_teid (t : UInt8) (ht : t = 16 ∨ t = 17 ∨ t = 18) (x : UInt32) :
    Sent .v1 (newTEID t x) t (be32 x) ∧ (newTEID t x).teid = ok x := by
  rcases ht with rfl | rfl | rfl <;>
    exact ⟨sent_fixed .v1 (by decide) rfl (by simp), by simp [newTEID, IE.teid]⟩

example : (newTEID 16 0xdeadbeef).payload = [0xde, 0xad, 0xbe, 0xef] ∧ (newTEID 16 0xdeadbeef).teid = ok 0xdeadbeef := by decide

/-- flow label data II of GTPv0 (TS 09.60 7.9.16): NSAPI in the low half octet, spare bits 1 -/
theorem C58_flow_label_ii (nsapi : UInt8) (hn : nsapi < 16) (x : UInt16) :
    Sent .v0 (newFlowLabelDataII nsapi x) 18 (UInt8.ofNat (240 + nsapi.toNat) :: be16 x) ∧
    (newFlowLabelDataII nsapi x).nsapi0 = ok nsapi ∧ (newFlowLabelDataII nsapi x).flowLabelData = ok x := by
  have key := forall_byte (p := fun n => n < 16 → n ||| (0xf0 : UInt8) = UInt8.ofNat (240 + n.toNat) ∧
    (n ||| (0xf0 : UInt8)) &&& (0x0f : UInt8) = n) (by decide +kernel) nsapi hn
  obtain ⟨u, w, hu⟩ : ∃ u w, be16 x = [u, w] := ⟨_, _, rfl⟩
  have hx : rd16 [u, w] = ok x := hu ▸ rd16_be16' x
  refine ⟨?_, ?_, ?_⟩
  · rw [← key.1]
    exact sent_fixed .v0 (by decide) rfl (by simp)
  · simp [newFlowLabelDataII, IE.nsapi0, key.2]
  · simp [newFlowLabelDataII, IE.flowLabelData, hu, slice, hx]

example : (newFlowLabelDataII 5 0x0102).payload = [0xf5, 1, 2] ∧ (newFlowLabelDataII 5 0x0102).nsapi0 = ok 5 := by decide

/-- P-TMSI signature (three octets) and private extension; an empty extension value is an error -/
theorem C58_others (v : Ver) (x : UInt32) (hx : x.toNat < 2 ^ 24) (id : UInt16) (val : Bytes) (hv : val.length < 65534) :
    Sent v (newPTMSISignature v.cfg x) 12 (be24 x) ∧ (newPTMSISignature v.cfg x).ptmsiSignature = ok x ∧
    Sent v (newPrivateExtension v.cfg id val) 255 (be16 id ++ val) ∧
    (newPrivateExtension v.cfg id val).extensionIdentifier = ok id ∧
    (newPrivateExtension v.cfg id val).extensionValue = if val = [] then err .eof else ok val := by
  have e := (C03_uint24 x).1
  obtain ⟨u, w, hu⟩ : ∃ u w, be16 id = [u, w] := ⟨_, _, rfl⟩
  have hid : rd16 [u, w] = ok id := hu ▸ rd16_be16' id
  refine ⟨?_, ?_, ?_, ?_, ?_⟩
  · rw [← e]
    refine sent_fixed v (by decide) ?_ (by simp [uint32To24])
    cases v <;> simp [uint32To24, Ver.proto, Spec.v0, Spec.v1]
  · rw [newPTMSISignature, IE.ptmsiSignature, typ_new, payload_new, e, if_neg (by simp), if_neg (by simp), uint24_be24 hx]
  · refine sent_var v (by decide) (by cases v <;> decide) (by simp; omega)
  · simp [newPrivateExtension, IE.extensionIdentifier, hu, slice, hid]
  · rw [newPrivateExtension, IE.extensionValue, typ_new, payload_new, if_neg (by simp)]
    cases val with
    | nil => simp
    | cons a r =>
      rw [if_neg (by simp; omega), sliceFrom_of_le (by simp), hu]
      simp

example : (newPTMSISignature TLV.v1 0xbeebee).payload = [0xbe, 0xeb, 0xee] ∧
    (newPrivateExtension TLV.v0 0x0080 [1, 2]).payload = [0, 0x80, 1, 2] ∧
    (newPrivateExtension TLV.v0 0x0080 []).extensionValue = err .eof := by decide

/-- TS 29.060 7.7.48, 7.7.93, 7.7.118: the flags of each element from bit 8 down to bit 1 -/
def stdFlags : List (UInt8 × List String) := [
  (148, ["IsDualAddressBearer", "IsUpgradeQoSSupported", "IsNRSN", "IsNoQoSNegotiation", "IsMBMSCountingInformation",
    "IsRANProceduresReady", "IsMBMSServiceType", "IsProhibitPayloadCompression"]),
  (193, ["IsUASI", "IsBDWI", "IsPCRI", "IsVB", "IsRetLoc", "IsCPSR", "IsCCRSI", "IsUnauthenticatedIMSI"]),
  (218, ["", "", "", "", "", "IsPMTSMI", "IsDTCI", "IsPNSI"])]

/-- every accessor reads the bit of the flag it is named after: the n-th name from the left is bit 8 - n -/
theorem C58_flag_names : ∀ f ∈ flagTab, ∃ e ∈ stdFlags, e.1 = f.typ ∧ e.2[7 - f.shift.toNat]? = some f.name ∧ f.shift < 8 := by
  decide +kernel
theorem C58_flag_all : ∀ e ∈ stdFlags, ∀ n ∈ e.2, n = "" ∨ ∃ f ∈ flagTab, f.name = n ∧ f.typ = e.1 := by decide +kernel

example : ⟨"IsVB", 193, 4⟩ ∈ flagTab := by decide

/-- Common Flags and Extended Common Flags: the flag given comes back from the accessor of its place -/
theorem C58_flags (t : UInt8) (ht : t = 148 ∨ t = 193) (f : Fin 8 → Bool) :
    let i := newFlags8 t (f 7).toNat (f 6).toNat (f 5).toNat (f 4).toNat (f 3).toNat (f 2).toNat (f 1).toNat (f 0).toNat
    Sent .v1 i t [UInt8.ofNat ((f 7).toNat * 128 + (f 6).toNat * 64 + (f 5).toNat * 32 + (f 4).toNat * 16 + (f 3).toNat * 8 +
      (f 2).toNat * 4 + (f 1).toNat * 2 + (f 0).toNat)] ∧
    ∀ k : Fin 8, i.isFlag t (.ofNat k) = ok (f k) := by
  have key : ∀ a7 a6 a5 a4 a3 a2 a1 a0 : Bool,
      UInt8.ofNat (a7.toNat <<< 7 ||| a6.toNat <<< 6 ||| a5.toNat <<< 5 ||| a4.toNat <<< 4 ||| a3.toNat <<< 3 |||
        a2.toNat <<< 2 ||| a1.toNat <<< 1 ||| a0.toNat) =
      UInt8.ofNat (a7.toNat * 128 + a6.toNat * 64 + a5.toNat * 32 + a4.toNat * 16 + a3.toNat * 8 +
        a2.toNat * 4 + a1.toNat * 2 + a0.toNat) ∧
      ∀ k : Fin 8, ((UInt8.ofNat (a7.toNat * 128 + a6.toNat * 64 + a5.toNat * 32 + a4.toNat * 16 + a3.toNat * 8 +
        a2.toNat * 4 + a1.toNat * 2 + a0.toNat) >>> (.ofNat k)) &&& (0x01 : UInt8) != 0) =
        [a0, a1, a2, a3, a4, a5, a6, a7][k.val] := by decide +kernel
  obtain ⟨k1, k2⟩ := key (f 7) (f 6) (f 5) (f 4) (f 3) (f 2) (f 1) (f 0)
  simp only [newFlags8, k1]
  generalize hb : UInt8.ofNat ((f 7).toNat * 128 + (f 6).toNat * 64 + (f 5).toNat * 32 + (f 4).toNat * 16 + (f 3).toNat * 8 +
        (f 2).toNat * 4 + (f 1).toNat * 2 + (f 0).toNat) = b at *
  refine ⟨?_, fun k => ?_⟩
  · rcases ht with rfl | rfl <;> exact sent_var .v1 (by decide) (by decide) (by simp)
  · have : (newIE TLV.v1 t [b]).isFlag t (.ofNat k) = ok (((b >>> (.ofNat k)) &&& (0x01 : UInt8)) != 0) := by
      simp [IE.isFlag, IE.flags, Plain.get8, V2.must]
    rw [this, k2 k, ok.injEq]
    match k with
    | 0 | 1 | 2 | 3 | 4 | 5 | 6 | 7 => rfl

example : (newFlags8 148 1 0 0 0 0 0 0 1).payload = [0x81] ∧ (newFlags8 148 1 0 0 0 0 0 0 1).isFlag 148 7 = ok true ∧
    (newFlags8 148 1 0 0 0 0 0 0 1).isFlag 148 6 = ok false := by decide

theorem C58_flags_ii (f : Fin 3 → Bool) :
    let i := newFlagsII (f 2).toNat (f 1).toNat (f 0).toNat
    Sent .v1 i 218 [UInt8.ofNat ((f 2).toNat * 4 + (f 1).toNat * 2 + (f 0).toNat)] ∧
    ∀ k : Fin 3, i.isFlag 218 (.ofNat k) = ok (f k) := by
  have key : ∀ a2 a1 a0 : Bool,
      UInt8.ofNat (a2.toNat <<< 2 ||| a1.toNat <<< 1 ||| a0.toNat) = UInt8.ofNat (a2.toNat * 4 + a1.toNat * 2 + a0.toNat) ∧
      ∀ k : Fin 3, ((UInt8.ofNat (a2.toNat * 4 + a1.toNat * 2 + a0.toNat) >>> (.ofNat k)) &&& (0x01 : UInt8) != 0) =
        [a0, a1, a2][k.val] := by decide +kernel
  obtain ⟨k1, k2⟩ := key (f 2) (f 1) (f 0)
  simp only [newFlagsII, k1]
  generalize hb : UInt8.ofNat ((f 2).toNat * 4 + (f 1).toNat * 2 + (f 0).toNat) = b at *
  refine ⟨sent_var .v1 (by decide) (by decide) (by simp), fun k => ?_⟩
  have : (newIE TLV.v1 218 [b]).isFlag 218 (.ofNat k) = ok (((b >>> (.ofNat k)) &&& (0x01 : UInt8)) != 0) := by
    simp [IE.isFlag, IE.flags, Plain.get8, V2.must]
  rw [this, k2 k, ok.injEq]
  match k with
  | 0 | 1 | 2 => rfl

example : (Plain.new32 TLV.v1 ⟨"ChargingID", 127⟩ 0xdeadbeef).payload = [0xde, 0xad, 0xbe, 0xef] ∧
    (newFlags8 148 1 0 0 1 0 0 0 1).payload = [0x91] ∧ (newFlags8 148 1 0 0 1 0 0 0 1).isFlag 148 4 = ok true := by decide

/-- the accessor of each flag of an element built by its constructor, by name -/
theorem C58_flag_get (x : Flag) (hx : x ∈ flagTab) (f : Fin 8 → Bool) (g : Fin 3 → Bool) :
    (x.typ = 218 → ∃ h : x.shift.toNat < 3, x.get (newFlagsII (g 2).toNat (g 1).toNat (g 0).toNat) = ok (g ⟨x.shift.toNat, h⟩)) ∧
    (x.typ ≠ 218 → ∃ h : x.shift.toNat < 8, x.get (newFlags8 x.typ (f 7).toNat (f 6).toNat (f 5).toNat (f 4).toNat (f 3).toNat
      (f 2).toNat (f 1).toNat (f 0).toNat) = ok (f ⟨x.shift.toNat, h⟩)) := by
  have hb : ∀ x ∈ flagTab, (x.typ = 218 ∧ x.shift.toNat < 3) ∨ ((x.typ = 148 ∨ x.typ = 193) ∧ x.shift.toNat < 8) := by
    decide +kernel
  rcases hb x hx with ⟨h1, h2⟩ | ⟨h1, h2⟩
  · refine ⟨fun _ => ⟨h2, ?_⟩, fun h => absurd h1 h⟩
    have := (C58_flags_ii g).2 ⟨x.shift.toNat, h2⟩
    rw [Flag.get, h1]
    simpa using this
  · refine ⟨fun h => ?_, fun _ => ⟨h2, ?_⟩⟩
    · rcases h1 with h1 | h1 <;> rw [h1] at h <;> exact absurd h (by decide)
    · have := (C58_flags x.typ h1 f).2 ⟨x.shift.toNat, h2⟩
      rw [Flag.get]
      simpa using this

example : Flag.get ⟨"IsVB", 193, 4⟩ (newFlags8 193 0 0 0 1 0 0 0 0) = ok true ∧
    Flag.get ⟨"IsVB", 193, 4⟩ (newFlags8 193 1 1 1 0 1 1 1 1) = ok false := by decide

/-! ### C59: access point names -/

theorem apnLoop1_returns (fuel : Nat) : ∀ (b : Bytes) (off : Nat) (acc : List Bytes), b.length - off < fuel →
    Returns (apnLoop1 fuel b off acc) := by
  induction fuel with
  | zero => intro _ _ _ h; omega
  | succ n ih =>
    intro b off acc h
    unfold apnLoop1
    split
    · refine returns_bind_idx (by omega) (fun x => ?_)
      split
      · simp
      · refine returns_bind_slice (by omega) (by omega) (fun s _ => ih _ _ _ (by omega))
    · simp

theorem apnLoop1_eq (ls : List Bytes) : ∀ (fuel : Nat) (pre : Bytes) (acc : List Bytes), (∀ l ∈ ls, l.length ≤ 255) →
    ls.length < fuel → apnLoop1 fuel (pre ++ encLabels ls) pre.length acc = ok (acc ++ ls) := by
  induction ls with
  | nil =>
    intro fuel pre acc _ hf
    match fuel, hf with
    | n + 1, _ => simp [apnLoop1, encLabels]
  | cons l ls ih =>
    intro fuel pre acc hl hf
    match fuel, hf with
    | n + 1, hf =>
      have h255 := hl l (by simp)
      have hn : (UInt8.ofNat l.length).toNat = l.length := by simp; omega
      have e : encLabels (l :: ls) = UInt8.ofNat l.length :: (l ++ encLabels ls) := by simp [encLabels]
      rw [apnLoop1, e, if_pos (by simp), idx_mid rfl, bind_ok, hn, if_neg (by simp; omega)]
      have e2 : pre ++ UInt8.ofNat l.length :: (l ++ encLabels ls) = (pre ++ [UInt8.ofNat l.length]) ++ (l ++ encLabels ls) := by
        simp
      rw [e2, slice_mid (by simp) (by omega), bind_ok]
      have := ih n (pre ++ [UInt8.ofNat l.length] ++ l) (acc ++ [l]) (fun x hx => hl x (by simp [hx])) (by simpa using hf)
      simp only [List.length_append, List.length_cons, List.length_nil] at this
      rw [show pre.length + (l.length + 1) = pre.length + (0 + 1) + l.length by omega]
      simpa using this

/-- **C59**, GTPv1 access point name: labels of up to 255 octets -/
theorem C59_apn_v1 (s : Bytes) (h : ∀ l ∈ splitDot s, l.length ≤ 255) (hl : s.length < 65535) :
    ∃ i, newAPN TLV.v1 s = ok i ∧ Sent .v1 i 131 (encLabels (splitDot s)) ∧ i.apn1 = ok s := by
  have e := encodeFQDN_eq s
  rw [encodeFQDN] at e
  have hlen := length_encLabels_splitDot s
  refine ⟨newIE TLV.v1 131 (encLabels (splitDot s)), by simp [newAPN, e], sent_var .v1 (by decide) (by decide) (by omega), ?_⟩
  have hc : (splitDot s).length < (encLabels (splitDot s)).length + 1 := by
    have : ∀ ls : List Bytes, ls.length ≤ (encLabels ls).length := by
      intro ls
      induction ls with
      | nil => simp
      | cons l ls ih => simp [encLabels] at ih ⊢; omega
    have := this (splitDot s); omega
  have := apnLoop1_eq (splitDot s) _ [] [] h hc
  simp only [List.nil_append, List.length_nil] at this
  rw [IE.apn1, typ_new, payload_new, if_neg (by simp), this, bind_ok, joinDot_splitDot]

example : (newIE TLV.v1 131 [1, 97, 2, 98, 99]).apn1 = ok [97, 46, 98, 99] := by decide

theorem apnLoop0_err (fuel : Nat) : ∀ (b : Bytes) (off : Nat) (acc : List Bytes), off < b.length → b.length - off < fuel →
    apnLoop0 fuel b off acc = err .eof := by
  induction fuel with
  | zero => intro _ _ _ _ h; omega
  | succ n ih =>
    intro b off acc h1 h2
    rw [apnLoop0, if_pos h1, idx_of_lt h1, bind_ok]
    split
    · rfl
    · rename_i h
      rw [slice_of_le (by omega) (by omega), bind_ok]
      exact ih _ _ _ (by omega) (by omega)

/-- GTPv0 access point name: the constructor is right, but the accessor never returns a name, whatever the element -/
theorem C59_apn_v0_partial (s : Bytes) (hl : s.length < 65535) :
    ∃ i, newAPN TLV.v0 s = ok i ∧ Sent .v0 i 131 (encLabels (splitDot s)) := by
  have e := encodeFQDN_eq s
  rw [encodeFQDN] at e
  have hlen := length_encLabels_splitDot s
  exact ⟨newIE TLV.v0 131 (encLabels (splitDot s)), by simp [newAPN, e], sent_var .v0 (by decide) (by decide) (by omega)⟩
theorem C59_apn_v0_never (i : IE) : i.apn0 = err (if i.typ = 131 then .eof else .invalidType) := by
  rw [IE.apn0]
  by_cases ht : i.typ = 131
  · rw [if_neg (by simp [ht]), if_pos ht]
    split
    · rfl
    · rw [apnLoop0_err _ _ _ _ (by omega) (by omega)]; rfl
  · rw [if_pos ht, if_neg ht]

example : newAPN TLV.v1 [97, 46, 98, 99] = ok (newIE TLV.v1 131 [1, 97, 2, 98, 99]) := by decide

/-! ### C59: routeing area, location -/

theorem two_mcc {mcc mnc : Bytes} {a b c : UInt8} (h : decodePLMN [a, b, c] = ok (mcc, mnc)) :
    decodeMCC [a, b] = ok mcc ∧ decodeMNC [b, c] = ok mnc := by
  have e1 : slice [a, b, c] 0 2 = ok [a, b] := rfl
  have e2 : slice [a, b, c] 1 3 = ok [b, c] := rfl
  rw [decodePLMN, e1, e2] at h
  simp only [bind_ok] at h
  cases h1 : decodeMCC [a, b] <;> rw [h1] at h <;> simp only [bind_ok, bind_err, bind_panic, bind_diverge, reduceCtorEq] at h
  cases h2 : decodeMNC [b, c] <;> rw [h2] at h <;> simp only [bind_ok, bind_err, bind_panic, bind_diverge, reduceCtorEq] at h
  simp only [ok.injEq, Prod.mk.injEq] at h ⊢
  exact h

/-- user location with cell (CGI, location type 0) or service area (SAI, 1): all parts come back -/
theorem C59_uli {mcc mnc : Bytes} (h : IsPLMN mcc mnc) (loc : UInt8) (hloc : loc = 0 ∨ loc = 1) (lac x : UInt16) :
    ∃ i, newULI8 loc mcc mnc lac x = ok (some i) ∧ Sent .v1 i 152 (loc :: encPLMN mcc mnc ++ be16 lac ++ be16 x) ∧
      i.mcc1 = ok mcc ∧ i.mnc1 = ok mnc ∧ i.lac1 = ok lac ∧ i.cell loc = ok x ∧ i.cell (1 - loc) = err .invalidType ∧
      i.rac1 = err .invalidType := by
  obtain ⟨a, b, c, e, h1, h2⟩ := plmn_three h
  obtain ⟨hm, hn⟩ := two_mcc h2
  obtain ⟨u, w, hu⟩ : ∃ u w, be16 lac = [u, w] := ⟨_, _, rfl⟩
  obtain ⟨p, q, hp⟩ : ∃ u w, be16 x = [u, w] := ⟨_, _, rfl⟩
  have hul : rd16 [u, w] = ok lac := hu ▸ rd16_be16' lac
  have hpx : rd16 [p, q] = ok x := hp ▸ rd16_be16' x
  rw [e, hu, hp]
  refine ⟨newIE TLV.v1 152 [loc, a, b, c, u, w, p, q], ?_, sent_var .v1 (by decide) (by decide) (by simp), ?_, ?_, ?_, ?_, ?_, ?_⟩
  · simp [newULI8, h1, hu, hp, setAt, copyAt, List.replicate_succ]
  · simp [IE.mcc1, slice, hm]
  · simp [IE.mnc1, slice, hn]
  · simp [IE.lac1, slice, hul]
  · simp [IE.cell, slice, hpx]
  · rcases hloc with rfl | rfl <;> simp [IE.cell] <;> decide
  · rcases hloc with rfl | rfl <;> simp [IE.rac1]

example : ∃ i, newULI8 0 [50, 52, 48] [48, 49] 0x1111 0x2222 = ok (some i) ∧
    i.payload = [0, 0x42, 0xf0, 0x10, 0x11, 0x11, 0x22, 0x22] ∧ i.cell 0 = ok 0x2222 := ⟨_, rfl, by decide, by decide⟩

/-- user location with routeing area (RAI, location type 2) -/
theorem C59_uli_rai {mcc mnc : Bytes} (h : IsPLMN mcc mnc) (lac : UInt16) (rac : UInt8) :
    ∃ i, newULIRAI mcc mnc lac rac = ok (some i) ∧ Sent .v1 i 152 (2 :: encPLMN mcc mnc ++ be16 lac ++ [rac]) ∧
      i.mcc1 = ok mcc ∧ i.mnc1 = ok mnc ∧ i.lac1 = ok lac ∧ i.rac1 = ok rac ∧ i.cell 0 = err .invalidType ∧
      i.cell 1 = err .invalidType := by
  obtain ⟨a, b, c, e, h1, h2⟩ := plmn_three h
  obtain ⟨hm, hn⟩ := two_mcc h2
  obtain ⟨u, w, hu⟩ : ∃ u w, be16 lac = [u, w] := ⟨_, _, rfl⟩
  have hul : rd16 [u, w] = ok lac := hu ▸ rd16_be16' lac
  rw [e, hu]
  refine ⟨newIE TLV.v1 152 [2, a, b, c, u, w, rac], ?_, sent_var .v1 (by decide) (by decide) (by simp), ?_, ?_, ?_, ?_, ?_, ?_⟩
  · simp [newULIRAI, h1, hu, setAt, copyAt, List.replicate_succ]
  · simp [IE.mcc1, slice, hm]
  · simp [IE.mnc1, slice, hn]
  · simp [IE.lac1, slice, hul]
  · simp [IE.rac1]
  · simp [IE.cell]
  · simp [IE.cell]

example : ∃ i, newULIRAI [50, 52, 48] [48, 49] 0x1111 0x22 = ok (some i) ∧
    i.payload = [2, 0x42, 0xf0, 0x10, 0x11, 0x11, 0x22] ∧ i.rac1 = ok 0x22 := ⟨_, rfl, by decide, by decide⟩

/-- Routeing area identity of GTPv1: right for two-digit network codes. Missing: three-digit ones (`C59_rai_v1_wrong`). -/
theorem C59_rai_v1_partial {mcc mnc : Bytes} (h : IsPLMN mcc mnc) (h2 : mnc.length = 2) (lac : UInt16) (rac : UInt8) :
    ∃ i, newRAI1 mcc mnc lac rac = ok (some i) ∧ Sent .v1 i 3 (encPLMN mcc mnc ++ be16 lac ++ [rac]) ∧
      i.mcc1 = ok mcc ∧ i.mnc1 = ok mnc ∧ i.lac1 = ok lac ∧ i.rac1 = ok rac := by
  obtain ⟨a, b, c, e, h1, h3⟩ := plmn_three h
  obtain ⟨hm, hn⟩ := two_mcc h3
  obtain ⟨u, w, hu⟩ : ∃ u w, be16 lac = [u, w] := ⟨_, _, rfl⟩
  have hul : rd16 [u, w] = ok lac := hu ▸ rd16_be16' lac
  have hc := C01_octets mcc h.1
  have hd := C01_octets mnc h.2.1
  have l1 : (tbcd mcc).length = 2 := by rw [length_tbcd, h.2.2.1]
  have l2 : (tbcd mnc).length = 1 := by rw [length_tbcd, h2]
  rw [encodePLMN, hc, hd] at h1
  simp only [bind_ok, h2, if_true, ok.injEq] at h1
  match hx : tbcd mcc, l1, hy : tbcd mnc, l2 with
  | [x, y], _, [z], _ =>
    rw [hx, hy] at h1
    simp only [List.cons_append, List.nil_append, List.cons.injEq, and_true] at h1
    obtain ⟨rfl, rfl, rfl⟩ := h1
    rw [e, hu]
    refine ⟨newIE TLV.v1 3 [x, y, z, u, w, rac], ?_, sent_fixed .v1 (by decide) rfl (by simp), ?_, ?_, ?_, ?_⟩
    · simp [newRAI1, hc, hd, hx, hy, hu, setAt, copyAt, List.replicate_succ]
    · simp [IE.mcc1, slice, hm]
    · simp [IE.mnc1, slice, hn]
    · simp [IE.lac1, slice, hul]
    · simp [IE.rac1]

example : ∃ i, newRAI1 [50, 52, 48] [48, 49] 0x1111 0x22 = ok (some i) ∧
    i.payload = [0x42, 0xf0, 0x10, 0x11, 0x11, 0x22] ∧ i.mnc1 = ok [48, 49] := ⟨_, rfl, by decide, by decide⟩

/-- a three-digit network code loses its last digit -/
theorem C59_rai_v1_wrong {mcc : Bytes} {n1 n2 n3 : UInt8} (hc : Digits mcc) (hm : mcc.length = 3) (hn : Digits [n1, n2, n3])
    (lac : UInt16) (rac : UInt8) :
    ∃ i, newRAI1 mcc [n1, n2, n3] lac rac = ok (some i) ∧ i.mnc1 = ok [n1, n2] ∧ newRAI1 mcc [n1, n2] lac rac = ok (some i) := by
  have hn2 : Digits [n1, n2] := fun c hc => hn c (by simp only [List.mem_cons, List.not_mem_nil, or_false] at hc ⊢; tauto)
  obtain ⟨i, h1, -, -, h4, -⟩ := C59_rai_v1_partial (mcc := mcc) (mnc := [n1, n2]) ⟨hc, hn2, hm, .inl rfl⟩ rfl lac rac
  refine ⟨i, ?_, h4, h1⟩
  rw [← h1, newRAI1, newRAI1, C01_octets _ hc, C01_octets _ hn, C01_octets _ hn2]
  rfl

/-- an empty network code makes the constructor panic -/
theorem C59_rai_v1_panics : newRAI1 [50, 52, 48] [] 1 1 = .panic := by decide

/-- Routeing area identity of GTPv0: the constructor and the area codes are right. Missing: country and network code
(`C59_rai_v0_wrong`). -/
theorem C59_rai_v0_partial {mcc mnc : Bytes} (h : IsPLMN mcc mnc) (lac : UInt16) (rac : UInt8) :
    ∃ i, newRAI0 mcc mnc lac rac = ok (some i) ∧ Sent .v0 i 3 (encPLMN mcc mnc ++ be16 lac ++ [rac]) ∧
      i.lac0 = ok lac ∧ i.rac0 = ok rac := by
  obtain ⟨a, b, c, e, h1, h3⟩ := plmn_three h
  obtain ⟨u, w, hu⟩ : ∃ u w, be16 lac = [u, w] := ⟨_, _, rfl⟩
  have hul : rd16 [u, w] = ok lac := hu ▸ rd16_be16' lac
  rw [e, hu]
  refine ⟨newIE TLV.v0 3 [a, b, c, u, w, rac], ?_, sent_fixed .v0 (by decide) rfl (by simp), ?_, ?_⟩
  · simp [newRAI0, h1, hu, setAt, copyAt, List.replicate_succ]
  · simp [IE.lac0, slice, hul]
  · simp [IE.rac0]

/-- The accessors of GTPv0 return four characters for the country code and one for the network code, so never the codes of any
element. -/
theorem C59_rai_v0_wrong (i : IE) (s : Bytes) : (i.mcc0 = ok s → s.length = 4) ∧ (i.mnc0 = ok s → s.length = 1) := by
  have hs : ∀ b : Bytes, (swap b).length = b.length := fun b => by simp [swap]
  constructor
  · intro h
    rw [IE.mcc0] at h
    split at h
    · split at h
      · simp at h
      · rw [slice_of_le (by omega) (by omega), bind_ok, swappedToStr,
          if_neg (by rw [List.length_take, List.length_drop]; omega)] at h
        simp only [ok.injEq, Bool.false_eq_true, if_false] at h
        rw [← h, V2.length_hexEncode, hs]
        simp; omega
    · simp at h
  · intro h
    rw [IE.mnc0] at h
    split at h
    · split at h
      · simp at h
      · rw [slice_of_le (by omega) (by omega), bind_ok, swappedToStr,
          if_neg (by rw [List.length_take, List.length_drop]; omega)] at h
        simp only [if_true] at h
        obtain ⟨h1, h2, rfl⟩ := slice_ok_iff.mp h
        simp [V2.length_hexEncode, hs]
        omega
    · simp at h

example : ∃ i, newRAI0 [50, 52, 48] [48, 49] 0x1111 0x22 = ok (some i) ∧ i.payload = [0x42, 0xf0, 0x10, 0x11, 0x11, 0x22] ∧
    i.mcc0 = ok [50, 52, 48, 102] ∧ i.mnc0 = ok [48] := ⟨_, rfl, by decide⟩

/-! ### C59: addresses -/

/-- GSN address of GTPv1 -/
theorem C59_gsn_v1 (ip : Bytes) (h : ip.length = 4 ∨ ip.length = 16) :
    ∃ i, newGSNAddress1 ip = some i ∧ Sent .v1 i 133 ((to4 ip).getD ip) ∧ i.address 133 = ok ((to4 ip).getD ip) ∧
      i.ip = ok ((to4 ip).getD ip) := by
  have hne : ip ≠ [] := by rintro rfl; simp at h
  have hl : 4 ≤ ((to4 ip).getD ip).length ∧ ((to4 ip).getD ip).length ≤ 16 := by
    cases hv : to4 ip with
    | none => simp; omega
    | some v => obtain ⟨p, q, r, s, rfl⟩ := to4_some hv; simp
  have e : newGSNAddress1 ip = some (newIE TLV.v1 133 ((to4 ip).getD ip)) := by
    rw [newGSNAddress1, if_neg hne]; cases to4 ip <;> rfl
  have hn : ¬ ((to4 ip).getD ip).length < 4 := by omega
  exact ⟨_, e, sent_var .v1 (by decide) (by decide) (by omega), by simp [IE.address, hn], by simp [IE.ip, hn]⟩

example : newGSNAddress1 [10, 0, 0, 1] = some (newIE TLV.v1 133 [10, 0, 0, 1]) := by decide

/-- GSN address and charging gateway address of GTPv0 -/
theorem C59_address_v0 (t : UInt8) (ht : t = 133 ∨ t = 251) (ip : Bytes) (h : ip.length = 4 ∨ ip.length = 16) :
    Sent .v0 (newAddress0 t ip) t ((to4 ip).getD ip) ∧ (newAddress0 t ip).address t = ok ((to4 ip).getD ip) ∧
      (t = 133 → (newAddress0 t ip).ip = ok ((to4 ip).getD ip)) := by
  have hl : 4 ≤ ((to4 ip).getD ip).length ∧ ((to4 ip).getD ip).length ≤ 16 := by
    cases hv : to4 ip with
    | none => simp; omega
    | some v => obtain ⟨p, q, r, s, rfl⟩ := to4_some hv; simp
  have e : newAddress0 t ip = newIE TLV.v0 t ((to4 ip).getD ip) := by
    rw [newAddress0]; cases to4 ip <;> rfl
  have hn : ¬ ((to4 ip).getD ip).length < 4 := by omega
  rw [e]
  refine ⟨?_, by simp [IE.address, hn], fun h => by subst h; simp [IE.ip, hn]⟩
  rcases ht with rfl | rfl <;> exact sent_var .v0 (by decide) (by decide) (by omega)

example : (newAddress0 251 [10, 0, 0, 1]).address 251 = ok [10, 0, 0, 1] := by decide

def Ver.newEUAddr : Ver → Bytes → Res (Option IE) | .v0 => newEUAddr0 | .v1 => newEUAddr1

/-- End user address, TS 29.060 7.7.27: organisation IETF (0xf1), PDP type number 0x21 with an IPv4 or 0x57 with an IPv6 address.
An address that is an IPv4 address goes as such. -/
theorem C59_eua (v : Ver) (ip : Bytes) (h : ip.length = 4 ∨ ip.length = 16) :
    ∃ i, v.newEUAddr ip = ok (some i) ∧
      Sent v i 128 ([0xf1, if (to4 ip).isSome then 0x21 else 0x57] ++ (to4 ip).getD ip) ∧
      i.pdpTypeOrganization = ok 0xf1 ∧ i.pdpTypeNumber = ok (if (to4 ip).isSome then 0x21 else 0x57) ∧
      i.ip = ok ((to4 ip).getD ip) := by
  have hne : ip ≠ [] := by rintro rfl; simp at h
  cases hv : to4 ip with
  | some a =>
    obtain ⟨p, q, r, s, rfl⟩ := to4_some hv
    refine ⟨newIE v.cfg 128 [0xf1, 0x21, p, q, r, s], ?_, sent_var v (by decide) (by cases v <;> decide) (by simp), ?_, ?_, ?_⟩
    · cases v <;> simp [Ver.newEUAddr, newEUAddr0, newEUAddr1, hne, hv, newEUAddrV4, setAt, copyFrom, copyAt,
        List.replicate_succ, Ver.cfg]
    · simp [IE.pdpTypeOrganization, Plain.get8]
    · simp [IE.pdpTypeNumber]
    · simp [IE.ip, IE.pdpTypeOrganization, Plain.get8, V2.must, sliceFrom]
  | none =>
    have h16 : ip.length = 16 := by
      rcases h with h | h
      · simp [to4, h] at hv
      · exact h
    have e : to16 ip = some ip := to16_16 h16
    obtain ⟨v0, v1, v2, v3, v4, v5, v6, v7, v8, v9, v10, v11, v12, v13, v14, v15, rfl⟩ := to16_some e
    refine ⟨newIE v.cfg 128 [0xf1, 0x57, v0, v1, v2, v3, v4, v5, v6, v7, v8, v9, v10, v11, v12, v13, v14, v15], ?_,
      sent_var v (by decide) (by cases v <;> decide) (by simp), ?_, ?_, ?_⟩
    · cases v <;> simp [Ver.newEUAddr, newEUAddr0, newEUAddr1, hv, newEUAddrV6, setAt, copyFrom, copyAt,
        List.replicate_succ, Ver.cfg]
    · simp [IE.pdpTypeOrganization, Plain.get8]
    · simp [IE.pdpTypeNumber]
    · simp [IE.ip, IE.pdpTypeOrganization, Plain.get8, V2.must, sliceFrom]

/-- the constructors for one kind of address: what is not an address of the kind gives an empty (dynamic) address -/
theorem C59_eua_kinds (v : Ver) (ip : Bytes) :
    (∃ i, newEUAddrIPv4 v.cfg ip = ok i ∧ Sent v i 128 ([0xf1, 0x21] ++ (to4 ip).getD []) ∧
      i.ip = match to4 ip with | some a => ok a | none => err .eof) ∧
    (∃ i, newEUAddrIPv6 v.cfg ip = ok i ∧ Sent v i 128 ([0xf1, 0x57] ++ (to16 ip).getD []) ∧
      i.ip = match to16 ip with | some a => ok a | none => err .eof) := by
  constructor
  · cases hv : to4 ip with
    | some a =>
      obtain ⟨p, q, r, s, rfl⟩ := to4_some hv
      refine ⟨newIE v.cfg 128 [0xf1, 0x21, p, q, r, s], ?_, sent_var v (by decide) (by cases v <;> decide) (by simp), ?_⟩
      · simp [newEUAddrIPv4, hv, newEUAddrV4, setAt, copyFrom, copyAt, List.replicate_succ]
      · simp [IE.ip, IE.pdpTypeOrganization, Plain.get8, V2.must, sliceFrom]
    | none =>
      refine ⟨newIE v.cfg 128 [0xf1, 0x21], by simp [newEUAddrIPv4, hv],
        sent_var v (by decide) (by cases v <;> decide) (by simp), by simp [IE.ip]⟩
  · cases hv : to16 ip with
    | some a =>
      obtain ⟨v0, v1, v2, v3, v4, v5, v6, v7, v8, v9, v10, v11, v12, v13, v14, v15, rfl⟩ := to16_some hv
      refine ⟨newIE v.cfg 128 [0xf1, 0x57, v0, v1, v2, v3, v4, v5, v6, v7, v8, v9, v10, v11, v12, v13, v14, v15], ?_,
        sent_var v (by decide) (by cases v <;> decide) (by simp), ?_⟩
      · simp [newEUAddrIPv6, hv, newEUAddrV6, setAt, copyFrom, copyAt, List.replicate_succ]
      · simp [IE.ip, IE.pdpTypeOrganization, Plain.get8, V2.must, sliceFrom]
    | none =>
      refine ⟨newIE v.cfg 128 [0xf1, 0x57], by simp [newEUAddrIPv6, hv],
        sent_var v (by decide) (by cases v <;> decide) (by simp), by simp [IE.ip]⟩

example : newEUAddrIPv4 TLV.v1 [1, 2, 3] = ok (newIE TLV.v1 128 [0xf1, 0x21]) := by decide

/-- a PPP address: organisation ETSI (0xf0), type 1 — the code sends type number 0xf1 (`C59_eua_ppp_wrong`) -/
theorem C59_eua_ppp_partial (v : Ver) :
    Sent v (newEUAddrPPP v.cfg) 128 [0xf0, 0xf1] ∧ (newEUAddrPPP v.cfg).pdpTypeOrganization = ok 0xf0 ∧
    (newEUAddrPPP v.cfg).ip = err .eof := by
  refine ⟨sent_var v (by decide) (by cases v <;> decide) (by simp), ?_, ?_⟩ <;>
    simp [newEUAddrPPP, IE.pdpTypeOrganization, Plain.get8, IE.ip]
theorem C59_eua_ppp_wrong (v : Ver) : (newEUAddrPPP v.cfg).pdpTypeNumber = ok 0xf1 := by
  simp [newEUAddrPPP, IE.pdpTypeNumber]

example : newEUAddr1 [10, 0, 0, 1] = ok (some (newIE TLV.v1 128 [0xf1, 0x21, 10, 0, 0, 1])) := by decide

/-! ### C59: time -/

theorem C59_time_zone (q : Int) (h1 : -79 ≤ q) (h2 : q ≤ 79) (dst : UInt8) (hd : dst < 4) :
    Sent .v1 (newMSTimeZone q dst) 153 [zoneOctet q, dst] ∧ (newMSTimeZone q dst).timeZone = ok (q * (15 * V2.Duration.minute)) ∧
    (newMSTimeZone q dst).daylightSaving = ok dst := by
  have key : ∀ k : Fin 159, ∀ t : Fin 4,
      newMSTimeZone ((k.val : Int) - 79) (.ofNat t) = newIE TLV.v1 153 [zoneOctet ((k.val : Int) - 79), .ofNat t] ∧
      (newMSTimeZone ((k.val : Int) - 79) (.ofNat t)).timeZone = ok (((k.val : Int) - 79) * (15 * V2.Duration.minute)) ∧
      (newMSTimeZone ((k.val : Int) - 79) (.ofNat t)).daylightSaving = ok (.ofNat t) := by decide +kernel
  obtain ⟨k, hk, rfl⟩ : ∃ k : Nat, k < 159 ∧ q = (k : Int) - 79 := ⟨(q + 79).toNat, by omega, by omega⟩
  have := key ⟨k, hk⟩ ⟨dst.toNat, hd⟩
  simp only [UInt8.ofNat_toNat] at this
  refine ⟨?_, this.2⟩
  rw [this.1]
  exact sent_var .v1 (by decide) (by decide) (by simp)

example : (newMSTimeZone (-36) 1).payload = [0x6b, 1] ∧ (newMSTimeZone (-36) 1).timeZone = ok (-36 * (15 * V2.Duration.minute)) := by
  decide +kernel

/-- the seconds of every time from 1970 to 2106 come back -/
theorem C59_timestamp_partial (sec : Int) (ns : Nat) (h1 : 0 ≤ sec) (h2 : sec < 4294967296) (h3 : ns < 1000000000) :
    Sent .v1 (newULITimestamp sec ns) 214 (be32 (UInt32.ofNat ((sec + 2208988800) % 4294967296).toNat)) ∧
    (newULITimestamp sec ns).timestamp = ok sec := by
  have hp := V2.C50_timestamp_partial (fun _ => false) sec ns h1 h2 h3 0 rfl
  have e : (newULITimestamp sec ns) = newIE TLV.v1 214 (V2.newULITimestamp sec ns).payload := rfl
  rw [e, hp.2.1]
  refine ⟨sent_var .v1 (by decide) (by decide) (by simp), ?_⟩
  have h5 := hp.2.2.2
  have e2 : (V2.newULITimestamp sec ns) = V2.newIE 170 0 (V2.newULITimestamp sec ns).payload := rfl
  rw [e2, V2.withInstance_new, hp.2.1] at h5
  simp only [V2.IE.timestamp, V2.typ_new, V2.payload_new, length_be32] at h5
  simp only [IE.timestamp, typ_new, payload_new, length_be32]
  simpa using h5

example : (newULITimestamp 1546300800 0).payload = [0xdf, 0xd5, 0x2c, 0x00] ∧
    (newULITimestamp 1546300800 0).timestamp = ok 1546300800 := by decide +kernel

/-- a time before 1970 comes back 2^32 seconds later -/
theorem C59_timestamp_before_1970 : (newULITimestamp (-1) 0).timestamp = ok 4294967295 := by decide +kernel

/-! ### C59: authentication vectors -/

/-- Authentication triplet (TS 29.060 7.7.7) -/
theorem C59_triplet {rand sres kc : Bytes} (h1 : rand.length = 16) (h2 : sres.length = 4) (h3 : kc.length = 8) :
    ∃ i, newTriplet rand sres kc = ok i ∧ Sent .v1 i 9 (rand ++ sres ++ kc) ∧ i.rand = ok rand ∧ i.sres = ok sres ∧
      i.kc = ok kc := by
  have hz : List.replicate 28 (0 : UInt8) = List.replicate 16 0 ++ (List.replicate 4 0 ++ List.replicate 8 0) := rfl
  refine ⟨newIE TLV.v1 9 (rand ++ sres ++ kc), ?_, sent_fixed .v1 (by decide) ?_ (by simp; omega), ?_, ?_, ?_⟩
  · rw [newTriplet, hz, ← List.nil_append (List.replicate 16 0 ++ _)]
    rw [copyAt_append (by rfl) (by omega) (by simp; omega), bind_ok, copyAt_append (by simp; omega) (by omega) (by simp; omega),
      bind_ok, copyAt_append (by simp; omega) (by omega) (by simp; omega), bind_ok]
    simp [h1, h2, h3]
  · simp [h1, h2, h3, Ver.proto, Spec.v1]
  · rw [IE.rand, typ_new, payload_new, if_pos (by simp), if_neg (by simp; omega), ← List.nil_append (rand ++ sres ++ kc),
      List.append_assoc]
    exact slice_mid rfl (by omega)
  · rw [IE.sres, typ_new, payload_new, if_pos (by simp), if_neg (by simp; omega), List.append_assoc]
    exact slice_mid h1.symm (by omega)
  · rw [IE.kc, typ_new, payload_new, if_pos (by simp), if_neg (by simp; omega), ← List.append_nil kc]
    have := slice_mid (pre := rand ++ sres) (mid := kc) (rest := []) (lo := 20) (hi := 28) (by simp; omega) (by omega)
    simpa using this

/-- the payload of an authentication quintuplet (TS 29.060 7.7.35) -/
def encQuintuplet (rand xres ck ik autn : Bytes) : Bytes :=
  rand ++ UInt8.ofNat xres.length :: xres ++ ck ++ ik ++ UInt8.ofNat autn.length :: autn

theorem newQuintuplet_eq {rand xres ck ik autn : Bytes} (h1 : rand.length = 16) (h3 : ck.length = 16) (h4 : ik.length = 16) :
    newQuintuplet rand xres ck ik autn = ok (newIE TLV.v1 136 (encQuintuplet rand xres ck ik autn)) := by
  rw [newQuintuplet, ← List.nil_append (List.replicate _ _)]
  simp only []
  rw [copyAt_append (by rfl) (by omega) (by simp; omega), bind_ok, setAt_append (by simp; omega) (by simp; omega), bind_ok,
    copyAt_append (by simp; omega) rfl (by simp; omega), bind_ok, copyAt_append (by simp; omega) (by omega) (by simp; omega),
    bind_ok, copyAt_append (by simp; omega) (by omega) (by simp; omega), bind_ok,
    setAt_append (by simp; omega) (by simp; omega), bind_ok, copyAt_append (by simp; omega) rfl (by simp; omega), bind_ok]
  simp [encQuintuplet, h1, h3, h4]
  rw [show 17 + xres.length + 16 + 16 + 1 + autn.length - 16 - 1 - xres.length - 16 - 16 - 1 - autn.length = 0 by omega]
  simp

/-- Authentication quintuplet: random number, expected response and keys come back. Missing: the authentication token
(`C59_autn_wrong`). -/
theorem C59_quintuplet_partial {rand xres ck ik autn : Bytes} (h1 : rand.length = 16) (h2 : xres.length < 256)
    (h3 : ck.length = 16) (h4 : ik.length = 16) (h5 : autn.length < 256) :
    ∃ i, newQuintuplet rand xres ck ik autn = ok i ∧ Sent .v1 i 136 (encQuintuplet rand xres ck ik autn) ∧
      i.quintuplet = ok (encQuintuplet rand xres ck ik autn) ∧ i.rand = ok rand ∧ i.xres = ok xres ∧ i.ck = ok ck ∧
      i.ik = ok ik := by
  have hl : (encQuintuplet rand xres ck ik autn).length = 50 + xres.length + autn.length := by
    simp [encQuintuplet]; omega
  have hx : idx (encQuintuplet rand xres ck ik autn) 16 = ok (UInt8.ofNat xres.length) := by
    rw [encQuintuplet, List.append_assoc, List.append_assoc, List.append_assoc, List.cons_append]
    exact idx_mid h1.symm
  have hn := V2.toNat_ofNat8 h2
  refine ⟨_, newQuintuplet_eq h1 h3 h4, sent_var .v1 (by decide) (by decide) (by omega), ?_, ?_, ?_, ?_, ?_⟩
  · simp [IE.quintuplet, hl]
  · rw [IE.rand, typ_new, payload_new, if_pos (by simp), if_neg (by omega), encQuintuplet, List.append_assoc, List.append_assoc,
      List.append_assoc, ← List.nil_append (rand ++ _)]
    exact slice_mid rfl (by omega)
  · rw [IE.xres, typ_new, payload_new, if_neg (by omega), if_pos rfl, if_neg (by omega), hx, bind_ok, hn, if_neg (by omega)]
    have e : encQuintuplet rand xres ck ik autn = (rand ++ [UInt8.ofNat xres.length]) ++
      (xres ++ (ck ++ (ik ++ (UInt8.ofNat autn.length :: autn)))) := by simp [encQuintuplet]
    rw [e]
    exact slice_mid (by simp; omega) (by omega)
  · rw [IE.ck, typ_new, payload_new, if_pos rfl, if_neg (by omega), hx, bind_ok, hn]
    simp only []
    rw [if_neg (by omega)]
    have e : encQuintuplet rand xres ck ik autn = (rand ++ [UInt8.ofNat xres.length] ++ xres) ++
      (ck ++ (ik ++ (UInt8.ofNat autn.length :: autn))) := by simp [encQuintuplet]
    rw [e]
    exact slice_mid (by simp; omega) (by omega)
  · rw [IE.ik, typ_new, payload_new, if_pos rfl, if_neg (by omega), hx, bind_ok, hn]
    simp only []
    rw [if_neg (by omega)]
    have e : encQuintuplet rand xres ck ik autn = (rand ++ [UInt8.ofNat xres.length] ++ xres ++ ck) ++
      (ik ++ (UInt8.ofNat autn.length :: autn)) := by simp [encQuintuplet]
    rw [e]
    exact slice_mid (by simp; omega) (by omega)

/-- Whatever the token accessor returns for such an element is empty or begins with the length octet of the token, so it is never a
token of 16 octets that does not begin with 16. -/
theorem C59_autn_wrong {rand xres ck ik autn s : Bytes} (h1 : rand.length = 16) (h2 : xres.length < 256)
    (h3 : ck.length = 16) (h4 : ik.length = 16) {i : IE} (hi : newQuintuplet rand xres ck ik autn = ok i) (h : i.autn = ok s) :
    s = [] ∨ s.head? = some (UInt8.ofNat autn.length) := by
  rw [newQuintuplet_eq h1 h3 h4, ok.injEq] at hi
  subst hi
  have hx : idx (encQuintuplet rand xres ck ik autn) 16 = ok (UInt8.ofNat xres.length) := by
    rw [encQuintuplet, List.append_assoc, List.append_assoc, List.append_assoc, List.cons_append]
    exact idx_mid h1.symm
  have hn := V2.toNat_ofNat8 h2
  rw [IE.autn, typ_new, payload_new, if_pos rfl] at h
  split at h
  · simp at h
  · rw [hx, bind_ok, hn] at h
    simp only [] at h
    cases hk : idx (encQuintuplet rand xres ck ik autn) 50 with
    | ok k =>
      rw [hk, bind_ok] at h
      split at h
      · simp at h
      · obtain ⟨_, _, rfl⟩ := slice_ok_iff.mp h
        have e : encQuintuplet rand xres ck ik autn = (rand ++ [UInt8.ofNat xres.length] ++ xres ++ ck ++ ik) ++
          (UInt8.ofNat autn.length :: autn) := by simp [encQuintuplet]
        rw [e, List.drop_left' (by simp; omega)]
        cases hk0 : 49 + xres.length + k.toNat - (49 + xres.length) with
        | zero => left; simp
        | succ n => right; simp
    | err e => rw [hk] at h; simp at h
    | «panic» => rw [hk] at h; simp at h
    | diverge => rw [hk] at h; simp at h

/-- the expected response of an empty element of any other type is reported as present and empty -/
theorem C59_xres_any_type (t : UInt8) : (newIE TLV.v1 t []).xres = ok [] := by simp [IE.xres]

example : ∃ i, newTriplet (List.replicate 16 1) [2, 2, 2, 2] (List.replicate 8 3) = ok i ∧ i.sres = ok [2, 2, 2, 2] :=
  ⟨_, rfl, by decide⟩
example : ∃ i, newQuintuplet (List.replicate 16 1) [2, 2, 2, 2] (List.replicate 16 3) (List.replicate 16 4) (List.replicate 16 5) = ok i ∧
    i.xres = ok [2, 2, 2, 2] ∧ i.autn = ok [16, 5, 5, 5] := ⟨_, rfl, by decide⟩

/-! ### C59: quality of service of GTPv0 -/

/-- TS 09.60 7.9.6 and TS 24.008: delay class in bits 4 to 6 of the first octet, reliability in bits 1 to 3; peak throughput in bits 5
to 8 of the second, precedence in bits 1 to 3; mean throughput in bits 1 to 5 of the third. Missing: delay, peak and mean
(`C59_qos_wrong`). -/
theorem C59_qos_partial (delay rel peak prec mean : UInt8) (h1 : delay < 8) (h2 : rel < 8) (h3 : peak < 16) (h4 : prec < 8)
    (h5 : mean < 32) :
    Sent .v0 (newQoS0 delay rel peak prec mean) 6
      [UInt8.ofNat (delay.toNat * 8 + rel.toNat), UInt8.ofNat (peak.toNat * 16 + prec.toNat), mean] ∧
    (newQoS0 delay rel peak prec mean).qosReliability = ok rel ∧ (newQoS0 delay rel peak prec mean).qosPrecedence = ok prec ∧
    (newQoS0 delay rel peak prec mean).qosDelay = ok (delay * 8) ∧ (newQoS0 delay rel peak prec mean).qosPeak = ok (peak * 16) ∧
    (newQoS0 delay rel peak prec mean).qosMean = ok (mean % 16) := by
  have k1 : ∀ a b : Fin 8, ((UInt8.ofNat a &&& (0x07 : UInt8)) <<< 3) ||| (UInt8.ofNat b &&& (0x07 : UInt8)) = UInt8.ofNat (a * 8 + b) ∧
      UInt8.ofNat (a * 8 + b) &&& (0x07 : UInt8) = UInt8.ofNat b ∧ UInt8.ofNat (a * 8 + b) &&& (0x38 : UInt8) = UInt8.ofNat a * 8 := by
    decide +kernel
  have k2 : ∀ a : Fin 16, ∀ b : Fin 8, ((UInt8.ofNat a &&& (0x0f : UInt8)) <<< 4) ||| (UInt8.ofNat b &&& (0x07 : UInt8)) =
      UInt8.ofNat (a * 16 + b) ∧ UInt8.ofNat (a * 16 + b) &&& (0x07 : UInt8) = UInt8.ofNat b ∧
      UInt8.ofNat (a * 16 + b) &&& (0xf0 : UInt8) = UInt8.ofNat a * 16 := by
    decide +kernel
  have k3 := forall_byte (p := fun m => m < 32 → m &&& (0x1f : UInt8) = m ∧ m &&& (0x0f : UInt8) = m % 16) (by decide +kernel) mean h5
  have k1 := k1 ⟨delay.toNat, h1⟩ ⟨rel.toNat, h2⟩
  have k2 := k2 ⟨peak.toNat, h3⟩ ⟨prec.toNat, h4⟩
  simp only [UInt8.ofNat_toNat] at k1 k2
  rw [newQoS0, k1.1, k2.1, k3.1]
  generalize UInt8.ofNat (delay.toNat * 8 + rel.toNat) = a at *
  generalize UInt8.ofNat (peak.toNat * 16 + prec.toNat) = b at *
  refine ⟨sent_fixed .v0 (by decide) rfl (by simp), ?_, ?_, ?_, ?_, ?_⟩ <;>
    simp [IE.qosReliability, IE.qosPrecedence, IE.qosDelay, IE.qosPeak, IE.qosMean, IE.qos0, k1.2, k2.2, k3.2]

example : (newQoS0 4 3 9 2 31).payload = [0x23, 0x92, 0x1f] ∧ (newQoS0 4 3 9 2 31).qosReliability = ok 3 ∧
    (newQoS0 4 3 9 2 31).qosPrecedence = ok 2 := by decide

/-- delay class 4 is read as 32, peak class 9 as 144, and the mean class "best effort" (31) as 15 -/
theorem C59_qos_wrong : (newQoS0 4 3 9 2 31).qosDelay = ok 32 ∧ (newQoS0 4 3 9 2 31).qosPeak = ok 144 ∧
    (newQoS0 4 3 9 2 31).qosMean = ok 15 := by decide

/-! ### C59: protocol configuration options of GTPv1 -/

theorem C59_pco {proto : UInt8} (hp : proto < 8) (opts : List (UInt16 × Bytes)) (ho : ∀ c ∈ opts, c.2.length < 256)
    (hl : (V2.encPCO proto (opts.map (fun c => V2.newContainer c.1 c.2))).length < 65536) :
    ∃ i, newPCO1 proto (opts.map (fun c => V2.newContainer c.1 c.2)) = ok i ∧
      Sent .v1 i 132 (V2.encPCO proto (opts.map (fun c => V2.newContainer c.1 c.2))) ∧
      i.pco = ok ⟨proto, opts.map (fun c => V2.newContainer c.1 c.2)⟩ := by
  have hok : ∀ c ∈ opts.map (fun c => V2.newContainer c.1 c.2), V2.ContainerOK c := by
    intro c hc
    obtain ⟨x, hx, rfl⟩ := List.mem_map.mp hc
    exact V2.newContainer_ok _ (ho x hx)
  generalize opts.map (fun c => V2.newContainer c.1 c.2) = cs at *
  have hm := V2.pco_marshal hp hok
  have hq := V2.pco_parse hp hok
  refine ⟨newIE TLV.v1 132 (V2.encPCO proto cs), ?_, sent_var .v1 (by decide) (by decide) hl, ?_⟩
  · have : PCOPayload.marshalTo ⟨proto, cs⟩ (List.replicate (PCOPayload.marshalLen ⟨proto, cs⟩) 0) =
        (V2.newPCOFields proto cs).marshal := rfl
    rw [newPCO1, this, hm, bind_ok]
  · rw [IE.pco, typ_new, payload_new, if_neg (by simp), parsePCOPayload, if_neg (by simp [V2.encPCO])]
    rw [V2.parsePCO, if_neg (by simp [V2.encPCO])] at hq
    cases h1 : idx (V2.encPCO proto cs) 0 with
    | ok b0 =>
      rw [h1, bind_ok] at hq
      rw [bind_ok]
      cases h2 : V2.getContainers (V2.encPCO proto cs) ((V2.encPCO proto cs).length + 1) 1 with
      | ok ds =>
        rw [h2, bind_ok] at hq
        rw [bind_ok]
        simp only [ok.injEq, V2.PCO.mk.injEq, PCOPayload.mk.injEq] at hq ⊢
        exact hq.2
      | err e => rw [h2] at hq; simp at hq
      | «panic» => rw [h2] at hq; simp at hq
      | diverge => rw [h2] at hq; simp at hq
    | err e => rw [h1] at hq; simp at hq
    | «panic» => rw [h1] at hq; simp at hq
    | diverge => rw [h1] at hq; simp at hq

example : ∃ i, newPCO1 0 [V2.newContainer 0x000d [8, 8, 8, 8]] = ok i ∧ i.payload = [0x80, 0, 0x0d, 4, 8, 8, 8, 8] :=
  ⟨_, rfl, by decide⟩

/-! ### C48 for these elements -/

theorem C48_v1_plain (i : IE) (r : Plain) (t k : UInt8) : Returns (r.get8 i) ∧ Returns (r.get16 i) ∧ Returns (r.get32 i) ∧
    Returns (r.getBool i) ∧ Returns (r.getRaw i) ∧ Returns i.teid ∧ Returns i.nsapi0 ∧ Returns i.flowLabelData ∧
    Returns i.ptmsiSignature ∧ Returns i.extensionIdentifier ∧ Returns i.extensionValue ∧ Returns (i.flags t) ∧
    Returns (i.isFlag t k) := by
  have h8 : ∀ r : Plain, Returns (r.get8 i) := fun r => by unfold Plain.get8; ret
  refine ⟨h8 r, ?_, ?_, ?_, ?_, ?_, ?_, ?_, ?_, ?_, ?_, h8 _, ?_⟩
  · unfold Plain.get16; ret
  · unfold Plain.get32; ret
  · unfold Plain.getBool; ret
  · unfold Plain.getRaw; ret
  · unfold IE.teid; ret
  · unfold IE.nsapi0; ret
  · unfold IE.flowLabelData; ret <;> (unfold Plain.get16; ret)
  · unfold IE.ptmsiSignature; ret
  · unfold IE.extensionIdentifier; ret
  · unfold IE.extensionValue; ret
  · unfold IE.isFlag V2.must
    have h := h8 ⟨"flags", t⟩
    rw [IE.flags]
    cases hx : Plain.get8 ⟨"flags", t⟩ i <;> rw [hx] at h <;> simp_all

example : Plain.get8 ⟨"Cause", 1⟩ (newIE TLV.v1 1 []) = err .eof := by decide

theorem C48_v1_structured (i : IE) (t loc : UInt8) : Returns i.apn1 ∧ Returns i.apn0 ∧ Returns i.mcc1 ∧ Returns i.mnc1 ∧
    Returns i.lac1 ∧ Returns i.rac1 ∧ Returns (i.cell loc) ∧ Returns i.mcc0 ∧ Returns i.mnc0 ∧ Returns i.lac0 ∧ Returns i.rac0 ∧
    Returns (i.address t) ∧ Returns i.pdpTypeOrganization ∧ Returns i.pdpTypeNumber ∧ Returns i.ip ∧ Returns i.timeZone ∧
    Returns i.daylightSaving ∧ Returns i.timestamp ∧ Returns i.rand ∧ Returns i.sres ∧ Returns i.kc ∧ Returns i.quintuplet ∧
    Returns i.xres ∧ Returns i.ck ∧ Returns i.ik ∧ Returns i.qosDelay ∧ Returns i.qosReliability ∧ Returns i.qosPeak ∧
    Returns i.qosPrecedence ∧ Returns i.qosMean ∧ Returns i.pco := by
  have hdec : ∀ s : Bytes, s.length = 2 → Returns (decodeMCC s) ∧ Returns (decodeMNC s) := by
    intro s hs
    match s, hs with
    | [x, y], _ => simp [decodeMCC, decodeMNC, hexEncode]; split <;> simp
  have hq : ∀ k m, Returns (i.qos0 k m) := fun k m => by unfold IE.qos0; ret
  refine ⟨?_, ?_, ?_, ?_, ?_, ?_, ?_, ?_, ?_, ?_, ?_, ?_, ?_, ?_, ?_, ?_, ?_, ?_, ?_, ?_, ?_, ?_, ?_, ?_, ?_, hq _ _, hq _ _, hq _ _,
    hq _ _, hq _ _, ?_⟩
  · unfold IE.apn1; ret
    exact returns_bind (apnLoop1_returns _ _ _ _ (by omega)) (fun _ _ => by simp)
  · rw [C59_apn_v0_never]; simp
  · unfold IE.mcc1
    split
    · split
      · simp
      · exact returns_bind_slice (by omega) (by omega) (fun s h => (hdec s (by omega)).1)
    · split
      · split
        · simp
        · exact returns_bind_slice (by omega) (by omega) (fun s h => (hdec s (by omega)).1)
      · simp
  · unfold IE.mnc1
    split
    · split
      · simp
      · exact returns_bind_slice (by omega) (by omega) (fun s h => (hdec s (by omega)).2)
    · split
      · split
        · simp
        · exact returns_bind_slice (by omega) (by omega) (fun s h => (hdec s (by omega)).2)
      · simp
  · unfold IE.lac1; ret
  · unfold IE.rac1; ret
  · unfold IE.cell; ret
  · unfold IE.mcc0; ret
    exact C01_unpack_returns _ _
  · unfold IE.mnc0; ret
    exact C01_unpack_returns _ _
  · unfold IE.lac0; ret
  · unfold IE.rac0; ret
  · unfold IE.address; ret
  · unfold IE.pdpTypeOrganization Plain.get8; ret
  · unfold IE.pdpTypeNumber; ret
  · unfold IE.ip
    split
    · simp
    · split
      · rename_i hl ht
        rw [IE.pdpTypeOrganization, Plain.get8, if_neg (by simp [ht]), if_neg (by omega), idx_of_lt (by omega)]
        simp only [V2.must, bind_ok]
        ret
      · ret
  · unfold IE.timeZone; ret
  · unfold IE.daylightSaving; ret
  · unfold IE.timestamp; ret
  · unfold IE.rand; ret
  · unfold IE.sres; ret
  · unfold IE.kc; ret
  · unfold IE.quintuplet; ret
  · unfold IE.xres; ret
  · unfold IE.ck; ret
    simp only []; ret
  · unfold IE.ik; ret
    simp only []; ret
  · unfold IE.pco parsePCOPayload
    ret
    exact returns_bind (V2.getContainers_returns _ _ _ (by omega) (by omega)) (fun _ _ => by simp)

-- a label running past the end
example : (newIE TLV.v1 131 [9, 97]).apn1 = err .eof := by decide

/-- the authentication token accessor panics on an element with exactly 50 octets, and only there -/
theorem C48_autn_partial (i : IE) : Returns i.autn ↔ ¬ (i.typ = 136 ∧ i.payload.length = 50) := by
  constructor
  · rintro h ⟨ht, hl⟩
    rw [IE.autn, if_pos ht, if_neg (by omega), idx_of_lt (by omega), bind_ok] at h
    simp only [] at h
    have : idx i.payload 50 = .panic := by simp [idx, hl]
    rw [this] at h
    simp at h
  · intro h
    unfold IE.autn
    split
    · rename_i ht
      have : i.payload.length ≠ 50 := fun e => h ⟨ht, e⟩
      ret
    · simp

example : (newIE TLV.v1 136 (List.replicate 50 0)).autn = .panic ∧ (newIE TLV.v1 136 (List.replicate 10 0)).autn = err .eof := by
  decide +kernel

end Verif.TLV

/-! ### cases that meet the hypotheses -/

namespace Verif.TLV
open Res Utils NetIP
example := C58_uint8 .v1 (Ver.v1.plain8[2]'(by decide)) (List.getElem_mem _) 0xa7
example := C58_uint16 .v0 (Ver.v0.plain16[0]'(by decide)) (List.getElem_mem _) 0xa7b8
example := C58_uint32 .v1 (Ver.v1.plain32[0]'(by decide)) (List.getElem_mem _) 0xa7b8c9da
example := C58_bool .v1 (Ver.v1.plainBool[0]'(by decide)) (List.getElem_mem _) true
example := C58_raw (plainRawv1[0]'(by decide)) (List.getElem_mem _) [1, 2, 3] (by decide)
example := C58_teid 16 (.inl rfl) 0x1020304
example := C58_flow_label_ii 5 (by decide) 0x1234
example := C58_others .v1 0x10203 (by decide) 0x2345 [7, 8] (by decide)
example := C58_flag_names (flagTab[0]'(by decide)) (List.getElem_mem _)
example := C58_flag_all (stdFlags[0]'(by decide)) (List.getElem_mem _) (stdFlags[0].2[0]'(by decide)) (List.getElem_mem _)
example := C58_flags 148 (.inl rfl) (fun k => k == 3)
example := C58_flag_get (flagTab[0]'(by decide)) (List.getElem_mem _) (fun k => k == 3) (fun k => k == 1)
example := C59_apn_v1 [0x66, 0x6f, 46, 0x62] (by decide) (by decide)
example := C59_apn_v0_partial [0x66, 0x6f, 46, 0x62] (by decide)
example := C59_uli (mcc := [48, 48, 49]) (mnc := [48, 49]) (by decide) 1 (.inr rfl) 0x1234 0x5678
example := C59_uli_rai (mcc := [48, 48, 49]) (mnc := [48, 49]) (by decide) 0x1234 0x56
example := C59_rai_v1_partial (mcc := [48, 48, 49]) (mnc := [48, 49]) (by decide) rfl 0x1234 0x56
example := C59_rai_v1_wrong (mcc := [51, 49, 48]) (n1 := 52) (n2 := 49) (n3 := 48) (by decide) rfl (by decide) 0x1234 0x56
example := C59_rai_v0_partial (mcc := [48, 48, 49]) (mnc := [48, 49]) (by decide) 0x1234 0x56
example := C59_gsn_v1 [127, 0, 0, 1] (.inl rfl)
example := C59_gsn_v1 (List.replicate 16 0x20) (.inr rfl)
example := C59_address_v0 133 (.inl rfl) [127, 0, 0, 1] (.inl rfl)
example := C59_eua .v0 (List.replicate 16 0x20) (.inr rfl)
example := C59_time_zone (-20) (by decide) (by decide) 1 (by decide)
example := C59_timestamp_partial 1549065600 500 (by decide) (by decide) (by decide)
example := C59_triplet (rand := List.replicate 16 1) (sres := [1, 2, 3, 4]) (kc := List.replicate 8 3) rfl rfl rfl
example := C59_quintuplet_partial (rand := List.replicate 16 1) (xres := [1, 2, 3, 4]) (ck := List.replicate 16 2) (ik := List.replicate 16 3)
  (autn := List.replicate 16 4) rfl (by decide) rfl rfl (by decide)
example := C59_autn_wrong (rand := List.replicate 16 1) (xres := [1, 2, 3, 4]) (ck := List.replicate 16 2) (ik := List.replicate 16 3)
  (autn := List.replicate 16 4) rfl (by decide) rfl rfl rfl rfl
example := C59_qos_partial 1 2 3 4 5 (by decide) (by decide) (by decide) (by decide) (by decide)
example := C59_pco (proto := 0) (by decide) [(0x8021, [1, 2]), (0x000d, [])] (by decide) (by decide)
end Verif.TLV
