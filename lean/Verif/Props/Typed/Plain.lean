import Verif.Model.Typed.Plain
import Verif.Proofs.Typed.Writes
import Verif.Proofs.V2Grouped
import Verif.Props.Typed.ULI
/-
Property theorems C55 (elements holding one plain value), C56 (Cause, flag elements), C57 (looking inside a Bearer Context),
and C48 for these.
-/
set_option linter.unusedSimpArgs false
namespace Verif.V2
open Res Utils Spec

variable (g : UInt8 → Bool)

/-! ### C55 -/

/-- TS 29.274 table 8.1-1: the type numbers of the elements holding one octet -/
def std8 : List (String × UInt8) := [
  ("Recovery", 3), ("RATType", 82), ("PDNType", 99), ("ProcedureTransactionID", 100), ("HopCounter", 113),
  ("APNRestriction", 127), ("SelectionMode", 128), ("NodeType", 135), ("RFSPIndex", 144), ("ServiceIndicator", 149),
  ("DetachType", 150), ("NodeFeatures", 152)]
def std16 : List (String × UInt8) := [("ChargingCharacteristics", 95), ("PortNumber", 126), ("IntegerNumber", 187)]
def std32 : List (String × UInt8) := [("TMSI", 88), ("PacketTMSI", 111)]
def stdStr : List (String × UInt8) := [("LocalDistinguishedName", 151)]
def stdName : List (String × UInt8) := [("AccessPointName", 71), ("FullyQualifiedDomainName", 136)]

theorem std_eq : plain8.map (fun r => (r.name, r.ctor)) = std8 ∧ plain16.map (fun r => (r.name, r.ctor)) = std16 ∧
    plain32.map (fun r => (r.name, r.ctor)) = std32 ∧ plainStr.map (fun r => (r.name, r.ctor)) = stdStr ∧
    plainName.map (fun r => (r.name, r.ctor)) = stdName := by decide

/-- every accessor accepts the element of its own constructor and rejects those of all the others -/
theorem plain_reads : ∀ r ∈ plain8 ++ plain16 ++ plain32 ++ plainStr ++ plainName,
    ∀ r' ∈ plain8 ++ plain16 ++ plain32 ++ plainStr ++ plainName, r'.acc.contains r.ctor = decide (r' = r) := by
  decide +kernel

theorem read_own {α : Type} {r : Plain} (h : r ∈ plain8 ++ plain16 ++ plain32 ++ plainStr ++ plainName) (n : UInt8)
    (p : Bytes) (k : Res α) : r.read ((newIE r.ctor 0 p).withInstance n) k = k := by
  have := plain_reads r h r h
  rw [Plain.read, withInstance_new, typ_new, if_pos (by simpa using this)]

theorem read_other {α : Type} {r r' : Plain} (h : r ∈ plain8 ++ plain16 ++ plain32 ++ plainStr ++ plainName)
    (h' : r' ∈ plain8 ++ plain16 ++ plain32 ++ plainStr ++ plainName) (hne : r' ≠ r) (n : UInt8)
    (p : Bytes) (k : Res α) : r'.read ((newIE r.ctor 0 p).withInstance n) k = err .invalidType := by
  have := plain_reads r h r' h'
  rw [Plain.read, withInstance_new, typ_new, if_neg (by simp [hne] at this; simp [this])]

/-- what C55 asks of a value `v` put into the element `i` of row `r`: the type number is the standard's, the payload is the
encoding of the value, the element survives the wire, whatever instance it is given, and the accessor gives the value back -/
structure Holds {α : Type} (std : List (String × UInt8)) (r : Plain) (i : IE) (p : Bytes) (get : Plain → IE → Res α) (v : α) :
    Prop where
  h_std : (r.name, i.typ) ∈ std
  h_payload : i.payload = p
  h_carried : ∀ n, Carried g (i.withInstance n)
  h_get : ∀ n, get r (i.withInstance n) = ok v
  h_other : ∀ n, ∀ r' ∈ plain8 ++ plain16 ++ plain32 ++ plainStr ++ plainName, r' ≠ r →
    get r' (i.withInstance n) = err .invalidType

theorem mem_std {l : List Plain} {s : List (String × UInt8)} (h : l.map (fun r => (r.name, r.ctor)) = s) {r : Plain} (hr : r ∈ l) :
    (r.name, r.ctor) ∈ s := by
  rw [← h]; exact List.mem_map.mpr ⟨r, hr, rfl⟩

theorem C55_uint8 (r : Plain) (hr : r ∈ plain8) (hg : g r.ctor = false) (v : UInt8) :
    Holds g std8 r (r.new8 v) [v] (Plain.get8 g) v := by
  have hm : r ∈ plain8 ++ plain16 ++ plain32 ++ plainStr ++ plainName := by simp [hr]
  refine ⟨mem_std std_eq.1 hr, rfl, fun n => ?_, fun n => ?_, fun n r' h' hne => ?_⟩
  · exact carried_new g (by simp) hg
  · rw [Plain.get8, Plain.new8, newUint8IE, read_own hm]
    simp [IE.valueAsUint8, hg]
  · rw [Plain.get8, Plain.new8, newUint8IE, read_other hm h' hne]

example : Plain.get8 defaultGrouped ⟨"RATType", 82, [82]⟩ (Plain.new8 ⟨"RATType", 82, [82]⟩ 6) = ok 6 := by decide

theorem C55_uint16 (r : Plain) (hr : r ∈ plain16) (hg : g r.ctor = false) (v : UInt16) :
    Holds g std16 r (r.new16 v) (be16 v) (Plain.get16 g) v := by
  have hm : r ∈ plain8 ++ plain16 ++ plain32 ++ plainStr ++ plainName := by simp [hr]
  refine ⟨mem_std std_eq.2.1 hr, rfl, fun n => ?_, fun n => ?_, fun n r' h' hne => ?_⟩
  · exact carried_new g (by simp) hg
  · rw [Plain.get16, Plain.new16, newUint16IE, read_own hm]
    have : slice (be16 v) 0 2 = ok (be16 v) := rfl
    simp [IE.valueAsUint16, hg, this]
  · rw [Plain.get16, Plain.new16, newUint16IE, read_other hm h' hne]

example : (Plain.new16 ⟨"PortNumber", 126, [126]⟩ 2123).marshal defaultGrouped = ok [126, 0, 2, 0, 0x08, 0x4b] := by decide

theorem valueAsUint32_new {t : UInt8} (hg : g t = false) (v : UInt32) (n : UInt8) :
    ((newUint32IE t v).withInstance n).valueAsUint32 g = ok v := by
  have : slice (be32 v) 0 4 = ok (be32 v) := rfl
  simp [newUint32IE, IE.valueAsUint32, hg, this]

theorem C55_uint32 (r : Plain) (hr : r ∈ plain32) (hg : g r.ctor = false) (v : UInt32) :
    Holds g std32 r (r.new32 v) (be32 v) (Plain.get32 g) v := by
  have hm : r ∈ plain8 ++ plain16 ++ plain32 ++ plainStr ++ plainName := by simp [hr]
  refine ⟨mem_std std_eq.2.2.1 hr, rfl, fun n => ?_, fun n => ?_, fun n r' h' hne => ?_⟩
  · exact carried_new g (by simp) hg
  · rw [Plain.get32, Plain.new32, newUint32IE, read_own hm]
    exact valueAsUint32_new g hg v n
  · rw [Plain.get32, Plain.new32, newUint32IE, read_other hm h' hne]

example : (Plain.new32 ⟨"PacketTMSI", 111, [111]⟩ 0xdeadbeef).payload = [0xde, 0xad, 0xbe, 0xef] := by decide

theorem C55_string (r : Plain) (hr : r ∈ plainStr) (hg : g r.ctor = false) (v : Bytes) (hl : v.length < 65536) :
    Holds g stdStr r (r.newStr v) v (Plain.getStr g) v := by
  have hm : r ∈ plain8 ++ plain16 ++ plain32 ++ plainStr ++ plainName := by simp [hr]
  refine ⟨mem_std std_eq.2.2.2.1 hr, rfl, fun n => ?_, fun n => ?_, fun n r' h' hne => ?_⟩
  · exact carried_new g hl hg
  · rw [Plain.getStr, Plain.newStr, newStringIE, read_own hm]
    simp [IE.valueAsString, hg]
  · rw [Plain.getStr, Plain.newStr, newStringIE, read_other hm h' hne]

/-- C55 for APN and FQDN: labels of at most 255 octets (the length octet), total fitting the element -/
theorem C55_name (r : Plain) (hr : r ∈ plainName) (hg : g r.ctor = false) (v : Bytes)
    (h : ∀ l ∈ splitDot v, l.length ≤ 255) (hl : v.length < 65535) :
    ∃ i, r.newName v = ok i ∧ Holds g stdName r i (encLabels (splitDot v)) (Plain.getName g) v := by
  have hm : r ∈ plain8 ++ plain16 ++ plain32 ++ plainStr ++ plainName := by simp [hr]
  obtain ⟨b, hb, hlen, hd⟩ := C04_fqdn_round_trip v h
  have hb' : b = encLabels (splitDot v) := by rw [encodeFQDN_eq] at hb; injection hb with hb; exact hb.symm
  refine ⟨newIE r.ctor 0 b, by simp [Plain.newName, newFQDNIE, hb], mem_std std_eq.2.2.2.2 hr, ?_, fun n => ?_, fun n => ?_,
    fun n r' h' hne => ?_⟩
  · rw [payload_new, hb']
  · exact carried_new g (by omega) hg
  · rw [Plain.getName, read_own hm]
    simp [IE.valueAsFQDN, hg, hd]
  · rw [Plain.getName, read_other hm h' hne]

example : Plain.newName ⟨"AccessPointName", 71, [71]⟩ [97, 46, 98, 99] = ok (newIE 71 0 [1, 97, 2, 98, 99]) := by decide

/-- a label longer than 255 octets is not given back -/
theorem C55_name_long : ∃ v : Bytes, (do
    let i ← Plain.newName ⟨"AccessPointName", 71, [71]⟩ v
    Plain.getName defaultGrouped ⟨"AccessPointName", 71, [71]⟩ i) ≠ ok v := by
  exact ⟨List.replicate 256 97, by decide +kernel⟩

/-- the elements of C55 that are not rows of the tables -/
theorem C55_others (v : UInt32) (b : UInt8) (id : UInt16) (x : Bytes) (hx : x.length < 65534) (n : UInt8)
    (h1 : g 94 = false) (h2 : g 73 = false) (h3 : g 112 = false) (h4 : g 147 = false) (h5 : g 148 = false) (h6 : g 255 = false) :
    (newChargingID v).payload = be32 v ∧ Carried g ((newChargingID v).withInstance n) ∧
      ((newChargingID v).withInstance n).chargingID g = ok v ∧
    (b < 16 → (newEBI b).payload = [b]) ∧ Carried g ((newEBI b).withInstance n) ∧
      (b < 16 → ((newEBI b).withInstance n).ebi g = ok b) ∧
    (newPTMSISignature v).payload = be24 v ∧ Carried g ((newPTMSISignature v).withInstance n) ∧
      (v.toNat < 2 ^ 24 → ((newPTMSISignature v).withInstance n).ptmsiSignature = ok v) ∧
    Carried g ((newCSGID v).withInstance n) ∧
      (v.toNat < 2 ^ 27 → (newCSGID v).payload = be32 v ∧ ((newCSGID v).withInstance n).csgID g = ok v) ∧
    (newCMI b).payload = [b] ∧ Carried g ((newCMI b).withInstance n) ∧ ((newCMI b).withInstance n).cmi g = ok b ∧
    ∃ i, newPrivateExtension id x = ok i ∧ i.payload = be16 id ++ x ∧ Carried g (i.withInstance n) ∧
      (i.withInstance n).enterpriseID = ok id ∧
      (i.withInstance n).privateExtension = if x = [] then err .eof else ok x := by
  have hb : b < 16 → b &&& 0x0f = b := forall_byte (p := fun b => b < 16 → b &&& 0x0f = b) (by decide +kernel) b
  have hc : v.toNat < 2 ^ 27 → v &&& 0x7ffffff = v := by
    intro h
    apply UInt32.toNat_inj.mp
    rw [UInt32.toNat_and]
    have := Nat.and_two_pow_sub_one_eq_mod v.toNat 27
    simpa [Nat.mod_eq_of_lt h] using this
  refine ⟨rfl, carried_new g (by simp) h1, ?_, ?_, carried_new g (by simp) h2, ?_, (C03_uint24 v).1, carried_new g (by simp [uint32To24]) h3, ?_,
    carried_new g (by simp) h4, ?_, rfl, carried_new g (by simp) h5, ?_, ?_⟩
  · rw [IE.chargingID, if_pos (by rfl)]; exact valueAsUint32_new g h1 v n
  · intro h; simp [newEBI, newUint8IE, hb h]
  · intro h; rw [IE.ebi, if_pos (by rfl)]; simp [newEBI, newUint8IE, IE.valueAsUint8, hb h, h2]
  · intro h
    have := (C03_uint24 v).2
    rw [Nat.mod_eq_of_lt h] at this
    have e := UInt32.toNat_inj.mp this
    simp only [IE.ptmsiSignature, newPTMSISignature, withInstance_new, typ_new, payload_new, e]
    simp [uint32To24]
  · intro h
    refine ⟨by simp [newCSGID, newUint32IE, hc h], ?_⟩
    rw [IE.csgID, if_pos (by rfl), newCSGID, hc h]; exact valueAsUint32_new g h4 v n
  · rw [IE.cmi, if_pos (by rfl)]; simp [newCMI, newUint8IE, IE.valueAsUint8, h5]
  · have hw : newPrivateExtension id x = ok (newIE 255 0 (be16 id ++ x)) := by
      obtain ⟨p, q, hpq⟩ : ∃ p q, be16 id = [p, q] := ⟨_, _, rfl⟩
      have : List.replicate (2 + x.length) (0 : UInt8) = 0 :: 0 :: List.replicate x.length 0 := by
        rw [Nat.add_comm]; rfl
      simp [newPrivateExtension, this, copyAt, copyFrom, hpq]
      congr 3
      rw [List.drop_eq_nil_of_le (by simp; omega)]; simp
    refine ⟨_, hw, rfl, carried_new g (by simp; omega) h6, ?_, ?_⟩
    · have : slice (be16 id ++ x) 0 2 = ok (be16 id) := by simp [slice]; rfl
      simp [IE.enterpriseID, this]
    · by_cases hx0 : x = []
      · subst hx0; simp [IE.privateExtension]
      · have : 1 ≤ x.length := by cases x <;> simp_all
        have hs : sliceFrom (be16 id ++ x) 2 = ok x := by simp [sliceFrom]; rfl
        rw [IE.privateExtension, withInstance_new, typ_new, payload_new, if_neg (by simp), if_neg (by simp; omega), hs,
          if_neg hx0]

example : ((newEBI 5).withInstance 1).marshal defaultGrouped = ok [73, 0, 1, 1, 5] := by decide
example : (newUint8IE 82 6).marshal defaultGrouped = ok [82, 0, 1, 0, 6] := by decide
example : ⟨"RATType", 82, [82]⟩ ∈ plain8 ∧ Plain.get8 defaultGrouped ⟨"RATType", 82, [82]⟩ (newUint8IE 82 6) = ok 6 := by decide

/-! ### C57: looking inside a Bearer Context -/

/-- a Bearer Context built from well-formed elements whose total size fits -/
theorem bearerContext_new {ies : List IE} (hw : ∀ x ∈ ies, wf g x = true) (hne : ies ≠ []) (n : UInt8) :
    ∃ i, newGrouped g 93 (ies.map some) = ok (some i) ∧ (i.withInstance n).typ = 93 ∧
      (i.withInstance n).bearerContext g = ok ies := by
  have hwf : wfs g ies = true := (wfs_iff g ies).mpr hw
  have hfm : (ies.map some).filterMap id = ies := by induction ies <;> simp_all
  refine ⟨_, newGrouped_eq g 93 _, rfl, ?_⟩
  rw [hfm, rawEncs_wf g ies hwf]
  rw [IE.bearerContext]
  have : 1 ≤ (encs g ies).length := by
    match ies, hne with
    | .mk _ _ _ _ _ :: _, _ => simp [encs, enc]
  rw [if_neg (by simp [IE.withInstance, IE.typ]), if_neg (by simp only [IE.withInstance, IE.payload]; omega)]
  exact parseMulti_encs g ies hwf

/-- what it means to find an element inside a Bearer Context: the first element of the type decides -/
theorem inBearer_eq {α : Type} {i : IE} {ies : List IE} {t : UInt8} {f : IE → Res α} (h : i.bearerContext g = ok ies) :
    inBearer g i t f = match ies.find? (fun c => c.typ == t) with
      | some c => f c
      | none => err .notFound := by
  rw [inBearer, h]; rfl

theorem find_typ {ies pre post : List IE} {c : IE} {t : UInt8} (he : ies = pre ++ c :: post) (hc : c.typ = t)
    (hpre : ∀ x ∈ pre, x.typ ≠ t) : ies.find? (fun c => c.typ == t) = some c := by
  subst he
  rw [List.find?_append, List.find?_eq_none.mpr (by simpa using hpre)]
  simp [List.find?, hc]

theorem find_typ_none {ies : List IE} {t : UInt8} (h : ∀ x ∈ ies, x.typ ≠ t) :
    ies.find? (fun c => c.typ == t) = none := List.find?_eq_none.mpr (by simpa using h)

/-- C57: for a Bearer Context made of any well-formed elements, each accessor that looks inside gives what it gives on the
first element of its type, and "not found" if there is none.  The exception is `CauseFlags`, which gives the cause value of
that element instead of its flags (`C57_causeFlags_wrong`). -/
theorem C57_partial {ies : List IE} (hw : ∀ x ∈ ies, wf g x = true) (hne : ies ≠ []) (n : UInt8) :
    ∃ i, newGrouped g 93 (ies.map some) = ok (some i) ∧
      (∀ pre c post, ies = pre ++ c :: post → (∀ x ∈ pre, x.typ ≠ c.typ) →
        (c.typ = 73 → (i.withInstance n).ebi g = c.ebi g) ∧
        (c.typ = 94 → (i.withInstance n).chargingID g = c.chargingID g) ∧
        (c.typ = 97 → (i.withInstance n).bearerFlags g = c.bearerFlags g) ∧
        (c.typ = 2 → (i.withInstance n).cause g = c.cause g) ∧
        (c.typ = 172 → (i.withInstance n).ranNAS g = c.ranNAS g) ∧
        (c.typ = 80 → (i.withInstance n).bearerQoS g = c.bearerQoS g)) ∧
      ((∀ x ∈ ies, x.typ ≠ 73) → (i.withInstance n).ebi g = err .notFound) ∧
      ((∀ x ∈ ies, x.typ ≠ 94) → (i.withInstance n).chargingID g = err .notFound) ∧
      ((∀ x ∈ ies, x.typ ≠ 97) → (i.withInstance n).bearerFlags g = err .notFound) ∧
      ((∀ x ∈ ies, x.typ ≠ 2) → (i.withInstance n).cause g = err .notFound) ∧
      ((∀ x ∈ ies, x.typ ≠ 172) → (i.withInstance n).ranNAS g = err .notFound) ∧
      ((∀ x ∈ ies, x.typ ≠ 80) → (i.withInstance n).bearerQoS g = err .notFound) := by
  obtain ⟨i, hi, ht, hb⟩ := bearerContext_new g hw hne n
  refine ⟨i, hi, ?_, ?_, ?_, ?_, ?_, ?_, ?_⟩
  · intro pre c post he hpre
    have hf : ∀ t, c.typ = t → ies.find? (fun c => c.typ == t) = some c := by
      rintro t rfl; exact find_typ he rfl hpre
    refine ⟨?_, ?_, ?_, ?_, ?_, ?_⟩ <;> intro hc <;> have hf := hf _ hc
    · simp [IE.ebi, ht, inBearer_eq g hb, hf, hc]
    · simp [IE.chargingID, ht, inBearer_eq g hb, hf, hc]
    · simp [IE.bearerFlags, ht, inBearer_eq g hb, hf, hc]
    · simp [IE.cause, ht, inBearer_eq g hb, hf, hc]
    · simp [IE.ranNAS, ht, inBearer_eq g hb, hf, hc]
    · simp [IE.bearerQoS, ht, hb, hf, hc]
  · intro h; simp [IE.ebi, ht, inBearer_eq g hb, find_typ_none h]
  · intro h; simp [IE.chargingID, ht, inBearer_eq g hb, find_typ_none h]
  · intro h; simp [IE.bearerFlags, ht, inBearer_eq g hb, find_typ_none h]
  · intro h; simp [IE.cause, ht, inBearer_eq g hb, find_typ_none h]
  · intro h; simp [IE.ranNAS, ht, inBearer_eq g hb, find_typ_none h]
  · intro h; simp [IE.bearerQoS, ht, hb, find_typ_none h]

/-- `CauseFlags` of a Bearer Context is the cause value of the Cause element in it, not its flags -/
theorem C57_causeFlags_wrong {i : IE} (ht : i.typ = 93) : i.causeFlags g = i.cause g := by
  simp [IE.causeFlags, IE.cause, ht]

-- a Bearer Context with EBI 6 and a Cause
example : (do
    match ← newGrouped defaultGrouped 93 [some (newEBI 6), some (newCause 64 0 1 0 none)] with
    | some i => do
      let e ← i.ebi defaultGrouped
      let c ← i.cause defaultGrouped
      let fl ← i.causeFlags defaultGrouped
      ok (e, c, fl)
    | none => err .notFound) = ok (6, 64, 64) := by decide

/-! ### C56: Cause and the flag elements -/

/-- spare, PCE, BCE, CS -/
def causeOctet (pce bce cs : UInt8) : UInt8 := UInt8.ofNat (pce.toNat * 4 + bce.toNat * 2 + cs.toNat)

theorem cause_octet : ∀ pce bce cs : UInt8, pce < 2 → bce < 2 → cs < 2 →
    (((pce <<< 2) &&& (0x04 : UInt8)) ||| ((bce <<< 1) &&& (0x02 : UInt8)) ||| (cs &&& (0x01 : UInt8))) =
      causeOctet pce bce cs ∧
    has3rdBit (causeOctet pce bce cs) = (pce == 1) ∧
    has2ndBit (causeOctet pce bce cs) = (bce == 1) ∧
    has1stBit (causeOctet pce bce cs) = (cs == 1) ∧
    (((causeOctet pce bce cs) >>> 2 &&& (1 : UInt8)) == 1) = (pce == 1) ∧
    (((causeOctet pce bce cs) >>> 1 &&& (1 : UInt8)) == 1) = (bce == 1) ∧
    (((causeOctet pce bce cs) &&& (1 : UInt8)) == 1) = (cs == 1) := by
  intro a b c ha hb hc
  have h2 : ∀ x : UInt8, x < 2 → x = 0 ∨ x = 1 := forall_byte (p := fun x => x < 2 → x = 0 ∨ x = 1) (by decide +kernel)
  rcases h2 a ha with rfl | rfl <;> rcases h2 b hb with rfl | rfl <;> rcases h2 c hc with rfl | rfl <;> decide

/-- TS 29.274 8.4: cause value; spare, PCE, BCE, CS; with an offending element its type and four octets in total -/
def encCause (cause pce bce cs : UInt8) (off : Option UInt8) : Bytes :=
  [cause, causeOctet pce bce cs] ++
    match off with
    | none => []
    | some t => [t, 0, 0, 0]

theorem newCause_eq {cause pce bce cs : UInt8} (h1 : pce < 2) (h2 : bce < 2) (h3 : cs < 2) (o : Option IE) :
    newCause cause pce bce cs o = newIE 2 0 (encCause cause pce bce cs (o.map IE.typ)) := by
  have := (cause_octet pce bce cs h1 h2 h3).1
  cases o <;> simp [newCause, encCause, this]

theorem encCause_shape (cause pce bce cs : UInt8) (o : Option UInt8) : ∃ rest,
    encCause cause pce bce cs o = cause :: causeOctet pce bce cs :: rest :=
  ⟨_, rfl⟩

/-- C56 for Cause.  What is right: the wire format, the cause value, `CauseFlags`, `HasPCE`, `IsBearerContextIEError`, the type
of the offending element, errors for an element without one.  What is wrong is said by `C56_cause_flags_wrong`. -/
theorem C56_cause_partial (cause pce bce cs : UInt8) (h1 : pce < 2) (h2 : bce < 2) (h3 : cs < 2) (o : Option IE) (n : UInt8)
    (hg : g 2 = false) :
    let i := newCause cause pce bce cs o
    i.typ = 2 ∧ i.payload = encCause cause pce bce cs (o.map IE.typ) ∧ Carried g (i.withInstance n) ∧
      (i.withInstance n).cause g = ok cause ∧
      (i.withInstance n).causeFlags g = ok (causeOctet pce bce cs) ∧
      (i.withInstance n).hasPCE g = ok (pce == 1) ∧
      (i.withInstance n).isBearerContextIEError = ok (bce == 1) ∧
      (i.withInstance n).offendingIE g = match o with
        | none => err .eof
        | some x => ok (.mk x.typ 0 0 [] []) := by
  obtain ⟨rest, hs⟩ := encCause_shape cause pce bce cs (o.map IE.typ)
  have hnl : ¬ (rest.length + 1 + 1 < 2) := by omega
  obtain ⟨-, f1, -, -, -, f2, -⟩ := cause_octet pce bce cs h1 h2 h3
  simp only [newCause_eq h1 h2 h3]
  have hfl : ((newIE 2 0 (encCause cause pce bce cs (o.map IE.typ))).withInstance n).causeFlags g =
      ok (causeOctet pce bce cs) := by
    simp [IE.causeFlags, hs, idx, hnl]
  refine ⟨rfl, rfl, carried_new g ?_ hg, ?_, hfl, ?_, ?_, ?_⟩
  · cases o <;> simp [encCause]
  · simp [IE.cause, IE.valueAsUint8, hg, hs, idx]
  · rw [IE.hasPCE, hfl, flagOf, f1]
  · simp [IE.isBearerContextIEError, causeBit, hs, idx, hnl, f2]
  · cases o with
    | none => simp [IE.offendingIE, encCause]
    | some x =>
      simp [IE.offendingIE, encCause, slice, parse, parseF, idx]
      have h0 : rd16 [0, 0] = ok 0 := by decide
      rw [h0]
      cases hgx : g x.typ <;> simp [parseMultiF]

/-- what is wrong about Cause: `HasCS` reports the BCE flag, `HasBCE` the CS flag, `IsRemoteCause` the PCE flag (the CS flag
says whether the error was detected by the remote node), `IsPDNConnectionIEError` the CS flag -/
theorem C56_cause_flags_wrong (cause pce bce cs : UInt8) (h1 : pce < 2) (h2 : bce < 2) (h3 : cs < 2) (o : Option IE) :
    let i := newCause cause pce bce cs o
    i.hasCS g = ok (bce == 1) ∧ i.hasBCE g = ok (cs == 1) ∧
      i.isRemoteCause = ok (pce == 1) ∧ i.isPDNConnectionIEError = ok (cs == 1) := by
  obtain ⟨rest, hs⟩ := encCause_shape cause pce bce cs (o.map IE.typ)
  have hnl : ¬ (rest.length + 1 + 1 < 2) := by omega
  obtain ⟨-, -, f2, f3, f4, -, f6⟩ := cause_octet pce bce cs h1 h2 h3
  simp only [newCause_eq h1 h2 h3]
  refine ⟨?_, ?_, ?_, ?_⟩ <;>
    simp [IE.hasCS, IE.hasBCE, IE.causeFlags, IE.isRemoteCause, IE.isPDNConnectionIEError, causeBit, flagOf, hs, idx, hnl, f2, f3, f4, f6]

-- mandatory IE missing (70) in a bearer context, offending EBI
example : (newCause 70 0 1 0 (some (newEBI 5))).marshal defaultGrouped = ok [2, 0, 6, 0, 70, 2, 73, 0, 0, 0] := by decide

/-- TS 29.274 8.32: spare, ASI, Vind, VB, PPC -/
def bearerFlagsOctet (asi vInd vb ppc : Bool) : UInt8 :=
  UInt8.ofNat (asi.toNat * 8 + vInd.toNat * 4 + vb.toNat * 2 + ppc.toNat)

def flag (b : Bool) : UInt8 := if b then 1 else 0

/-- C56 for Bearer Flags, MBMS Flags and Node Features: the octet is the standard's, and the `Has…` accessors report the
flags given -/
theorem C56_bearer_flags (asi vInd vb ppc : Bool) (n : UInt8) (hg : g 97 = false) :
    let i := (newBearerFlags (flag asi) (flag vInd) (flag vb) (flag ppc)).withInstance n
    i.typ = 97 ∧ i.payload = [bearerFlagsOctet asi vInd vb ppc] ∧ Carried g i ∧
      i.bearerFlags g = ok (bearerFlagsOctet asi vInd vb ppc) ∧
      i.hasASI g = ok asi ∧ i.hasVind g = ok vInd ∧ i.hasVB g = ok vb ∧ i.hasPPC g = ok ppc ∧
      i.prohibitCompression g = ok ppc := by
  have hp : newBearerFlags (flag asi) (flag vInd) (flag vb) (flag ppc) = newIE 97 0 [bearerFlagsOctet asi vInd vb ppc] := by
    revert asi vInd vb ppc; decide
  have hv : ((newIE 97 0 [bearerFlagsOctet asi vInd vb ppc]).withInstance n).bearerFlags g =
      ok (bearerFlagsOctet asi vInd vb ppc) := by simp [IE.bearerFlags, IE.valueAsUint8, hg]
  have bits : has4thBit (bearerFlagsOctet asi vInd vb ppc) = asi ∧ has3rdBit (bearerFlagsOctet asi vInd vb ppc) = vInd ∧
      has2ndBit (bearerFlagsOctet asi vInd vb ppc) = vb ∧ has1stBit (bearerFlagsOctet asi vInd vb ppc) = ppc ∧
      ((bearerFlagsOctet asi vInd vb ppc &&& (0x01 : UInt8)) == 1) = ppc := by clear hv hp; revert asi vInd vb ppc; decide
  obtain ⟨b1, b2, b3, b4, b5⟩ := bits
  simp only [hp]
  refine ⟨rfl, rfl, carried_new g (by simp) hg, hv, ?_, ?_, ?_, ?_, ?_⟩
  · simp only [IE.hasASI, hv, flagOf, b1]
  · simp only [IE.hasVind, hv, flagOf, b2]
  · simp only [IE.hasVB, hv, flagOf, b3]
  · simp only [IE.hasPPC, hv, flagOf, b4]
  · simp only [IE.prohibitCompression, hv, flagOf, b5]

theorem flagOf_false {r : Res UInt8} (hr : Returns r) {test : UInt8 → Bool} (h : ∀ v, test v = false) : flagOf r test = ok false := by
  cases r <;> simp_all [flagOf]

theorem and_ne_one : ∀ v : UInt8, ((v &&& (0x08 : UInt8)) == 1) = false ∧ ((v &&& (0x04 : UInt8)) == 1) = false ∧
    ((v &&& (0x02 : UInt8)) == 1) = false :=
  forall_byte (p := fun v => ((v &&& (0x08 : UInt8)) == 1) = false ∧ ((v &&& (0x04 : UInt8)) == 1) = false ∧
    ((v &&& (0x02 : UInt8)) == 1) = false) (by decide +kernel)

/-! ### C48 -/

theorem inBearer_returns {α : Type} (i : IE) (t : UInt8) {f : IE → Res α} (hf : ∀ c, Returns (f c)) :
    Returns (inBearer g i t f) := by
  unfold inBearer
  refine returns_bind (bearerContext_returns g _) (fun _ _ => ?_)
  split
  · exact hf _
  · simp

theorem valueAsUint16_returns (i : IE) : Returns (i.valueAsUint16 g) := by unfold IE.valueAsUint16; ret
theorem valueAsUint32_returns (i : IE) : Returns (i.valueAsUint32 g) := by unfold IE.valueAsUint32; ret
theorem bearerFlags_returns (i : IE) : Returns (i.bearerFlags g) := by
  unfold IE.bearerFlags; ret
  · exact valueAsUint8_returns g _
  · exact inBearer_returns g i 97 (valueAsUint8_returns g)
theorem mbmsFlags_returns (i : IE) : Returns (i.mbmsFlags g) := by
  unfold IE.mbmsFlags; ret; exact valueAsUint8_returns g _

/-- what is wrong about the flags: these three accessors report false for every element of every type and content -/
theorem C56_never_reported (i : IE) : i.activityStatus g = ok false ∧ i.vsrvcc g = ok false ∧ i.voiceBearer g = ok false ∧
    i.localMBMSRelease g = ok false :=
  ⟨flagOf_false (bearerFlags_returns g i) (fun v => (and_ne_one v).1),
    flagOf_false (bearerFlags_returns g i) (fun v => (and_ne_one v).2.1),
    flagOf_false (bearerFlags_returns g i) (fun v => (and_ne_one v).2.2),
    flagOf_false (mbmsFlags_returns g i) (fun v => (and_ne_one v).2.2)⟩

theorem C56_mbms_flags (lmri msri : Bool) (n : UInt8) (hg : g 171 = false) :
    let i := (newMBMSFlags (flag lmri) (flag msri)).withInstance n
    i.typ = 171 ∧ i.payload = [UInt8.ofNat (lmri.toNat * 2 + msri.toNat)] ∧ Carried g i ∧
      i.hasLMRI g = ok lmri ∧ i.hasMSRI g = ok msri ∧ i.mbmsReEstablishment g = ok msri := by
  have hp : newMBMSFlags (flag lmri) (flag msri) = newIE 171 0 [UInt8.ofNat (lmri.toNat * 2 + msri.toNat)] := by
    revert lmri msri; decide
  have hv : ((newIE 171 0 [UInt8.ofNat (lmri.toNat * 2 + msri.toNat)]).withInstance n).mbmsFlags g =
      ok (UInt8.ofNat (lmri.toNat * 2 + msri.toNat)) := by simp [IE.mbmsFlags, IE.valueAsUint8, hg]
  have bits : has2ndBit (UInt8.ofNat (lmri.toNat * 2 + msri.toNat)) = lmri ∧
      has1stBit (UInt8.ofNat (lmri.toNat * 2 + msri.toNat)) = msri ∧
      ((UInt8.ofNat (lmri.toNat * 2 + msri.toNat) &&& (0x01 : UInt8)) == 1) = msri := by clear hv hp; revert lmri msri; decide
  obtain ⟨b1, b2, b3⟩ := bits
  simp only [hp]
  refine ⟨rfl, rfl, carried_new g (by simp) hg, ?_, ?_, ?_⟩
  · simp only [IE.hasLMRI, hv, flagOf, b1]
  · simp only [IE.hasMSRI, hv, flagOf, b2]
  · simp only [IE.mbmsReEstablishment, hv, flagOf, b3]

example : (newMBMSFlags 1 0).payload = [2] ∧ (newMBMSFlags 1 0).hasLMRI defaultGrouped = ok true ∧
    (newMBMSFlags 1 0).hasMSRI defaultGrouped = ok false := by decide

/-- TS 29.274 8.83: PRN, MABR, NTSR, CIOT, S1UN, ETH, MTEDT are bits 1 to 7 -/
theorem C56_node_features (f : UInt8) (n : UInt8) (hg : g 152 = false) :
    ((Plain.new8 ⟨"NodeFeatures", 152, [152]⟩ f).withInstance n).nodeFeatureFlags g =
      (List.range 7).map (fun k => ok (f.toNat.testBit k)) := by
  have hv : ((Plain.new8 ⟨"NodeFeatures", 152, [152]⟩ f).withInstance n).nodeFeatures g = ok f := by
    simp [IE.nodeFeatures, Plain.new8, newUint8IE, IE.valueAsUint8, hg]
  rw [IE.nodeFeatureFlags, hv]
  exact forall_byte (p := fun f => [has1stBit, has2ndBit, has3rdBit, has4thBit, has5thBit, has6thBit, has7thBit].map (flagOf (ok f)) =
    (List.range 7).map (fun k => ok (f.toNat.testBit k))) (by decide +kernel) f

example : (newBearerFlags 0 0 1 1).marshal defaultGrouped = ok [97, 0, 1, 0, 3] := by decide
example : (newBearerFlags 0 0 1 1).voiceBearer defaultGrouped = ok false ∧ (newBearerFlags 0 0 1 1).hasVB defaultGrouped = ok true := by
  decide

/-! ### RAN/NAS Cause, Paging and Service Information (C50) -/

/-- TS 29.274 8.103 -/
theorem C50_ran_nas_partial (p t : UInt8) (c : Bytes) (hp : p < 16) (ht : t < 16) (hc : c ≠ []) (hl : c.length < 65535)
    (n : UInt8) (hg : g 172 = false) :
    ∃ i, newRANNAS p t c = ok (some i) ∧ i.typ = 172 ∧ i.payload = [UInt8.ofNat (p.toNat * 16 + t.toNat)] ++ c ∧
      Carried g (i.withInstance n) ∧ (i.withInstance n).ranNAS g = ok ⟨p, t, c⟩ := by
  have key : ∀ (a b : Fin 16), ((((.ofNat a : UInt8) &&& (0x0f : UInt8)) <<< 4) ||| ((.ofNat b : UInt8) &&& (0x0f : UInt8))) =
      UInt8.ofNat ((UInt8.ofNat a).toNat * 16 + (UInt8.ofNat b).toNat) ∧
      (UInt8.ofNat ((UInt8.ofNat a).toNat * 16 + (UInt8.ofNat b).toNat) &&& (0xf0 : UInt8)) >>> 4 = .ofNat a ∧
      UInt8.ofNat ((UInt8.ofNat a).toNat * 16 + (UInt8.ofNat b).toNat) &&& (0x0f : UInt8) = .ofNat b := by decide +kernel
  have := key ⟨p.toNat, hp⟩ ⟨t.toNat, ht⟩
  simp only [UInt8.ofNat_toNat] at this
  obtain ⟨k1, k2, k3⟩ := this
  generalize UInt8.ofNat (p.toNat * 16 + t.toNat) = o at *
  have h1 : 1 ≤ c.length := by cases c <;> simp_all
  have hm : RANNAS.marshal ⟨p, t, c⟩ = ok ([o] ++ c) := by
    have : List.replicate (1 + c.length) (0 : UInt8) = 0 :: List.replicate c.length 0 := by rw [Nat.add_comm]; rfl
    rw [RANNAS.marshal, this]
    have e : ¬ (c.length + 1 < 1 + c.length) := by omega
    simp [RANNAS.marshalTo, e, setAt, copyFrom, copyAt, k1, List.replicate_succ]
    omega
  refine ⟨newIE 172 0 ([o] ++ c), by simp [newRANNAS, hm, build], rfl, rfl, carried_new g (by simp; omega) hg, ?_⟩
  simp [IE.ranNAS, parseRANNAS, idx, sliceFrom, k2, k3]
  omega

example : newRANNAS 1 2 [0x10] = ok (some (newIE 172 0 [0x12, 0x10])) ∧
    (newIE 172 0 [0x12, 0x10]).ranNAS defaultGrouped = ok ⟨1, 2, [0x10]⟩ := by decide

/-- an element without cause octets is built but cannot be read -/
theorem C50_ran_nas_empty : newRANNAS 1 2 [] = ok (some (newIE 172 0 [0x12])) ∧
    (newIE 172 0 [0x12]).ranNAS defaultGrouped = err .eof := by decide

/-- Paging and Service Information: the element built is right (TS 29.274 8.117) -/
theorem C50_paging_partial (ebi flags ppi : UInt8) (h1 : ebi < 16) (h2 : ppi < 128) (n : UInt8) (hg : g 186 = false) :
    ∃ i, newPaging ebi flags ppi = ok (some i) ∧ i.typ = 186 ∧
      i.payload = [ebi, flags] ++ (if flags.toNat % 2 = 1 then [ppi] else []) ∧ Carried g (i.withInstance n) := by
  have e1 : ebi &&& 0x0f = ebi := forall_byte (p := fun b => b < 16 → b &&& 0x0f = b) (by decide +kernel) ebi h1
  have e2 : ppi &&& 0x7f = ppi := forall_byte (p := fun b => b < 128 → b &&& 0x7f = b) (by decide +kernel) ppi h2
  have e3 : has1stBit flags = decide (flags.toNat % 2 = 1) :=
    forall_byte (p := fun b => has1stBit b = decide (b.toNat % 2 = 1)) (by decide +kernel) flags
  refine ⟨newIE 186 0 ([ebi, flags] ++ (if flags.toNat % 2 = 1 then [ppi] else [])), ?_, rfl, rfl,
    carried_new g (by split <;> simp) hg⟩
  by_cases hf : flags.toNat % 2 = 1 <;>
    simp [newPaging, Paging.marshal, Paging.marshalTo, Paging.marshalLen, e1, e2, e3, hf, setAt, build]

example : newPaging 5 1 9 = ok (some (newIE 186 0 [5, 1, 9])) ∧ newPaging 5 0 9 = ok (some (newIE 186 0 [5, 0])) := by decide

/-- but it is not read back: the flags come from the bearer octet, so the indication is lost for even bearer identities, and for
odd ones without an indication reading fails -/
theorem C50_paging_wrong :
    (∃ i, newPaging 6 1 9 = ok (some i) ∧ i.paging = ok ⟨6, 6, 0⟩ ∧ i.pagingPolicy = err .notFound) ∧
    (∃ i, newPaging 5 0 0 = ok (some i) ∧ i.paging = err .eof ∧ i.pagingPolicy = err .eof) := by
  exact ⟨⟨_, rfl, by decide, by decide⟩, ⟨_, rfl, by decide, by decide⟩⟩

/-- the one case that is read back: odd bearer identity and an indication -/
theorem C50_paging_odd_partial (ebi flags ppi : UInt8) (h1 : ebi < 16) (h2 : ppi < 128) (ho : ebi.toNat % 2 = 1)
    (hf : flags.toNat % 2 = 1) :
    ∃ i, newPaging ebi flags ppi = ok (some i) ∧ i.paging = ok ⟨ebi, ebi, ppi⟩ ∧ i.pagingPolicy = ok ppi := by
  have e1 : ebi &&& 0x0f = ebi := forall_byte (p := fun b => b < 16 → b &&& 0x0f = b) (by decide +kernel) ebi h1
  have e2 : ppi &&& 0x7f = ppi := forall_byte (p := fun b => b < 128 → b &&& 0x7f = b) (by decide +kernel) ppi h2
  have e3 : ∀ x, has1stBit x = decide (x.toNat % 2 = 1) :=
    forall_byte (p := fun b => has1stBit b = decide (b.toNat % 2 = 1)) (by decide +kernel)
  refine ⟨newIE 186 0 [ebi, flags, ppi], ?_, ?_, ?_⟩
  · simp [newPaging, Paging.marshal, Paging.marshalTo, Paging.marshalLen, e1, e2, e3, hf, setAt, build]
  · simp [IE.paging, parsePaging, idx, e1, e2, e3, ho]
  · simp [IE.pagingPolicy, parsePaging, idx, e1, e2, e3, ho]

example : (newIE 186 0 [5, 1, 0x7f]).pagingPolicy = ok 0x7f := by decide

/-- C48 for the readers of this file: whatever the type and payload -/
theorem C48_plain (i : IE) (r : Plain) :
    Returns (r.get8 g i) ∧ Returns (r.get16 g i) ∧ Returns (r.get32 g i) ∧ Returns (r.getStr g i) ∧ Returns (r.getName g i) ∧
    Returns (i.chargingID g) ∧ Returns (i.ebi g) ∧ Returns i.ptmsiSignature ∧ Returns (i.csgID g) ∧ Returns (i.cmi g) ∧
    Returns i.enterpriseID ∧ Returns i.privateExtension ∧ (∀ x ∈ i.nodeFeatureFlags g, Returns x) ∧
    Returns (i.hasMSRI g) ∧ Returns (i.hasLMRI g) ∧ Returns (i.mbmsReEstablishment g) ∧
    Returns (i.hasPPC g) ∧ Returns (i.hasVB g) ∧ Returns (i.hasVind g) ∧ Returns (i.hasASI g) ∧
    Returns (i.prohibitCompression g) ∧ Returns (i.cause g) ∧ Returns (i.causeFlags g) ∧
    Returns (i.hasCS g) ∧ Returns (i.hasBCE g) ∧ Returns (i.hasPCE g) ∧ Returns i.isRemoteCause ∧
    Returns i.isBearerContextIEError ∧ Returns i.isPDNConnectionIEError ∧ Returns (i.offendingIE g) ∧
    Returns (i.ranNAS g) ∧ Returns i.paging ∧ Returns i.pagingPolicy := by
  have fl : ∀ {r : Res UInt8} {t}, Returns r → Returns (flagOf r t) := by
    intro r t h; cases r <;> simp_all [flagOf]
  have hcf : Returns (i.causeFlags g) := by
    unfold IE.causeFlags; ret; exact inBearer_returns g i 2 (valueAsUint8_returns g)
  have hpr : ∀ b, Returns (parseRANNAS b) := fun b => by unfold parseRANNAS; ret
  have hpp : ∀ b, Returns (parsePaging b) := fun b => by unfold parsePaging; ret
  have hcb : ∀ t, Returns (causeBit i t) := fun t => by unfold causeBit; ret
  refine ⟨?_, ?_, ?_, ?_, ?_, ?_, ?_, ?_, ?_, ?_, ?_, ?_, ?_, fl (mbmsFlags_returns g i), fl (mbmsFlags_returns g i),
    fl (mbmsFlags_returns g i), fl (bearerFlags_returns g i), fl (bearerFlags_returns g i), fl (bearerFlags_returns g i),
    fl (bearerFlags_returns g i), fl (bearerFlags_returns g i), ?_, hcf, fl hcf, fl hcf, fl hcf, hcb _, hcb _, hcb _, ?_, ?_, ?_, ?_⟩
  · unfold Plain.get8 Plain.read; ret; exact valueAsUint8_returns g _
  · unfold Plain.get16 Plain.read; ret; exact valueAsUint16_returns g _
  · unfold Plain.get32 Plain.read; ret; exact valueAsUint32_returns g _
  · unfold Plain.getStr Plain.read IE.valueAsString; ret
  · unfold Plain.getName Plain.read IE.valueAsFQDN; ret; exact C04_fqdn_decode_returns _
  · unfold IE.chargingID; ret
    · exact valueAsUint32_returns g _
    · exact inBearer_returns g i 94 (valueAsUint32_returns g)
  · unfold IE.ebi; ret
    · exact valueAsUint8_returns g _
    · exact inBearer_returns g i 73 (valueAsUint8_returns g)
  · unfold IE.ptmsiSignature; ret
  · unfold IE.csgID; ret; exact valueAsUint32_returns g _
  · unfold IE.cmi; ret; exact valueAsUint8_returns g _
  · unfold IE.enterpriseID; ret
  · unfold IE.privateExtension; ret
  · intro x hx
    obtain ⟨t, -, rfl⟩ := List.mem_map.mp hx
    apply fl
    unfold IE.nodeFeatures; ret; exact valueAsUint8_returns g _
  · unfold IE.cause; ret
    · exact valueAsUint8_returns g _
    · exact inBearer_returns g i 2 (valueAsUint8_returns g)
  · unfold IE.offendingIE; ret
    exact (C06_parse_total_lossless g _).1
  · unfold IE.ranNAS; ret
    · exact hpr _
    · exact inBearer_returns g i 172 (fun _ => hpr _)
  · unfold IE.paging; ret; exact hpp _
  · unfold IE.pagingPolicy; ret
    exact returns_bind (hpp _) (fun _ _ => by ret)

example : (newIE 172 0 []).ranNAS defaultGrouped = err .eof := by decide

end Verif.V2

/-! ### cases that meet the hypotheses -/

namespace Verif.V2
open Res
example := C55_uint8 (g := defaultGrouped) (plain8[3]'(by decide)) (List.getElem_mem _) (by decide) 0xa7
example := C55_uint16 (g := defaultGrouped) (plain16[0]'(by decide)) (List.getElem_mem _) (by decide) 0xa7b8
example := C55_uint32 (g := defaultGrouped) (plain32[0]'(by decide)) (List.getElem_mem _) (by decide) 0xa7b8c9da
example := C55_string (g := defaultGrouped) (plainStr[0]'(by decide)) (List.getElem_mem _) (by decide) [0x66, 0x6f, 0x6f] (by decide)
example := C55_name (g := defaultGrouped) (plainName[0]'(by decide)) (List.getElem_mem _) (by decide) [0x66, 0x6f, 0x6f, 46, 0x62] (by decide) (by decide)
example := C55_others (g := defaultGrouped) 0x10203 5 0x2345 [7, 8] (by decide) 1 (by decide) (by decide) (by decide) (by decide) (by decide) (by decide)
example := C57_partial (g := defaultGrouped) (ies := [newEBI 5, newChargingID 9]) (by decide) (by decide) 1
example := C57_causeFlags_wrong (g := defaultGrouped) (i := .mk 93 6 0 [] [newCause 16 1 0 1 none]) rfl
example := C56_cause_partial (g := defaultGrouped) 16 1 0 1 (by decide) (by decide) (by decide) (some (newEBI 5)) 1 (by decide)
example := C56_cause_flags_wrong (g := defaultGrouped) 16 1 0 1 (by decide) (by decide) (by decide) none
example := C56_bearer_flags (g := defaultGrouped) true false true false 1 (by decide)
example := C56_mbms_flags (g := defaultGrouped) true false 1 (by decide)
example := C56_node_features (g := defaultGrouped) 0x35 1 (by decide)
example := C50_ran_nas_partial (g := defaultGrouped) 1 2 [3, 4] (by decide) (by decide) (by decide) (by decide) 1 (by decide)
example := C50_paging_partial (g := defaultGrouped) 5 1 0x33 (by decide) (by decide) 1 (by decide)
example := C50_paging_odd_partial 5 1 0x33 (by decide) (by decide) (by decide) (by decide)
end Verif.V2
