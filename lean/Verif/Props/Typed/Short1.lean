import Verif.Props.Typed.Short
/-
Property theorems C78 for GTPv1 and GTPv0.
-/
set_option linter.unusedSimpArgs false
set_option linter.unusedVariables false

namespace Verif.TLV
open Res Utils
open V2 (oct)

/-- C78 for the accessor `acc` on elements of type `t`: with fewer than `n` octets it returns an error, with `n` or more a
value, and that depends on the first `n` octets only -/
def Reads {α : Type} (t : UInt8) (n : Nat) (acc : IE → Res α) : Prop :=
  (∀ i : IE, i.typ = t → i.payload.length < n → ∃ e, acc i = err e) ∧
  (∀ i : IE, i.typ = t → n ≤ i.payload.length → ∃ v, acc i = ok v) ∧
  (∀ i j : IE, i.typ = t → j.typ = t → n ≤ i.payload.length → j.payload.take n = i.payload.take n → acc j = acc i)

/-- the element with the octets `q` as payload -/
def on (t : UInt8) (q : Bytes) : IE := ⟨t, 0, q⟩
@[simp] theorem on_typ (t : UInt8) (q : Bytes) : (on t q).typ = t := rfl
@[simp] theorem on_payload (t : UInt8) (q : Bytes) : (on t q).payload = q := rfl

theorem reads_of {α : Type} {t : UInt8} {n : Nat} {acc : IE → Res α}
    (hs : ∀ i : IE, i.typ = t → i.payload.length < n → ∃ e, acc i = err e)
    (hf : ∀ i : IE, i.typ = t → n ≤ i.payload.length → n ≤ (i.payload.take n).length → acc i = acc (on t (i.payload.take n)))
    (hv : ∀ q : Bytes, q.length = n → n ≤ q.length → ∃ v, acc (on t q) = ok v) : Reads t n acc := by
  refine ⟨hs, fun i ht hl => ?_, fun i j hi hj hl h => ?_⟩
  · obtain ⟨v, hv⟩ := hv (i.payload.take n) (by simp [hl]) (by simp [hl])
    exact ⟨v, by rw [hf i ht hl (by simp [hl]), hv]⟩
  · have : n ≤ j.payload.length := by
      have := congrArg List.length h
      simp only [List.length_take] at this
      omega
    rw [hf i hi hl (by simp [hl]), hf j hj this (by simp [this]), h]

/-- the three parts of `Reads` for an accessor given by its definitions -/
local macro "reads" "[" ls:Lean.Parser.Tactic.simpLemma,* "]" : tactic => `(tactic| (
  refine reads_of ?_ ?_ ?_
  · first
      | (intro i ht hl; have h0 : i.payload = [] := List.eq_nil_of_length_eq_zero (by omega); simp [ht, h0, $ls,*]; done)
      | (intro i ht hl; simp [ht, hl, $ls,*]; done)
      | (intro i ht hl; simp [ht, hl, $ls,*]; ((repeat' split) <;> first | simp | omega); done)
      | (intro i ht hl
         rcases Nat.lt_or_ge i.payload.length 3 with h3 | h3
         · simp [ht, h3, $ls,*]
         · simp (disch := first | omega | decide | (simp; done) | (simp; omega)) [ht, $ls,*, plmn_at h3, decodePLMN_val,
             Nat.not_lt.mpr h3, Nat.le_of_lt_succ hl])
  · intro i ht hl hl'
    simp (disch := first | omega | decide | (simp; done) | (simp; omega)) [$ls,*, ht, on_typ, on_payload, ite_short, ite_short',
      ite_empty, slice_take hl, slice_take hl', idx_take hl, idx_take hl', rd32_take hl, rd32_take hl', rd16_take hl, rd16_take hl', decodePLMN_take hl,
      List.take_take, Nat.min_self, -Nat.lt_one_iff, -List.length_eq_zero_iff]
  · intro q hq hl
    simp (disch := first | omega | decide | (simp; done) | (simp; omega)) [$ls,*, hq, on_typ, on_payload, ite_short, ite_short',
      ite_empty, slice_take hl, idx_take hl, swapped_val, rd32_val, rd16_val, rd64_val, decodePLMN_val, decodeMCC_val, decodeMNC_val]))

/-- C78 for GTPv1 -/
theorem C78_v1 :
    Reads 16 4 IE.teid ∧ Reads 17 4 IE.teid ∧ Reads 18 4 IE.teid ∧ Reads 255 2 IE.extensionIdentifier ∧
    Reads 148 1 (IE.flags 148) ∧ Reads 193 1 (IE.flags 193) ∧ Reads 218 1 (IE.flags 218) ∧ Reads 3 2 IE.mcc1 ∧
    Reads 152 3 IE.mcc1 ∧ Reads 3 3 IE.mnc1 ∧ Reads 152 4 IE.mnc1 ∧ Reads 3 5 IE.lac1 ∧ Reads 152 6 IE.lac1 ∧
    Reads 3 6 IE.rac1 ∧ Reads 128 1 IE.pdpTypeOrganization ∧ Reads 128 2 IE.pdpTypeNumber ∧ Reads 153 1 IE.timeZone ∧
    Reads 153 2 IE.daylightSaving ∧ Reads 214 4 IE.timestamp ∧ Reads 9 16 IE.rand ∧ Reads 136 16 IE.rand ∧
    Reads 9 20 IE.sres ∧ Reads 9 28 IE.kc := by
  refine ⟨?_, ?_, ?_, ?_, ?_, ?_, ?_, ?_, ?_, ?_, ?_, ?_, ?_, ?_, ?_, ?_, ?_, ?_, ?_, ?_, ?_, ?_, ?_⟩
  · reads [IE.teid]
  · reads [IE.teid]
  · reads [IE.teid]
  · reads [IE.extensionIdentifier]
  · reads [IE.flags, Plain.get8]
  · reads [IE.flags, Plain.get8]
  · reads [IE.flags, Plain.get8]
  · reads [IE.mcc1]
  · reads [IE.mcc1]
  · reads [IE.mnc1]
  · reads [IE.mnc1]
  · reads [IE.lac1]
  · reads [IE.lac1]
  · reads [IE.rac1]
  · reads [IE.pdpTypeOrganization, Plain.get8]
  · reads [IE.pdpTypeNumber]
  · reads [IE.timeZone]
  · reads [IE.daylightSaving]
  · reads [IE.timestamp]
  · reads [IE.rand]
  · reads [IE.rand]
  · reads [IE.sres]
  · reads [IE.kc]

/-- C78 for GTPv0 -/
theorem C78_v0 :
    Reads 18 1 IE.nsapi0 ∧ Reads 16 2 IE.flowLabelData ∧ Reads 17 2 IE.flowLabelData ∧ Reads 18 3 IE.flowLabelData ∧
    Reads 3 2 IE.mcc0 ∧ Reads 3 5 IE.lac0 ∧ Reads 3 6 IE.rac0 ∧ Reads 6 1 IE.qosDelay ∧ Reads 6 1 IE.qosReliability ∧
    Reads 6 2 IE.qosPeak ∧ Reads 6 2 IE.qosPrecedence ∧ Reads 6 3 IE.qosMean := by
  refine ⟨?_, ?_, ?_, ?_, ?_, ?_, ?_, ?_, ?_, ?_, ?_, ?_⟩
  · reads [IE.nsapi0]
  · reads [IE.flowLabelData, Plain.get16]
  · reads [IE.flowLabelData, Plain.get16]
  · reads [IE.flowLabelData]
  · reads [IE.mcc0]
  · reads [IE.lac0]
  · reads [IE.rac0]
  · reads [IE.qosDelay, IE.qos0]
  · reads [IE.qosReliability, IE.qos0]
  · reads [IE.qosPeak, IE.qos0]
  · reads [IE.qosPrecedence, IE.qos0]
  · reads [IE.qosMean, IE.qos0]

/-- C78: the plain elements of GTPv1 and GTPv0 and the flags, for every row of the tables -/
theorem C78_v1_tables :
    (∀ r ∈ plain8v1 ++ plain8v0, Reads r.typ 1 r.get8) ∧ (∀ r ∈ plain16v0, Reads r.typ 2 r.get16) ∧
    (∀ r ∈ plain32v1 ++ plain32v0, Reads r.typ 4 r.get32) ∧
    (∀ r ∈ plainBoolv1 ++ plainBoolv0, ∀ i : IE, i.payload = [] → r.getBool i = ok false) ∧
    (∀ f ∈ flagTab, ∀ i : IE, i.payload = [] → f.get i = ok false) := by
  refine ⟨fun r _ => ?_, fun r _ => ?_, fun r _ => ?_, fun r _ i h => ?_, fun f _ i h => ?_⟩
  · reads [Plain.get8]
  · reads [Plain.get16]
  · reads [Plain.get32]
  · simp [Plain.getBool, h]
  · simp only [Flag.get, IE.isFlag, IE.flags, Plain.get8, h]
    by_cases ht : i.typ = f.typ <;> simp [ht, V2.must]

/-- C78 for a location: the cell or service area needs eight octets, and is there only if the first octet says so; the routing
area code needs seven -/
theorem C78_location (i : IE) (ht : i.typ = 152) :
    (∀ loc : UInt8, (∃ v, i.cell loc = ok v) ↔ oct i.payload 0 = loc.toNat ∧ 8 ≤ i.payload.length) ∧
    (∀ loc : UInt8, (∃ v, i.cell loc = ok v) ∨ ∃ e, i.cell loc = err e) ∧
    ((∃ v, i.rac1 = ok v) ↔ oct i.payload 0 = 2 ∧ 7 ≤ i.payload.length) ∧ ((∃ v, i.rac1 = ok v) ∨ ∃ e, i.rac1 = err e) := by
  have key : ∀ loc : UInt8, (¬(oct i.payload 0 = loc.toNat ∧ 8 ≤ i.payload.length) → ∃ e, i.cell loc = err e) ∧
      ((oct i.payload 0 = loc.toNat ∧ 8 ≤ i.payload.length) → ∃ v, i.cell loc = ok v) := by
    intro loc
    unfold IE.cell
    rw [if_neg (by simp [ht])]
    by_cases h2 : i.payload.length < 2
    · rw [if_pos h2]; exact ⟨fun _ => ⟨_, rfl⟩, fun h => by omega⟩
    · rw [if_neg h2]
      obtain ⟨x, hx, he, _⟩ := V2.idx_oct (p := i.payload) (k := 0) (by omega)
      rw [hx, bind_ok]
      by_cases h : x = loc
      · subst h
        rw [if_pos rfl]
        by_cases h8 : i.payload.length < 8
        · rw [if_pos h8]; exact ⟨fun _ => ⟨_, rfl⟩, fun h => by omega⟩
        · rw [if_neg h8]
          obtain ⟨s, hs, h4⟩ := V2.slice_is (p := i.payload) (a := 6) (b := 8) (by omega) (by omega)
          rw [hs, bind_ok]
          exact ⟨fun h => absurd ⟨he.symm, by omega⟩ h, fun _ => rd16_ok (by omega)⟩
      · rw [if_neg h]
        exact ⟨fun _ => ⟨_, rfl⟩, fun h' => absurd (UInt8.toNat_inj.mp (he.trans h'.1)) h⟩
  have keyr : (¬(oct i.payload 0 = 2 ∧ 7 ≤ i.payload.length) → ∃ e, i.rac1 = err e) ∧
      ((oct i.payload 0 = 2 ∧ 7 ≤ i.payload.length) → ∃ v, i.rac1 = ok v) := by
    unfold IE.rac1
    rw [if_neg (by simp [ht]), if_pos ht]
    by_cases h2 : i.payload.length < 7
    · rw [if_pos h2]; exact ⟨fun _ => ⟨_, rfl⟩, fun h => by omega⟩
    · rw [if_neg h2]
      obtain ⟨x, hx, he, _⟩ := V2.idx_oct (p := i.payload) (k := 0) (by omega)
      obtain ⟨y, hy, _⟩ := V2.idx_oct (p := i.payload) (k := 6) (by omega)
      rw [hx, bind_ok, hy]
      by_cases h : x = 2
      · subst h
        exact ⟨fun h => absurd ⟨he.symm, by omega⟩ h, fun _ => ⟨_, rfl⟩⟩
      · rw [if_neg h]
        exact ⟨fun _ => ⟨_, rfl⟩, fun h' => absurd (UInt8.toNat_inj.mp (he.trans (h'.1.trans rfl))) h⟩
  have no : ∀ {α : Type} {r : Res α}, (∃ e, r = err e) → ¬∃ v, r = ok v := by
    rintro α r ⟨e, rfl⟩ ⟨v, h⟩; cases h
  refine ⟨fun loc => ⟨fun h => ?_, (key loc).2⟩, fun loc => ?_, ⟨fun h => ?_, keyr.2⟩, ?_⟩
  · exact Classical.byContradiction (fun hc => no ((key loc).1 hc) h)
  · by_cases h : (oct i.payload 0 = loc.toNat ∧ 8 ≤ i.payload.length)
    · exact .inl ((key loc).2 h)
    · exact .inr ((key loc).1 h)
  · exact Classical.byContradiction (fun hc => no (keyr.1 hc) h)
  · by_cases h : (oct i.payload 0 = 2 ∧ 7 ≤ i.payload.length)
    · exact .inl (keyr.2 h)
    · exact .inr (keyr.1 h)

/-- C78 for an authentication quintuplet: XRES ends 17 octets and its announced length into the payload, CK 16 octets later, IK
another 16.  An empty payload is no XRES of no octets: see `C76_xres_partial`. -/
theorem C78_quintuplet (i : IE) (ht : i.typ = 136) :
    (i.payload ≠ [] → ((∃ v, i.xres = ok v) ↔ 17 + oct i.payload 16 ≤ i.payload.length)) ∧
    ((∃ v, i.ck = ok v) ↔ 33 + oct i.payload 16 ≤ i.payload.length) ∧
    ((∃ v, i.ik = ok v) ↔ 49 + oct i.payload 16 ≤ i.payload.length) ∧
    ((∃ v, i.xres = ok v) ∨ ∃ e, i.xres = err e) ∧ ((∃ v, i.ck = ok v) ∨ ∃ e, i.ck = err e) ∧
    ((∃ v, i.ik = ok v) ∨ ∃ e, i.ik = err e) ∧
    (∀ v, i.xres = ok v → i.payload ≠ [] → v = (i.payload.drop 17).take (oct i.payload 16)) ∧
    (∀ v, i.ck = ok v → v = (i.payload.drop (17 + oct i.payload 16)).take 16) ∧
    (∀ v, i.ik = ok v → v = (i.payload.drop (33 + oct i.payload 16)).take 16) := by
  have hx : i.payload ≠ [] → i.xres = if 17 + oct i.payload 16 ≤ i.payload.length then
      ok ((i.payload.drop 17).take (oct i.payload 16)) else err .eof := by
    intro hp
    have hp' : i.payload.length ≠ 0 := fun h => hp (List.eq_nil_of_length_eq_zero h)
    unfold IE.xres
    rw [if_neg hp', if_pos ht]
    by_cases h : i.payload.length < 17
    · rw [if_pos h, if_neg (by omega)]
    · obtain ⟨n, hn, he, _⟩ := V2.idx_oct (p := i.payload) (k := 16) (by omega)
      rw [if_neg h, hn, bind_ok, he]
      by_cases h' : 17 + oct i.payload 16 ≤ i.payload.length
      · rw [if_neg (by omega), if_pos h', slice, if_pos ⟨by omega, h'⟩]; simp
      · rw [if_pos (by omega), if_neg h']
  have hc : i.ck = if 33 + oct i.payload 16 ≤ i.payload.length then
      ok ((i.payload.drop (17 + oct i.payload 16)).take 16) else err .eof := by
    unfold IE.ck
    rw [if_pos ht]
    by_cases h : i.payload.length < 18
    · rw [if_pos h, if_neg (by omega)]
    · obtain ⟨n, hn, he, _⟩ := V2.idx_oct (p := i.payload) (k := 16) (by omega)
      rw [if_neg h, hn, bind_ok, he]
      dsimp only
      by_cases h' : 33 + oct i.payload 16 ≤ i.payload.length
      · rw [if_neg (by omega), if_pos h', slice, if_pos ⟨by omega, by omega⟩]; congr 2; omega
      · rw [if_pos (by omega), if_neg h']
  have hi : i.ik = if 49 + oct i.payload 16 ≤ i.payload.length then
      ok ((i.payload.drop (33 + oct i.payload 16)).take 16) else err .eof := by
    unfold IE.ik
    rw [if_pos ht]
    by_cases h : i.payload.length < 34
    · rw [if_pos h, if_neg (by omega)]
    · obtain ⟨n, hn, he, _⟩ := V2.idx_oct (p := i.payload) (k := 16) (by omega)
      rw [if_neg h, hn, bind_ok, he]
      dsimp only
      by_cases h' : 49 + oct i.payload 16 ≤ i.payload.length
      · rw [if_neg (by omega), if_pos h', slice, if_pos ⟨by omega, by omega⟩]; congr 2; omega
      · rw [if_pos (by omega), if_neg h']
  have ex : ∀ {P : Prop} [Decidable P] {x : Bytes}, ((∃ v, (if P then ok x else err .eof : Res Bytes) = ok v) ↔ P) ∧
      ((∃ v, (if P then ok x else err .eof : Res Bytes) = ok v) ∨ ∃ e, (if P then ok x else err .eof : Res Bytes) = err e) ∧
      (∀ v, (if P then ok x else err .eof : Res Bytes) = ok v → v = x) := by
    intro P _ x
    by_cases h : P
    · simp only [h, if_true]
      exact ⟨⟨fun _ => trivial, fun _ => ⟨_, rfl⟩⟩, .inl ⟨_, rfl⟩, fun v h => (Res.ok.inj h).symm⟩
    · simp only [h, if_false]
      refine ⟨⟨fun h' => ?_, fun h' => h'.elim⟩, .inr ⟨_, rfl⟩, fun v h' => by cases h'⟩
      obtain ⟨v, hv⟩ := h'
      cases hv
  rw [hc, hi]
  refine ⟨fun hp => by rw [hx hp]; exact ex.1, ex.1, ex.1, ?_, ex.2.1, ex.2.1, fun v h hp => ?_, ex.2.2, ex.2.2⟩
  · by_cases hp : i.payload = []
    · exact .inl ⟨[], by simp [IE.xres, hp]⟩
    · rw [hx hp]; exact ex.2.1
  · rw [hx hp] at h; exact ex.2.2 v h

example : (newIE TLV.v1 16 [0, 0, 1]).teid = err .eof ∧ (newIE TLV.v1 16 [0, 0, 1, 2]).teid = ok 258 ∧
    (newIE TLV.v1 16 [0, 0, 1, 2, 9]).teid = ok 258 ∧ (newIE TLV.v1 152 [1, 0, 0, 0, 0, 5, 0]).cell 1 = err .eof ∧
    (newIE TLV.v1 152 [1, 0, 0, 0, 0, 5, 0, 7]).cell 1 = ok 7 ∧ (newIE TLV.v1 152 [0, 0, 0, 0, 0, 5, 0, 7]).cell 1 = err .invalidType ∧
    (newIE TLV.v1 136 (List.replicate 16 1 ++ [2, 7])).xres = err .eof ∧
    (newIE TLV.v1 136 (List.replicate 16 1 ++ [2, 7, 8])).xres = ok [7, 8] := by decide +kernel

/-- C78 fails for the MNC of GTPv0, which is in octets 2 and 3 but is returned without the third -/
theorem C78_mnc0_wrong : (newIE TLV.v0 3 [0x42, 0x15]).mnc0 = ok [53] ∧ (newIE TLV.v0 3 [0x42, 0x15]).lac0 = err .eof := by
  decide +kernel

/-- C78 fails for the P-TMSI signature: it has three octets, and with more the first three are not returned but 0 -/
theorem C78_signature_wrong : (newIE TLV.v1 12 [1, 2]).ptmsiSignature = err .eof ∧
    (newIE TLV.v1 12 [1, 2, 3]).ptmsiSignature = ok 0x010203 ∧ (newIE TLV.v1 12 [1, 2, 3, 4]).ptmsiSignature = ok 0 := by
  decide +kernel

/-- C78 fails for `AUTN`, which looks for the length one octet too far in, so that it panics where the quintuplet ends before -/
theorem C78_autn_wrong : (newIE TLV.v1 136 (List.replicate 50 0)).autn = .panic := by decide +kernel

end Verif.TLV

/-! ### cases that meet the hypotheses -/

namespace Verif.TLV
open Res
example := C78_location (newIE v1 152 [0, 0x00, 0xf1, 0x10, 1, 2, 3, 4]) rfl
example := C78_quintuplet (newIE v1 136 (List.replicate 49 2)) rfl
end Verif.TLV
