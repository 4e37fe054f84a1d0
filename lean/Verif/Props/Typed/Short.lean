import Verif.Props.Typed.Refuse
/-
Property theorems C78: an accessor of a value of fixed size returns an error when the payload has fewer octets than the value
needs, and otherwise a value that depends on those octets only.  The number of octets is counted from the beginning of the
payload to the last octet of the value, as in TS 29.274, TS 29.060 and GSM 09.60.
-/
set_option linter.unusedSimpArgs false
set_option linter.unusedVariables false

namespace Verif
open Res Utils

/-- first `n` octets of the payload -/
theorem idx_take {p : Bytes} {n k : Nat} (hn : n ≤ p.length) (hk : k < n) : idx p k = ok ((p.take n)[k]?.getD 0) := by
  have : k < p.length := by omega
  simp [idx, List.getElem?_take, hk, this]

theorem slice_take {p : Bytes} {n a b : Nat} (hn : n ≤ p.length) (hab : a ≤ b) (hb : b ≤ n) :
    slice p a b = ok (((p.take n).drop a).take (b - a)) := by
  rw [slice, if_pos ⟨hab, by omega⟩]
  congr 1
  rw [List.drop_take, List.take_take]
  congr 1; omega

/-- what a reader returns, once it is known to return a value -/
def out {α : Type} (d : α) : Res α → α
  | ok v => v
  | _ => d
theorem out_eq {α : Type} {d : α} {r : Res α} (h : ∃ v, r = ok v) : r = ok (out d r) := by
  obtain ⟨v, rfl⟩ := h; rfl
def val16 (s : Bytes) : UInt16 := out 0 (rd16 s)
def val32 (s : Bytes) : UInt32 := out 0 (rd32 s)
def val64 (s : Bytes) : UInt64 := out 0 (rd64 s)
def valPLMN (s : Bytes) : Bytes × Bytes := out ([], []) (decodePLMN s)
def valMCC (s : Bytes) : Bytes := out [] (decodeMCC s)
def valMNC (s : Bytes) : Bytes := out [] (decodeMNC s)
def valStr (s : Bytes) (c : Bool) : Bytes := out [] (swappedToStr s c)
theorem rd16_val {s : Bytes} (h : 2 ≤ s.length) : rd16 s = ok (val16 s) := out_eq (rd16_ok h)
theorem rd32_val {s : Bytes} (h : 4 ≤ s.length) : rd32 s = ok (val32 s) := out_eq (rd32_ok h)
theorem rd64_val {s : Bytes} (h : 8 ≤ s.length) : rd64 s = ok (val64 s) := out_eq (by
  match s, h with
  | a :: b :: c :: d :: e :: f :: g :: h :: _, _ => exact ⟨_, rfl⟩)
theorem swapped_val (s : Bytes) (c : Bool) : swappedToStr s c = ok (valStr s c) := out_eq (by
  unfold swappedToStr slice
  split
  · exact ⟨_, rfl⟩
  · simp only; split
    · rw [if_pos ⟨Nat.zero_le _, Nat.sub_le _ _⟩]; exact ⟨_, rfl⟩
    · exact ⟨_, rfl⟩)
theorem rd32_take {p : Bytes} {n : Nat} (h : n ≤ p.length) (h4 : 4 ≤ n) : rd32 p = rd32 (p.take n) := by
  obtain ⟨n, rfl⟩ : ∃ k, n = k + 4 := ⟨n - 4, by omega⟩
  match p, h with
  | a :: b :: c :: d :: _, _ => rfl
  | [], h => simp at h
  | [_], h => simp at h
  | [_, _], h => simp at h
  | [_, _, _], h => simp at h
theorem rd16_take {p : Bytes} {n : Nat} (h : n ≤ p.length) (h4 : 2 ≤ n) : rd16 p = rd16 (p.take n) := by
  obtain ⟨n, rfl⟩ : ∃ k, n = k + 2 := ⟨n - 2, by omega⟩
  match p, h with
  | a :: b :: _, _ => rfl
  | [], h => simp at h
  | [_], h => simp at h
theorem decodeMCC_val {s : Bytes} (h : s.length = 2) : decodeMCC s = ok (valMCC s) := out_eq (by
  match s, h with
  | [a, b], _ => exact ⟨_, rfl⟩)
theorem decodeMNC_val {s : Bytes} (h : s.length = 2) : decodeMNC s = ok (valMNC s) := out_eq (by
  match s, h with
  | [a, b], _ =>
    simp only [decodeMNC, hexEncode, idx, List.getElem?_cons_zero, List.getElem?_cons_succ, bind_ok]
    split <;> exact ⟨_, rfl⟩)
theorem decodePLMN_take {p : Bytes} {n : Nat} (h : n ≤ p.length) (h3 : 3 ≤ n) : decodePLMN p = decodePLMN (p.take n) := by
  rw [decodePLMN, decodePLMN, slice_take h (by omega) (by omega), slice_take h (by omega) (by omega),
    slice_take (p := p.take n) (n := n) (by simp; omega) (by omega) (by omega),
    slice_take (p := p.take n) (n := n) (by simp; omega) (by omega) (by omega)]
  simp [List.take_take]
theorem decodePLMN_val {s : Bytes} (h : 3 ≤ s.length) : decodePLMN s = ok (valPLMN s) := out_eq (by
  rw [decodePLMN, slice_take h (by omega) (by omega), slice_take h (by omega) (by omega)]
  exact ⟨(_, _), by simp only [bind_ok]; rw [decodeMCC_val (by simp; omega), bind_ok, decodeMNC_val (by simp; omega), bind_ok]⟩)
theorem plmn_at {p : Bytes} (h : 3 ≤ p.length) : slice p 0 3 = ok (p.take 3) := by simp [slice, h]
theorem ite_short {α : Type} {p n : Nat} (h : n ≤ p) (a b : α) : (if p < n then a else b) = b := if_neg (by omega)
theorem ite_short' {α : Type} {p n : Nat} (h : n < p) (a b : α) : (if p ≤ n then a else b) = b := if_neg (by omega)
theorem ite_empty {α : Type} {p : Nat} (h : 0 < p) (a b : α) : (if p = 0 then a else b) = b := if_neg (by omega)

end Verif

namespace Verif.V2
open Res Utils

variable (g : UInt8 → Bool)

/-- C78 for the accessor `acc` on elements of type `t`: with fewer than `n` octets it returns an error, with `n` or more a
value, and that depends on the first `n` octets only -/
def Reads {α : Type} (t : UInt8) (n : Nat) (acc : IE → Res α) : Prop :=
  (∀ i : IE, i.typ = t → i.payload.length < n → ∃ e, acc i = err e) ∧
  (∀ i : IE, i.typ = t → n ≤ i.payload.length → ∃ v, acc i = ok v) ∧
  (∀ i j : IE, i.typ = t → j.typ = t → n ≤ i.payload.length → j.payload.take n = i.payload.take n → acc j = acc i)

/-- the element with the octets `q` as payload -/
def on (t : UInt8) (q : Bytes) : IE := .mk t 0 0 q []
@[simp] theorem on_typ (t : UInt8) (q : Bytes) : (on t q).typ = t := rfl
@[simp] theorem on_payload (t : UInt8) (q : Bytes) : (on t q).payload = q := rfl

theorem reads_of {α : Type} {t : UInt8} {n : Nat} {acc : IE → Res α}
    (hs : ∀ i : IE, i.typ = t → i.payload.length < n → ∃ e, acc i = err e)
    (hf : ∀ i : IE, i.typ = t → n ≤ i.payload.length → n ≤ (i.payload.take n).length → acc i = acc (on t (i.payload.take n)))
    (hv : ∀ q : Bytes, q.length = n → n ≤ q.length → ∃ v, acc (on t q) = ok v) : Reads t n acc := by
  refine ⟨hs, fun i ht hl => ?_, fun i j hi hj hl h => ?_⟩
  · obtain ⟨v, hv⟩ := hv (i.payload.take n) (by simp [hl]) (by simp [hl])
    exact ⟨v, by rw [hf i ht hl (by simp [hl]), hv]⟩
  · have : n ≤ j.payload.length := by
      have := congrArg List.length h
      simp only [List.length_take] at this
      omega
    rw [hf i hi hl (by simp [hl]), hf j hj this (by simp [this]), h]

/-- the three parts of `Reads` for an accessor given by its definitions -/
local macro "reads" "[" ls:Lean.Parser.Tactic.simpLemma,* "]" : tactic => `(tactic| (
  refine reads_of ?_ ?_ ?_
  · first
      | (intro i ht hl; simp [ht, hl, $ls,*]; done)
      | (intro i ht hl; simp [ht, hl, $ls,*]; ((repeat' split) <;> first | simp | omega); done)
      | (intro i ht hl
         rcases Nat.lt_or_ge i.payload.length 3 with h3 | h3
         · simp [ht, h3, $ls,*]
         · simp (disch := first | omega | decide | (simp; done) | (simp; omega)) [ht, $ls,*, plmn_at h3, decodePLMN_val,
             Nat.not_lt.mpr h3, Nat.le_of_lt_succ hl])
  · intro i ht hl hl'
    simp (disch := first | omega | decide | (simp; done) | (simp; omega)) [$ls,*, ht, on_typ, on_payload, ite_short, ite_short',
      ite_empty, slice_take hl, slice_take hl', idx_take hl, idx_take hl', rd32_take hl, rd16_take hl, decodePLMN_take hl,
      List.take_take, Nat.min_self, -Nat.lt_one_iff, -List.length_eq_zero_iff]
  · intro q hq hl
    simp (disch := first | omega | decide | (simp; done) | (simp; omega)) [$ls,*, hq, on_typ, on_payload, ite_short, ite_short',
      ite_empty, slice_take hl, idx_take hl, rd32_val, rd16_val, rd64_val, decodePLMN_val, decodeMCC_val, decodeMNC_val]))

/-- C78: the accessors that return the octets of a payload as a number, whatever the type of the element; types that hold other
elements are refused -/
theorem C78_generic (t : UInt8) :
    (g t = false → Reads t 1 (IE.valueAsUint8 g) ∧ Reads t 2 (IE.valueAsUint16 g) ∧ Reads t 4 (IE.valueAsUint32 g) ∧
      Reads t 8 (IE.valueAsUint64 g)) ∧
    (g t = true → ∀ i : IE, i.typ = t → (∃ e, i.valueAsUint8 g = err e) ∧ (∃ e, i.valueAsUint16 g = err e) ∧
      (∃ e, i.valueAsUint32 g = err e) ∧ (∃ e, i.valueAsUint64 g = err e) ∧ ∃ e, i.valueAsString g = err e) := by
  refine ⟨fun h => ⟨?_, ?_, ?_, ?_⟩, fun h i ht => ?_⟩
  · reads [IE.valueAsUint8, h]
  · reads [IE.valueAsUint16, h]
  · reads [IE.valueAsUint32, h]
  · reads [IE.valueAsUint64, h]
  · simp [IE.valueAsUint8, IE.valueAsUint16, IE.valueAsUint32, IE.valueAsUint64, IE.valueAsString, ht, h]

/-- and they return the number the constructor was given -/
theorem C78_generic_value (t v8 : UInt8) (v16 : UInt16) (v32 : UInt32) (v64 : UInt64) (s : Bytes) (h : g t = false) :
    (newUint8IE t v8).valueAsUint8 g = ok v8 ∧ (newUint16IE t v16).valueAsUint16 g = ok v16 ∧
    (newUint32IE t v32).valueAsUint32 g = ok v32 ∧ (newUint64IE t v64).valueAsUint64 g = ok v64 ∧
    (newStringIE t s).valueAsString g = ok s := by
  refine ⟨?_, ?_, ?_, ?_, ?_⟩
  · simp [newUint8IE, IE.valueAsUint8, h, idx]
  · have : slice (be16 v16) 0 2 = ok (be16 v16) := rfl
    simp [newUint16IE, IE.valueAsUint16, h, this]
  · have : slice (be32 v32) 0 4 = ok (be32 v32) := rfl
    simp [newUint32IE, IE.valueAsUint32, h, this]
  · have : slice (be64 v64) 0 8 = ok (be64 v64) := rfl
    have hr : rd64 (be64 v64) = ok v64 := by simp
    simp [newUint64IE, IE.valueAsUint64, h, this, hr]
  · simp [newStringIE, IE.valueAsString, h]

/-- C78: tunnel endpoints, PLMN, network identities -/
theorem C78_identity : Reads 87 1 IE.interfaceType ∧ Reads 87 5 IE.teid ∧ Reads 83 3 (IE.plmnString 83) ∧
    Reads 120 3 (IE.plmnString 120) ∧ Reads 83 3 IE.plmn ∧ Reads 120 3 IE.plmn ∧ Reads 89 3 IE.plmn ∧ Reads 115 3 IE.plmn ∧
    Reads 117 3 IE.plmn ∧ Reads 145 3 IE.plmn ∧ Reads 89 5 IE.cnid ∧ Reads 115 6 IE.traceID ∧ Reads 145 8 IE.uci ∧
    Reads 145 8 IE.accessMode ∧ Reads 145 7 (IE.csgID g) ∧ Reads 145 8 (IE.cmi g) ∧ Reads 117 5 IE.mmeGroupID ∧
    Reads 117 6 IE.mmeCode ∧ Reads 117 10 IE.mtmsi ∧ Reads 132 1 IE.nodeIDType := by
  refine ⟨?_, ?_, ?_, ?_, ?_, ?_, ?_, ?_, ?_, ?_, ?_, ?_, ?_, ?_, ?_, ?_, ?_, ?_, ?_, ?_⟩
  · reads [IE.interfaceType]
  · reads [IE.teid]
  · reads [IE.plmnString]
  · reads [IE.plmnString]
  · reads [IE.plmn]
  · reads [IE.plmn]
  · reads [IE.plmn]
  · reads [IE.plmn]
  · reads [IE.plmn]
  · reads [IE.plmn]
  · reads [IE.cnid]
  · reads [IE.traceID]
  · reads [IE.uci, parseUCI]
  · reads [IE.accessMode]
  · reads [IE.csgID]
  · reads [IE.cmi]
  · reads [IE.mmeGroupID]
  · reads [IE.mmeCode]
  · reads [IE.mtmsi]
  · reads [IE.nodeIDType]

/-- C78: quality of service and time -/
theorem C78_qos (h155 : g 155 = false) (h81 : g 81 = false) :
    Reads 72 8 IE.ambr ∧ Reads 72 4 IE.ambrUp ∧ Reads 72 8 IE.ambrDown ∧ Reads 80 22 (IE.bearerQoS g) ∧
    Reads 155 1 (IE.arp g) ∧ Reads 155 1 (IE.priorityLevel g) ∧ Reads 80 22 (IE.priorityLevel g) ∧ Reads 81 21 IE.flowQoS ∧
    Reads 80 2 (IE.qciLabel g) ∧ Reads 81 1 (IE.qciLabel g) ∧
    Reads 80 7 IE.mbrUp ∧ Reads 80 12 IE.mbrDown ∧ Reads 80 17 IE.gbrUp ∧ Reads 80 22 IE.gbrDown ∧
    Reads 81 6 IE.mbrUp ∧ Reads 81 11 IE.mbrDown ∧ Reads 81 16 IE.gbrUp ∧ Reads 81 21 IE.gbrDown ∧
    Reads 156 1 IE.timer ∧ Reads 154 2 IE.throttling ∧ Reads 114 1 IE.timeZone ∧ Reads 114 2 IE.daylightSaving ∧
    Reads 170 4 IE.timestamp ∧ Reads 179 4 IE.timestamp ∧ Reads 92 1 IE.delayValue := by
  refine ⟨?_, ?_, ?_, ?_, ?_, ?_, ?_, ?_, ?_, ?_, ?_, ?_, ?_, ?_, ?_, ?_, ?_, ?_, ?_, ?_, ?_, ?_, ?_, ?_, ?_⟩
  · reads [IE.ambr, parseAMBR]
  · reads [IE.ambrUp]
  · reads [IE.ambrDown]
  · reads [IE.bearerQoS, parseBearerQoS]
  · reads [IE.arp, IE.valueAsUint8, h155]
  · reads [IE.priorityLevel, IE.arp, IE.valueAsUint8, h155]
  · reads [IE.priorityLevel, IE.bearerQoS, parseBearerQoS]
  · reads [IE.flowQoS, parseFlowQoS]
  · reads [IE.qciLabel]
  · reads [IE.qciLabel, IE.valueAsUint8, h81]
  · reads [IE.mbrUp, bitRate]
  · reads [IE.mbrDown, bitRate]
  · reads [IE.gbrUp, bitRate]
  · reads [IE.gbrDown, bitRate]
  · reads [IE.mbrUp, bitRate]
  · reads [IE.mbrDown, bitRate]
  · reads [IE.gbrUp, bitRate]
  · reads [IE.gbrDown, bitRate]
  · reads [IE.timer]
  · reads [IE.throttling, parseThrottling]
  · reads [IE.timeZone]
  · reads [IE.daylightSaving]
  · reads [IE.timestamp]
  · reads [IE.timestamp]
  · reads [IE.delayValue]

/-- C78: elements with one plain value, for every row of the tables and every type the accessor accepts -/
theorem C78_plain :
    (∀ r ∈ plain8, ∀ t ∈ r.acc, g t = false → Reads t 1 (r.get8 g)) ∧
    (∀ r ∈ plain16, ∀ t ∈ r.acc, g t = false → Reads t 2 (r.get16 g)) ∧
    (∀ r ∈ plain32, ∀ t ∈ r.acc, g t = false → Reads t 4 (r.get32 g)) ∧
    (g 94 = false → Reads 94 4 (IE.chargingID g)) ∧ (g 73 = false → Reads 73 1 (IE.ebi g)) ∧
    (g 147 = false → Reads 147 4 (IE.csgID g)) ∧ (g 148 = false → Reads 148 1 (IE.cmi g)) ∧
    (g 152 = false → Reads 152 1 (IE.nodeFeatures g)) ∧ (g 171 = false → Reads 171 1 (IE.mbmsFlags g)) ∧
    (g 97 = false → Reads 97 1 (IE.bearerFlags g)) ∧ (g 2 = false → Reads 2 1 (IE.cause g)) ∧ Reads 2 2 (IE.causeFlags g) ∧
    Reads 255 2 IE.enterpriseID := by
  have key : ∀ {α : Type} {acc acc' : IE → Res α} {t : UInt8} {n : Nat}, Reads t n acc' → (∀ i : IE, i.typ = t → acc i = acc' i) →
      Reads t n acc := by
    intro α acc acc' t n h e
    refine ⟨fun i ht hl => ?_, fun i ht hl => ?_, fun i j hi hj hl hp => ?_⟩
    · rw [e i ht]; exact h.1 i ht hl
    · rw [e i ht]; exact h.2.1 i ht hl
    · rw [e i hi, e j hj]; exact h.2.2 i j hi hj hl hp
  refine ⟨fun r _ t ht h => ?_, fun r _ t ht h => ?_, fun r _ t ht h => ?_, fun h => ?_, fun h => ?_, fun h => ?_, fun h => ?_,
    fun h => ?_, fun h => ?_, fun h => ?_, fun h => ?_, ?_, ?_⟩
  · exact key ((C78_generic g t).1 h).1 (fun i hi => by simp [Plain.get8, Plain.read, hi, ht])
  · exact key ((C78_generic g t).1 h).2.1 (fun i hi => by simp [Plain.get16, Plain.read, hi, ht])
  · exact key ((C78_generic g t).1 h).2.2.1 (fun i hi => by simp [Plain.get32, Plain.read, hi, ht])
  · exact key ((C78_generic g 94).1 h).2.2.1 (fun i hi => by simp [IE.chargingID, hi])
  · exact key ((C78_generic g 73).1 h).1 (fun i hi => by simp [IE.ebi, hi])
  · exact key ((C78_generic g 147).1 h).2.2.1 (fun i hi => by simp [IE.csgID, hi])
  · exact key ((C78_generic g 148).1 h).1 (fun i hi => by simp [IE.cmi, hi])
  · exact key ((C78_generic g 152).1 h).1 (fun i hi => by simp [IE.nodeFeatures, hi])
  · exact key ((C78_generic g 171).1 h).1 (fun i hi => by simp [IE.mbmsFlags, hi])
  · exact key ((C78_generic g 97).1 h).1 (fun i hi => by simp [IE.bearerFlags, hi])
  · exact key ((C78_generic g 2).1 h).1 (fun i hi => by simp [IE.cause, hi])
  · reads [IE.causeFlags]
  · reads [IE.enterpriseID]

/-! ### elements that announce their size -/

/-- C78 for elements whose size is announced by some of their octets: `size` gives the number of octets needed -/
def ReadsBy {α : Type} (t : UInt8) (size : Bytes → Nat) (acc : IE → Res α) : Prop :=
  (∀ i : IE, i.typ = t → i.payload.length < size i.payload → ∃ e, acc i = err e) ∧
  (∀ i : IE, i.typ = t → size i.payload ≤ i.payload.length → ∃ v, acc i = ok v) ∧
  (∀ i j : IE, i.typ = t → j.typ = t → size i.payload ≤ i.payload.length →
    j.payload.take (size i.payload) = i.payload.take (size i.payload) → acc j = acc i)

/-- the octet `k`, 0 if there is none -/
def oct (p : Bytes) (k : Nat) : Nat := (p[k]?.getD 0).toNat
/-- bit `k` of the first octet, 0 or 1 -/
def flag0 (p : Bytes) (k : Nat) : Nat := oct p 0 / 2 ^ k % 2

/-- TS 29.274 8.22: flags, key, and the addresses announced by bits 8 and 7 -/
def sizeFTEID (p : Bytes) : Nat := 5 + 4 * flag0 p 7 + 16 * flag0 p 6
/-- TS 29.274 8.14: PDN type IPv4, IPv6, IPv4v6; other types announce nothing -/
def sizePAA (p : Bytes) : Nat := match oct p 0 % 8 with | 1 => 5 | 2 => 18 | 3 => 22 | _ => 1
/-- TS 29.274 8.24: bearer, size of the address, address, TEID -/
def sizeS1UDF (p : Bytes) : Nat := 6 + oct p 1
/-- TS 29.274 8.23: size of the address, address, GRE key, number of bearers, bearers -/
def sizeS103 (p : Bytes) : Nat := 6 + oct p 0 + oct p (5 + oct p 0)
/-- TS 29.274 8.21: flags, then the locations announced -/
def sizeULI (p : Bytes) : Nat := 1 + 7 * flag0 p 0 + 7 * flag0 p 1 + 7 * flag0 p 2 + 5 * flag0 p 3 + 7 * flag0 p 4 + 5 * flag0 p 5 +
  6 * flag0 p 6 + 6 * flag0 p 7

theorem readsBy_of {α : Type} {t : UInt8} {size : Bytes → Nat} {par : Bytes → Res α} {acc : IE → Res α}
    (e : ∀ i : IE, i.typ = t → acc i = par i.payload)
    (hz : ∀ p q : Bytes, size p ≤ p.length → q.take (size p) = p.take (size p) → size q = size p)
    (hs : ∀ p : Bytes, p.length < size p → ∃ e, par p = err e)
    (hf : ∀ (p : Bytes), size p ≤ p.length → ∃ v, par p = ok v ∧ par (p.take (size p)) = ok v) : ReadsBy t size acc := by
  refine ⟨fun i ht hl => by rw [e i ht]; exact hs _ hl, fun i ht hl => ?_, fun i j hi hj hl h => ?_⟩
  · obtain ⟨v, hv, _⟩ := hf _ hl
    exact ⟨v, by rw [e i ht, hv]⟩
  · obtain ⟨v, hv, hv'⟩ := hf _ hl
    have hs := hz _ _ hl h
    have hl' : size j.payload ≤ j.payload.length := by
      have := congrArg List.length h
      simp only [List.length_take] at this
      omega
    obtain ⟨w, hw, hw'⟩ := hf _ hl'
    rw [hs, h, hv'] at hw'
    rw [e i hi, e j hj, hv, hw, ← hw']

theorem oct_take {p q : Bytes} {n k : Nat} (h : q.take n = p.take n) (hk : k < n) : oct q k = oct p k := by
  have := congrArg (fun l : Bytes => l[k]?.getD 0) h
  simp only [List.getElem?_take, hk, if_true] at this
  simp [oct, this]

theorem idx_oct {p : Bytes} {k : Nat} (h : k < p.length) : ∃ x, idx p k = ok x ∧ x.toNat = oct p k ∧
    ∀ n, k < n → idx (p.take n) k = ok x := by
  refine ⟨p[k], ?_, ?_, fun n hn => ?_⟩
  · simp [idx, h]
  · simp [oct, h]
  · simp [idx, h, hn]
theorem slice_same {p : Bytes} {n a b : Nat} (hab : a ≤ b) (hb : b ≤ n) (hn : n ≤ p.length) :
    ∃ s, slice p a b = ok s ∧ slice (p.take n) a b = ok s ∧ s.length = b - a := by
  refine ⟨_, slice_take hn hab hb, ?_, ?_⟩
  · rw [slice_take (n := n) (by simp; omega) hab hb, List.take_take, Nat.min_self]
  · simp; omega
theorem slice_is {p : Bytes} {a b : Nat} (hab : a ≤ b) (hb : b ≤ p.length) : ∃ s, slice p a b = ok s ∧ s.length = b - a := by
  obtain ⟨s, h, _, hs⟩ := slice_same hab (Nat.le_refl b) hb
  exact ⟨s, h, hs⟩

theorem bit8_eq : ∀ x : UInt8, has8thBit x = decide (x.toNat / 2 ^ 7 % 2 = 1) ∧ has7thBit x = decide (x.toNat / 2 ^ 6 % 2 = 1) ∧
    has6thBit x = decide (x.toNat / 2 ^ 5 % 2 = 1) ∧ has5thBit x = decide (x.toNat / 2 ^ 4 % 2 = 1) ∧
    has4thBit x = decide (x.toNat / 2 ^ 3 % 2 = 1) ∧ has3rdBit x = decide (x.toNat / 2 ^ 2 % 2 = 1) ∧
    has2ndBit x = decide (x.toNat / 2 ^ 1 % 2 = 1) ∧ has1stBit x = decide (x.toNat / 2 ^ 0 % 2 = 1) := by
  have : ∀ n < 256, (fun x : UInt8 => has8thBit x = decide (x.toNat / 2 ^ 7 % 2 = 1) ∧
    has7thBit x = decide (x.toNat / 2 ^ 6 % 2 = 1) ∧
    has6thBit x = decide (x.toNat / 2 ^ 5 % 2 = 1) ∧ has5thBit x = decide (x.toNat / 2 ^ 4 % 2 = 1) ∧
    has4thBit x = decide (x.toNat / 2 ^ 3 % 2 = 1) ∧ has3rdBit x = decide (x.toNat / 2 ^ 2 % 2 = 1) ∧
    has2ndBit x = decide (x.toNat / 2 ^ 1 % 2 = 1) ∧ has1stBit x = decide (x.toNat / 2 ^ 0 % 2 = 1)) (UInt8.ofNat n) := by
    decide +kernel
  intro x
  simpa using this x.toNat x.toNat_lt


/-- C78: S1-U data forwarding -/
theorem C78_s1udf : ReadsBy 91 sizeS1UDF IE.s1udf := by
  refine readsBy_of (par := parseS1UDF) (fun i h => by simp [IE.s1udf, h]) ?_ ?_ ?_
  · intro p q hl h
    simp only [sizeS1UDF] at h ⊢
    rw [oct_take h (by omega)]
  · intro p hl
    unfold parseS1UDF
    split
    · exact ⟨_, rfl⟩
    · obtain ⟨b0, h0, _⟩ := idx_oct (p := p) (k := 0) (by omega)
      obtain ⟨n, h1, hn, _⟩ := idx_oct (p := p) (k := 1) (by omega)
      rw [h0, bind_ok, h1, bind_ok]
      simp only [sizeS1UDF] at hl
      split
      · exact ⟨_, rfl⟩
      · obtain ⟨s, hs, _⟩ := slice_is (p := p) (a := 2) (b := 2 + n.toNat) (by omega) (by omega)
        rw [hs, bind_ok, if_pos (by omega)]
        exact ⟨_, rfl⟩
  · intro p hl
    simp only [sizeS1UDF] at hl ⊢
    obtain ⟨b0, h0, _, h0'⟩ := idx_oct (p := p) (k := 0) (by omega)
    obtain ⟨n, h1, hn, h1'⟩ := idx_oct (p := p) (k := 1) (by omega)
    rw [← hn] at hl ⊢
    obtain ⟨s, hs, hs', _⟩ := slice_same (p := p) (n := 6 + n.toNat) (a := 2) (b := 2 + n.toNat) (by omega) (by omega) hl
    obtain ⟨t, ht, ht', hl4⟩ := slice_same (p := p) (n := 6 + n.toNat) (a := 2 + n.toNat) (b := 2 + n.toNat + 4) (by omega)
      (by omega) hl
    obtain ⟨x, hx⟩ := rd32_ok (b := t) (by omega)
    have hl' : (p.take (6 + n.toNat)).length = 6 + n.toNat := by simp; omega
    refine ⟨⟨b0 &&& 0x0f, n, s, x⟩, ?_, ?_⟩
    · simp (disch := omega) only [parseS1UDF, ite_short, h0, h1, hs, ht, hx, bind_ok]
    · simp (disch := omega) only [parseS1UDF, hl', ite_short, h0', h1', hs', ht', hx, bind_ok]

/-- C78: S103 PDN data forwarding -/
theorem C78_s103 : ReadsBy 90 sizeS103 IE.s103 := by
  refine readsBy_of (par := parseS103) (fun i h => by simp [IE.s103, h]) ?_ ?_ ?_
  · intro p q hl h
    simp only [sizeS103] at h ⊢
    rw [oct_take (k := 0) h (by omega), oct_take (k := 5 + oct p 0) h (by omega)]
  · intro p hl
    unfold parseS103
    split
    · exact ⟨_, rfl⟩
    · obtain ⟨n, h0, hn, _⟩ := idx_oct (p := p) (k := 0) (by omega)
      rw [h0, bind_ok]
      simp only [sizeS103, ← hn] at hl
      split
      · exact ⟨_, rfl⟩
      · obtain ⟨s, hs, _⟩ := slice_is (p := p) (a := 1) (b := 1 + n.toNat) (by omega) (by omega)
        rw [hs, bind_ok]
        dsimp only
        split
        · exact ⟨_, rfl⟩
        · obtain ⟨t, ht, hl4⟩ := slice_is (p := p) (a := 1 + n.toNat) (b := 1 + n.toNat + 4) (by omega) (by omega)
          obtain ⟨x, hx⟩ := rd32_ok (b := t) (by omega)
          rw [ht, bind_ok, hx, bind_ok]
          split
          · exact ⟨_, rfl⟩
          · obtain ⟨k, hk, hk', _⟩ := idx_oct (p := p) (k := 1 + n.toNat + 4) (by omega)
            rw [hk, bind_ok, if_pos (by rw [show 5 + n.toNat = 1 + n.toNat + 4 by omega, ← hk'] at hl; omega)]
            exact ⟨_, rfl⟩
  · intro p hl
    simp only [sizeS103] at hl ⊢
    obtain ⟨n, h0, hn, h0'⟩ := idx_oct (p := p) (k := 0) (by omega)
    rw [← hn] at hl ⊢
    obtain ⟨k, h1, hk, h1'⟩ := idx_oct (p := p) (k := 1 + n.toNat + 4) (by omega)
    rw [show 5 + n.toNat = 1 + n.toNat + 4 by omega, ← hk] at hl ⊢
    obtain ⟨s, hs, hs', _⟩ := slice_same (p := p) (n := 6 + n.toNat + k.toNat) (a := 1) (b := 1 + n.toNat) (by omega) (by omega) hl
    obtain ⟨t, ht, ht', hl4⟩ := slice_same (p := p) (n := 6 + n.toNat + k.toNat) (a := 1 + n.toNat) (b := 1 + n.toNat + 4) (by omega)
      (by omega) hl
    obtain ⟨x, hx⟩ := rd32_ok (b := t) (by omega)
    have hl' : (p.take (6 + n.toNat + k.toNat)).length = 6 + n.toNat + k.toNat := by simp; omega
    obtain ⟨es, he, he'⟩ : ∃ es, getEBIs p k.toNat (1 + n.toNat + 4 + 1) = ok es ∧
        getEBIs (p.take (6 + n.toNat + k.toNat)) k.toNat (1 + n.toNat + 4 + 1) = ok es := by
      have gen : ∀ (m off N : Nat), off + m ≤ N → N ≤ p.length → ∃ es, getEBIs p m off = ok es ∧
          getEBIs (p.take N) m off = ok es := by
        intro m
        induction m with
        | zero => intro off N _ _; exact ⟨[], rfl, rfl⟩
        | succ m ih =>
          intro off N h hN
          obtain ⟨x, hx, _, hx'⟩ := idx_oct (p := p) (k := off) (by omega)
          obtain ⟨es, h1, h2⟩ := ih (off + 1) N (by omega) hN
          exact ⟨x :: es, by rw [getEBIs, hx, bind_ok, h1, bind_ok], by rw [getEBIs, hx' N (by omega), bind_ok, h2, bind_ok]⟩
      exact gen _ _ _ (by omega) hl
    refine ⟨⟨n, s, x, k, es⟩, ?_, ?_⟩
    · simp (disch := omega) only [parseS103, ite_short, ite_short', h0, h1, hs, ht, hx, he, bind_ok]
    · simp (disch := omega) only [parseS103, hl', ite_short, ite_short', h0', h1', hs', ht', hx, he', bind_ok]

/-- number of octets of a part that is there if the bit `k` of `x` is set -/
def wide (x : UInt8) (k w : Nat) : Nat := w * (x.toNat / 2 ^ k % 2)
theorem wide_eq (x : UInt8) (w : Nat) :
    wide x 7 w = (if has8thBit x then w else 0) ∧ wide x 6 w = (if has7thBit x then w else 0) ∧
    wide x 5 w = (if has6thBit x then w else 0) ∧ wide x 4 w = (if has5thBit x then w else 0) ∧
    wide x 3 w = (if has4thBit x then w else 0) ∧ wide x 2 w = (if has3rdBit x then w else 0) ∧
    wide x 1 w = (if has2ndBit x then w else 0) ∧ wide x 0 w = (if has1stBit x then w else 0) := by
  obtain ⟨h8, h7, h6, h5, h4, h3, h2, h1⟩ := bit8_eq x
  simp only [h8, h7, h6, h5, h4, h3, h2, h1, wide, decide_eq_true_eq]
  have : ∀ m : Nat, w * (m % 2) = if m % 2 = 1 then w else 0 := by
    intro m
    rcases Nat.mod_two_eq_zero_or_one m with h | h <;> simp [h]
  simp only [this, and_self]

/-- what a part of an element has in common: it takes `w` octets if it is there -/
def Part {α : Type} (flag : Bool) (w : Nat) (par : Bytes → Nat → Res (α × Nat)) : Prop :=
  (∀ b off, b.length < off + (if flag then w else 0) → off ≤ b.length → ∃ e, par b off = err e) ∧
  (∀ b off n, off + (if flag then w else 0) ≤ n → n ≤ b.length → ∃ v, par b off = ok (v, off + (if flag then w else 0)) ∧
    par (b.take n) off = ok (v, off + (if flag then w else 0)))

theorem part_absent {α : Type} {w : Nat} {par : Bytes → Nat → Res (α × Nat)} (v : α) (h : ∀ b off, par b off = ok (v, off)) :
    Part false w par := by
  refine ⟨fun b off h1 h2 => ?_, fun b off n _ _ => ⟨v, ?_, ?_⟩⟩
  · simp at h1; omega
  · simpa using h b off
  · simpa using h _ off

theorem part_area (flag : Bool) : Part flag 7 (getArea flag) := by
  cases flag
  · exact part_absent none (fun b off => rfl)
  · refine ⟨fun b off h _ => ⟨.eof, by simp only [getArea, if_true]; rw [if_pos (by simpa using h)]⟩, fun b off n h hn => ?_⟩
    simp only [if_true] at h ⊢
    obtain ⟨s, hs, hs', h3⟩ := slice_same (p := b) (n := n) (a := off) (b := off + 3) (by omega) (by omega) hn
    obtain ⟨t, ht, ht', h4⟩ := slice_same (p := b) (n := n) (a := off + 3) (b := off + 5) (by omega) (by omega) hn
    obtain ⟨u, hu, hu', h5⟩ := slice_same (p := b) (n := n) (a := off + 5) (b := off + 7) (by omega) (by omega) hn
    have hl : (b.take n).length = n := by simp; omega
    refine ⟨some ⟨(valPLMN s).1, (valPLMN s).2, val16 t, val16 u⟩, ?_, ?_⟩
    · simp (disch := omega) only [getArea, if_true, ite_short, hs, ht, hu, bind_ok, decodePLMN_val, rd16_val]
    · simp (disch := omega) only [getArea, if_true, hl, ite_short, hs', ht', hu', bind_ok, decodePLMN_val, rd16_val]

theorem part_loc (flag : Bool) : Part flag 5 (getLoc flag) := by
  cases flag
  · exact part_absent none (fun b off => rfl)
  · refine ⟨fun b off h _ => ⟨.eof, by simp only [getLoc, if_true]; rw [if_pos (by simpa using h)]⟩, fun b off n h hn => ?_⟩
    simp only [if_true] at h ⊢
    obtain ⟨s, hs, hs', h3⟩ := slice_same (p := b) (n := n) (a := off) (b := off + 3) (by omega) (by omega) hn
    obtain ⟨t, ht, ht', h4⟩ := slice_same (p := b) (n := n) (a := off + 3) (b := off + 5) (by omega) (by omega) hn
    have hl : (b.take n).length = n := by simp; omega
    refine ⟨some ⟨(valPLMN s).1, (valPLMN s).2, val16 t⟩, ?_, ?_⟩
    · simp (disch := omega) only [getLoc, if_true, ite_short, hs, ht, bind_ok, decodePLMN_val, rd16_val]
    · simp (disch := omega) only [getLoc, if_true, hl, ite_short, hs', ht', bind_ok, decodePLMN_val, rd16_val]

theorem part_ecgi (flag : Bool) : Part flag 7 (getECGI flag) := by
  cases flag
  · exact part_absent none (fun b off => rfl)
  · refine ⟨fun b off h _ => ⟨.eof, by simp only [getECGI, if_true]; rw [if_pos (by simpa using h)]⟩, fun b off n h hn => ?_⟩
    simp only [if_true] at h ⊢
    obtain ⟨s, hs, hs', h3⟩ := slice_same (p := b) (n := n) (a := off) (b := off + 3) (by omega) (by omega) hn
    obtain ⟨t, ht, ht', h4⟩ := slice_same (p := b) (n := n) (a := off + 3) (b := off + 7) (by omega) (by omega) hn
    have hl : (b.take n).length = n := by simp; omega
    refine ⟨some ⟨(valPLMN s).1, (valPLMN s).2, val32 t⟩, ?_, ?_⟩
    · simp (disch := omega) only [getECGI, if_true, ite_short, hs, ht, bind_ok, decodePLMN_val, rd32_val]
    · simp (disch := omega) only [getECGI, if_true, hl, ite_short, hs', ht', bind_ok, decodePLMN_val, rd32_val]

theorem part_enb (flag : Bool) : Part flag 6 (getENB flag) := by
  cases flag
  · exact part_absent none (fun b off => rfl)
  · refine ⟨fun b off h _ => ⟨.eof, by simp only [getENB, if_true]; rw [if_pos (by simpa using h)]⟩, fun b off n h hn => ?_⟩
    simp only [if_true] at h ⊢
    obtain ⟨s, hs, hs', h3⟩ := slice_same (p := b) (n := n) (a := off) (b := off + 3) (by omega) (by omega) hn
    obtain ⟨t, ht, ht', h4⟩ := slice_same (p := b) (n := n) (a := off + 3) (b := off + 6) (by omega) (by omega) hn
    have hl : (b.take n).length = n := by simp; omega
    refine ⟨some ⟨(valPLMN s).1, (valPLMN s).2, uint24To32 t⟩, ?_, ?_⟩
    · simp (disch := omega) only [getENB, if_true, ite_short, hs, ht, bind_ok, decodePLMN_val]
    · simp (disch := omega) only [getENB, if_true, hl, ite_short, hs', ht', bind_ok, decodePLMN_val]

/-- one part after another: either the part fails, or what follows starts after it -/
theorem part_short {α β : Type} {flag : Bool} {w : Nat} {par : Bytes → Nat → Res (α × Nat)} (h : Part flag w par) {b : Bytes}
    {off : Nat} (ho : off ≤ b.length) {f : α × Nat → Res β}
    (hn : ∀ v, off + (if flag then w else 0) ≤ b.length → ∃ e, f (v, off + (if flag then w else 0)) = err e) :
    ∃ e, (par b off).bind f = err e := by
  by_cases hl : b.length < off + (if flag then w else 0)
  · obtain ⟨e, he⟩ := h.1 b off hl ho
    exact ⟨e, by rw [he]; rfl⟩
  · obtain ⟨v, hv, _⟩ := h.2 b off b.length (by omega) (by omega)
    obtain ⟨e, he⟩ := hn v (by omega)
    exact ⟨e, by rw [hv]; exact he⟩

theorem part_last {α β : Type} {flag : Bool} {w : Nat} {par : Bytes → Nat → Res (α × Nat)} (h : Part flag w par) {b : Bytes}
    {off : Nat} (ho : off ≤ b.length) {f : α × Nat → Res β} (hs : b.length < off + (if flag then w else 0)) :
    ∃ e, (par b off).bind f = err e := part_short h ho (fun v hl => absurd hs (by omega))

theorem sizeULI_eq {p : Bytes} {x : UInt8} (h : x.toNat = oct p 0) :
    sizeULI p = 1 + (if has1stBit x then 7 else 0) + (if has2ndBit x then 7 else 0) + (if has3rdBit x then 7 else 0) +
      (if has4thBit x then 5 else 0) + (if has5thBit x then 7 else 0) + (if has6thBit x then 5 else 0) +
      (if has7thBit x then 6 else 0) + (if has8thBit x then 6 else 0) := by
  obtain ⟨-, -, -, e5, -, e3, e2, e1⟩ := wide_eq x 7
  obtain ⟨-, -, e6, -, e4, -⟩ := wide_eq x 5
  obtain ⟨e8, e7, -⟩ := wide_eq x 6
  rw [← e1, ← e2, ← e3, ← e4, ← e5, ← e6, ← e7, ← e8]
  simp only [sizeULI, flag0, wide, h]

/-- C78: User Location Information -/
theorem C78_uli : ReadsBy 86 sizeULI IE.uli := by
  refine readsBy_of (par := parseULI) (fun i h => by simp [IE.uli, h]) ?_ ?_ ?_
  · intro p q hl h
    simp only [sizeULI, flag0] at h ⊢
    rw [oct_take (k := 0) h (by omega)]
  · intro p hl
    unfold parseULI
    split
    · exact ⟨_, rfl⟩
    · obtain ⟨x, h0, hx, _⟩ := idx_oct (p := p) (k := 0) (by omega)
      rw [h0, bind_ok]
      rw [sizeULI_eq hx] at hl
      refine part_short (part_area _) (by omega) (fun _ _ => ?_)
      refine part_short (part_area _) (by omega) (fun _ _ => ?_)
      refine part_short (part_area _) (by omega) (fun _ _ => ?_)
      refine part_short (part_loc _) (by omega) (fun _ _ => ?_)
      refine part_short (part_ecgi _) (by omega) (fun _ _ => ?_)
      refine part_short (part_loc _) (by omega) (fun _ _ => ?_)
      refine part_short (part_enb _) (by omega) (fun _ _ => ?_)
      exact part_last (part_enb _) (by omega) (by omega)
  · intro p hl
    obtain ⟨x, h0, hx, h0'⟩ := idx_oct (p := p) (k := 0) (by unfold sizeULI at hl; omega)
    have e := sizeULI_eq hx
    have h0'' := h0' (sizeULI p) (by unfold sizeULI; omega)
    generalize hN : sizeULI p = N at *
    obtain ⟨v1, a1, b1⟩ := (part_area (has1stBit x)).2 p (1) N (by omega) hl
    obtain ⟨v2, a2, b2⟩ := (part_area (has2ndBit x)).2 p (1 + (if has1stBit x then 7 else 0)) N (by omega) hl
    obtain ⟨v3, a3, b3⟩ := (part_area (has3rdBit x)).2 p (1 + (if has1stBit x then 7 else 0) + (if has2ndBit x then 7 else 0)) N (by omega) hl
    obtain ⟨v4, a4, b4⟩ := (part_loc (has4thBit x)).2 p (1 + (if has1stBit x then 7 else 0) + (if has2ndBit x then 7 else 0) + (if has3rdBit x then 7 else 0)) N (by omega) hl
    obtain ⟨v5, a5, b5⟩ := (part_ecgi (has5thBit x)).2 p (1 + (if has1stBit x then 7 else 0) + (if has2ndBit x then 7 else 0) + (if has3rdBit x then 7 else 0) + (if has4thBit x then 5 else 0)) N (by omega) hl
    obtain ⟨v6, a6, b6⟩ := (part_loc (has6thBit x)).2 p (1 + (if has1stBit x then 7 else 0) + (if has2ndBit x then 7 else 0) + (if has3rdBit x then 7 else 0) + (if has4thBit x then 5 else 0) + (if has5thBit x then 7 else 0)) N (by omega) hl
    obtain ⟨v7, a7, b7⟩ := (part_enb (has7thBit x)).2 p (1 + (if has1stBit x then 7 else 0) + (if has2ndBit x then 7 else 0) + (if has3rdBit x then 7 else 0) + (if has4thBit x then 5 else 0) + (if has5thBit x then 7 else 0) + (if has6thBit x then 5 else 0)) N (by omega) hl
    obtain ⟨v8, a8, b8⟩ := (part_enb (has8thBit x)).2 p (1 + (if has1stBit x then 7 else 0) + (if has2ndBit x then 7 else 0) + (if has3rdBit x then 7 else 0) + (if has4thBit x then 5 else 0) + (if has5thBit x then 7 else 0) + (if has6thBit x then 5 else 0) + (if has7thBit x then 6 else 0)) N (Nat.le_of_eq e.symm) hl
    have hl' : (p.take N).length = N := by simp; omega
    refine ⟨⟨x, v1, v2, v3, v4, v5, v6, v7, v8⟩, ?_, ?_⟩
    · simp (disch := omega) only [parseULI, ite_short, h0, bind_ok, a1, a2, a3, a4, a5, a6, a7, a8]
    · simp (disch := omega) only [parseULI, hl', ite_short, h0'', bind_ok, b1, b2, b3, b4, b5, b6, b7, b8]

theorem teid_part : ∀ f : FTEID,
    (∀ b off, b.length < off + (if has8thBit f.flags then 4 else 0) → off ≤ b.length → ∃ e, FTEID.getV4 b f off = err e) ∧
    (∀ b off n, off + (if has8thBit f.flags then 4 else 0) ≤ n → n ≤ b.length → ∃ v : FTEID, v.flags = f.flags ∧
      FTEID.getV4 b f off = ok (v, off + (if has8thBit f.flags then 4 else 0)) ∧
      FTEID.getV4 (b.take n) f off = ok (v, off + (if has8thBit f.flags then 4 else 0))) ∧
    (∀ b off, b.length < off + (if has7thBit f.flags then 16 else 0) → off ≤ b.length → ∃ e, FTEID.getV6 b f off = err e) ∧
    (∀ b off n, off + (if has7thBit f.flags then 16 else 0) ≤ n → n ≤ b.length → ∃ v : FTEID,
      FTEID.getV6 b f off = ok v ∧ FTEID.getV6 (b.take n) f off = ok v) := by
  intro f
  refine ⟨fun b off h ho => ?_, fun b off n h hn => ?_, fun b off h ho => ?_, fun b off n h hn => ?_⟩
  · unfold FTEID.getV4
    split
    · rename_i hb
      simp only [hb, if_true] at h
      rw [if_pos h]; exact ⟨_, rfl⟩
    · rename_i hb
      simp only [hb, if_false, Bool.false_eq_true] at h; omega
  · by_cases hb : has8thBit f.flags = true
    · simp only [hb, if_true] at h ⊢
      obtain ⟨s, hs, hs', h4⟩ := slice_same (p := b) (n := n) (a := off) (b := off + 4) (by omega) (by omega) hn
      have hl : (b.take n).length = n := by simp; omega
      have e4 : NetIP.to4 s = some s := by simp [NetIP.to4, show s.length = 4 by omega]
      refine ⟨{ f with v4 := some s }, rfl, ?_, ?_⟩
      · simp (disch := omega) only [FTEID.getV4, hb, if_true, ite_short, hs, bind_ok, e4]
      · simp (disch := omega) only [FTEID.getV4, hb, if_true, hl, ite_short, hs', bind_ok, e4]
    · simp only [hb, if_false, Bool.false_eq_true] at h ⊢
      exact ⟨f, rfl, by simp [FTEID.getV4, hb], by simp [FTEID.getV4, hb]⟩
  · unfold FTEID.getV6
    split
    · rename_i hb
      simp only [hb, if_true] at h
      rw [if_pos h]; exact ⟨_, rfl⟩
    · rename_i hb
      simp only [hb, if_false, Bool.false_eq_true] at h; omega
  · by_cases hb : has7thBit f.flags = true
    · simp only [hb, if_true] at h ⊢
      obtain ⟨s, hs, hs', h4⟩ := slice_same (p := b) (n := n) (a := off) (b := off + 16) (by omega) (by omega) hn
      have hl : (b.take n).length = n := by simp; omega
      have e4 := to16_16 (v := s) (by omega)
      refine ⟨{ f with v6 := some s }, ?_, ?_⟩
      · simp (disch := omega) only [FTEID.getV6, hb, if_true, ite_short, hs, bind_ok, e4]
      · simp (disch := omega) only [FTEID.getV6, hb, if_true, hl, ite_short, hs', bind_ok, e4]
    · exact ⟨f, by simp [FTEID.getV6, hb], by simp [FTEID.getV6, hb]⟩

theorem teid_flags : ∀ x : UInt8, has8thBit (x &&& 0xc0) = has8thBit x ∧ has7thBit (x &&& 0xc0) = has7thBit x :=
  forall_byte (by decide +kernel)

/-- C78: fully qualified TEID -/
theorem C78_fteid : ReadsBy 87 sizeFTEID IE.fteid := by
  have hz : ∀ {p : Bytes} {x : UInt8}, x.toNat = oct p 0 →
      sizeFTEID p = 5 + (if has8thBit x then 4 else 0) + (if has7thBit x then 16 else 0) := by
    intro p x h
    rw [← (wide_eq x 4).1, ← (wide_eq x 16).2.1]
    simp only [sizeFTEID, flag0, wide, h]
  refine readsBy_of (par := parseFTEID) (fun i h => by simp [IE.fteid, h]) ?_ ?_ ?_
  · intro p q hl h
    simp only [sizeFTEID, flag0] at h ⊢
    rw [oct_take (k := 0) h (by omega)]
  · intro p hl
    unfold parseFTEID
    split
    · exact ⟨_, rfl⟩
    · obtain ⟨x, h0, hx, _⟩ := idx_oct (p := p) (k := 0) (by omega)
      obtain ⟨t, ht, hl4⟩ := slice_is (p := p) (a := 1) (b := 5) (by omega) (by omega)
      obtain ⟨v, hv⟩ := rd32_ok (b := t) (by omega)
      rw [h0, bind_ok, ht, bind_ok, hv, bind_ok]
      rw [hz hx, ← (teid_flags x).1, ← (teid_flags x).2] at hl
      obtain ⟨f, hf⟩ : ∃ f : FTEID, f = ⟨x &&& 0xc0, x &&& 0x3f, v, none, none⟩ := ⟨_, rfl⟩
      have hfl : f.flags = x &&& 0xc0 := by rw [hf]
      rw [← hf]
      rw [← hfl] at hl
      obtain ⟨s4, o4, s6, -⟩ := teid_part f
      by_cases h4 : p.length < 5 + (if has8thBit f.flags then 4 else 0)
      · obtain ⟨e, he⟩ := s4 p 5 h4 (by omega)
        exact ⟨e, by rw [he]; rfl⟩
      · obtain ⟨w, hw, hw', _⟩ := o4 p 5 p.length (by omega) (by omega)
        obtain ⟨e, he⟩ := (teid_part w).2.2.1 p (5 + (if has8thBit f.flags then 4 else 0)) (by rw [hw]; omega) (by omega)
        exact ⟨e, by rw [hw', bind_ok]; exact he⟩
  · intro p hl
    obtain ⟨x, h0, hx, h0'⟩ := idx_oct (p := p) (k := 0) (by unfold sizeFTEID at hl; omega)
    have e := hz hx
    rw [← (teid_flags x).1, ← (teid_flags x).2] at e
    have h0'' := h0' (sizeFTEID p) (by unfold sizeFTEID; omega)
    generalize hN : sizeFTEID p = N at *
    obtain ⟨t, ht, ht', hl4⟩ := slice_same (p := p) (n := N) (a := 1) (b := 5) (by omega) (by omega) hl
    obtain ⟨v, hv⟩ := rd32_ok (b := t) (by omega)
    obtain ⟨f, hf⟩ : ∃ f : FTEID, f = ⟨x &&& 0xc0, x &&& 0x3f, v, none, none⟩ := ⟨_, rfl⟩
    have hfl : f.flags = x &&& 0xc0 := by rw [hf]
    rw [← hfl] at e
    obtain ⟨w, hw, hw1, hw2⟩ := (teid_part f).2.1 p 5 N (by omega) hl
    obtain ⟨u, hu1, hu2⟩ := (teid_part w).2.2.2 p (5 + (if has8thBit f.flags then 4 else 0)) N (by rw [hw]; omega) hl
    have hl' : (p.take N).length = N := by simp; omega
    refine ⟨u, ?_, ?_⟩
    · simp (disch := omega) only [parseFTEID, ite_short, h0, bind_ok, ht, hv, ← hf, hw1, hu1]
    · simp (disch := omega) only [parseFTEID, hl', ite_short, h0'', bind_ok, ht', hv, ← hf, hw2, hu2]

/-- C78: PDN Address Allocation -/
theorem C78_paa : ReadsBy 79 sizePAA (fun i => parsePAA i.payload) := by
  have hm : ∀ x : UInt8, x.toNat % 8 = (x &&& 0x07).toNat := forall_byte (by decide +kernel)
  have hz : ∀ {p : Bytes} {x : UInt8}, x.toNat = oct p 0 →
      sizePAA p = if x &&& 0x07 = 1 then 5 else if x &&& 0x07 = 2 then 18 else if x &&& 0x07 = 3 then 22 else 1 := by
    intro p x h
    rw [sizePAA, ← h, hm x]
    generalize x &&& 0x07 = y
    revert y
    exact forall_byte (by decide +kernel)
  refine readsBy_of (par := parsePAA) (fun i h => rfl) ?_ ?_ ?_
  · intro p q hl h
    have : 0 < sizePAA p := by unfold sizePAA; split <;> omega
    unfold sizePAA at h ⊢
    rw [oct_take (k := 0) h (by exact this)]
  · intro p hl
    unfold parsePAA
    split
    · exact ⟨_, rfl⟩
    · obtain ⟨x, h0, hx, _⟩ := idx_oct (p := p) (k := 0) (by omega)
      rw [h0, bind_ok]
      rw [hz hx] at hl
      dsimp only
      by_cases h1 : x &&& 0x07 = 1
      · rw [if_pos h1] at hl ⊢; rw [if_pos hl]; exact ⟨_, rfl⟩
      · rw [if_neg h1] at hl ⊢
        by_cases h2 : x &&& 0x07 = 2
        · rw [if_pos h2] at hl ⊢; rw [if_pos hl]; exact ⟨_, rfl⟩
        · rw [if_neg h2] at hl ⊢
          by_cases h3 : x &&& 0x07 = 3
          · rw [if_pos h3] at hl ⊢; rw [if_pos hl]; exact ⟨_, rfl⟩
          · rw [if_neg h3] at hl; omega
  · intro p hl
    have hpos : 0 < sizePAA p := by unfold sizePAA; split <;> omega
    obtain ⟨x, h0, hx, h0'⟩ := idx_oct (p := p) (k := 0) (by omega)
    have h0'' := h0' _ hpos
    have hl' : (p.take (sizePAA p)).length = sizePAA p := by simp; omega
    have e := hz hx
    by_cases h1 : x &&& 0x07 = 1
    · rw [if_pos h1] at e
      rw [e] at hl hl' h0'' ⊢
      obtain ⟨s, hs, hs', _⟩ := slice_same (p := p) (n := 5) (a := 1) (b := 5) (by omega) (by omega) hl
      refine ⟨⟨1, s, 0, []⟩, ?_, ?_⟩
      · simp (disch := omega) only [parsePAA, ite_short, h0, bind_ok, h1, if_true, hs]
      · simp (disch := omega) only [parsePAA, hl', ite_short, h0'', bind_ok, h1, if_true, hs']
    · rw [if_neg h1] at e
      by_cases h2 : x &&& 0x07 = 2
      · rw [if_pos h2] at e
        rw [e] at hl hl' h0'' ⊢
        obtain ⟨y, k0, _, k0'⟩ := idx_oct (p := p) (k := 1) (by omega)
        obtain ⟨s, hs, hs', _⟩ := slice_same (p := p) (n := 18) (a := 2) (b := 18) (by omega) (by omega) hl
        refine ⟨⟨2, [], y, s⟩, ?_, ?_⟩
        · simp (disch := omega) only [parsePAA, ite_short, h0, k0, bind_ok, h2, if_true, hs]; rfl
        · simp (disch := omega) only [parsePAA, hl', ite_short, h0'', k0', bind_ok, h2, if_true, hs']; rfl
      · rw [if_neg h2] at e
        by_cases h3 : x &&& 0x07 = 3
        · rw [if_pos h3] at e
          rw [e] at hl hl' h0'' ⊢
          obtain ⟨y, k0, _, k0'⟩ := idx_oct (p := p) (k := 1) (by omega)
          obtain ⟨s, hs, hs', _⟩ := slice_same (p := p) (n := 22) (a := 2) (b := 18) (by omega) (by omega) hl
          obtain ⟨t, ht, ht', _⟩ := slice_same (p := p) (n := 22) (a := 18) (b := 22) (by omega) (by omega) hl
          refine ⟨⟨3, t, y, s⟩, ?_, ?_⟩
          · simp (disch := omega) only [parsePAA, ite_short, h0, k0, bind_ok, h3, if_true, hs, ht]; rfl
          · simp (disch := omega) only [parsePAA, hl', ite_short, h0'', k0', bind_ok, h3, if_true, hs', ht']; rfl
        · rw [if_neg h3] at e
          rw [e] at hl hl' h0'' ⊢
          refine ⟨⟨x &&& 0x07, [], 0, []⟩, ?_, ?_⟩
          · simp (disch := omega) only [parsePAA, ite_short, h0, bind_ok, h1, h2, h3, if_false]
          · simp (disch := omega) only [parsePAA, hl', ite_short, h0'', bind_ok, h1, h2, h3, if_false]

/-- C78: `IP` and `IPv6` fail on an element that has not got the octets it announces -/
theorem C78_ip_short (i : IE) :
    (i.typ = 79 → i.payload.length < sizePAA i.payload → (∃ e, i.ip = err e) ∧ ∃ e, i.ipv6 = err e) ∧
    (i.typ = 87 → i.payload.length < sizeFTEID i.payload → (∃ e, i.ip = err e) ∧ ∃ e, i.ipv6 = err e) ∧
    (i.typ = 90 → i.payload.length < 1 + oct i.payload 0 → (∃ e, i.ip = err e) ∧ ∃ e, i.ipv6 = err e) ∧
    (i.typ = 91 → i.payload.length < 2 + oct i.payload 1 → (∃ e, i.ip = err e) ∧ ∃ e, i.ipv6 = err e) := by
  have addr : ∀ (p : Bytes) (k : Nat), k < p.length → p.length < k + 1 + oct p k → ∃ e, addrAt p k = err e := by
    intro p k hk hl
    obtain ⟨n, h0, hn, _⟩ := idx_oct hk
    rw [addrAt, h0, bind_ok]
    split
    · subst n; rw [if_pos (by simp at hn; omega)]; exact ⟨_, rfl⟩
    · split
      · subst n; rw [if_pos (by simp at hn; omega)]; exact ⟨_, rfl⟩
      · exact ⟨_, rfl⟩
  refine ⟨fun ht hl => ?_, fun ht hl => ?_, fun ht hl => ?_, fun ht hl => ?_⟩
  · obtain ⟨e, he⟩ := C78_paa.1 i ht hl
    simp only at he
    constructor
    · unfold IE.ip
      split
      · exact ⟨_, rfl⟩
      · simp only [ht, show ¬((79 : UInt8) = 74) by decide, if_true, if_false]
        split
        · exact ⟨_, rfl⟩
        · rw [he]; exact ⟨e, rfl⟩
    · unfold IE.ipv6
      split
      · exact ⟨_, rfl⟩
      · simp [ht, he]
  · obtain ⟨e, he⟩ := C78_fteid.1 i ht hl
    have he : parseFTEID i.payload = err e := by simpa [IE.fteid, ht] using he
    constructor
    · unfold IE.ip
      split
      · exact ⟨_, rfl⟩
      · simp [ht, he]
    · unfold IE.ipv6
      split
      · exact ⟨_, rfl⟩
      · simp [ht, he]
  · have h : ∃ e, i.ip = err e := by
      unfold IE.ip
      split
      · exact ⟨_, rfl⟩
      · simp only [ht, show ¬((90 : UInt8) = 74) by decide, show ¬((90 : UInt8) = 79) by decide, if_true, if_false]
        exact addr _ 0 (by omega) (by omega)
    refine ⟨h, ?_⟩
    obtain ⟨e, he⟩ := h
    unfold IE.ipv6
    split
    · exact ⟨_, rfl⟩
    · simp [ht, he]
  · have h : ∃ e, i.ip = err e := by
      unfold IE.ip
      split
      · exact ⟨_, rfl⟩
      · simp only [ht, show ¬((91 : UInt8) = 74) by decide, show ¬((91 : UInt8) = 79) by decide,
          show ¬((91 : UInt8) = 90) by decide, if_true, if_false]
        exact addr _ 1 (by omega) (by omega)
    refine ⟨h, ?_⟩
    obtain ⟨e, he⟩ := h
    unfold IE.ipv6
    split
    · exact ⟨_, rfl⟩
    · simp [ht, he]

/-- C78: the accessors answering yes or no answer no when the octet of their flag is missing; those looking into a Bearer
Context are treated there on the elements inside -/
theorem C78_flags (i : IE) (h : i.typ ≠ 93) :
    (∀ a ∈ indAccessors, i.payload.length ≤ a.2.2.1 → i.indFlag a = ok false) ∧
    (i.payload = [] → i.hasIPv4 = ok false ∧ i.hasIPv6 = ok false ∧ i.hasPVI g = ok false ∧ i.hasPCI g = ok false ∧
      (∀ r ∈ i.nodeFeatureFlags g, r = ok false) ∧ i.hasMSRI g = ok false ∧ i.hasLMRI g = ok false ∧
      i.localMBMSRelease g = ok false ∧ i.mbmsReEstablishment g = ok false ∧ i.hasPPC g = ok false ∧ i.hasVB g = ok false ∧
      i.hasVind g = ok false ∧ i.hasASI g = ok false ∧ i.activityStatus g = ok false ∧ i.vsrvcc g = ok false ∧
      i.voiceBearer g = ok false ∧ i.prohibitCompression g = ok false) ∧
    (i.payload.length < 2 → i.hasCS g = ok false ∧ i.hasBCE g = ok false ∧ i.hasPCE g = ok false ∧ i.isRemoteCause = ok false ∧
      i.isBearerContextIEError = ok false ∧ i.isPDNConnectionIEError = ok false) := by
  refine ⟨fun a ha hl => ?_, fun hp => ?_, fun hl => ?_⟩
  · have hm : ∀ a ∈ indAccessors, a.2.2.1 < a.2.1 := by decide +kernel
    unfold IE.indFlag
    split
    · rfl
    · rw [if_pos (by have := hm a ha; omega)]
  · have hv : ∃ e, i.valueAsUint8 g = err e := by
      unfold IE.valueAsUint8
      split
      · exact ⟨_, rfl⟩
      · rw [if_pos (by simp [hp])]; exact ⟨_, rfl⟩
    obtain ⟨e, he⟩ := hv
    have harp : ∃ e, i.arp g = err e := by unfold IE.arp; split <;> simp [he]
    have hnf : ∃ e, i.nodeFeatures g = err e := by unfold IE.nodeFeatures; split <;> simp [he]
    have hmb : ∃ e, i.mbmsFlags g = err e := by unfold IE.mbmsFlags; split <;> simp [he]
    have hbf : ∃ e, i.bearerFlags g = err e := by
      unfold IE.bearerFlags; rw [if_neg h]; split <;> simp [he]
    obtain ⟨_, h1⟩ := harp
    obtain ⟨_, h2⟩ := hnf
    obtain ⟨_, h3⟩ := hmb
    obtain ⟨_, h4⟩ := hbf
    simp [IE.hasIPv4, IE.hasIPv6, hp, IE.hasPVI, IE.hasPCI, h1, IE.nodeFeatureFlags, h2, flagOf, IE.hasMSRI, IE.hasLMRI,
      IE.localMBMSRelease, IE.mbmsReEstablishment, h3, IE.hasPPC, IE.hasVB, IE.hasVind, IE.hasASI, IE.activityStatus, IE.vsrvcc,
      IE.voiceBearer, IE.prohibitCompression, h4]
  · have hc : ∃ e, i.causeFlags g = err e := by
      unfold IE.causeFlags; rw [if_neg h]; split <;> simp [hl]
    obtain ⟨_, h1⟩ := hc
    simp [IE.hasCS, IE.hasBCE, IE.hasPCE, h1, flagOf, IE.isRemoteCause, IE.isBearerContextIEError, IE.isPDNConnectionIEError,
      causeBit, hl]

/-! ### concrete elements, and where the property fails -/

example : (newIE 87 0 [0x80, 0, 0, 0, 7, 10, 0, 0]).fteid = err .eof ∧
    (newIE 87 0 [0x80, 0, 0, 0, 7, 10, 0, 0, 1]).fteid = ok ⟨0x80, 0, 7, some [10, 0, 0, 1], none⟩ ∧
    sizeFTEID [0x80] = 9 ∧ sizeFTEID [0xc5] = 25 ∧ sizePAA [3] = 22 ∧ sizeS1UDF [5, 4] = 10 ∧
    sizeS103 [1, 9, 0, 0, 0, 7, 2] = 9 ∧ sizeULI [0x18] = 13 := by decide +kernel

example : (newIE 86 0 ([0x18] ++ [0x62, 0xf2, 0x10, 0, 1] ++ [0x62, 0xf2, 0x10, 0, 0, 1])).uli = err .eof ∧
    (newIE 72 0 [0, 0, 0, 1, 0, 0, 0]).ambr = err .eof ∧ (newIE 72 0 [0, 0, 0, 1, 0, 0, 0, 2]).ambr = ok ⟨1, 2⟩ ∧
    (newIE 72 0 [0, 0, 0, 1, 0, 0, 0]).ambrUp = ok 1 ∧ (newIE 92 0 []).delayValue = err .eof := by decide +kernel

/-- C78 fails for the P-TMSI signature: it has three octets, and with one, two or four the accessor returns 0 and no error -/
theorem C78_signature_wrong : (newIE 112 0 [1, 2, 3]).ptmsiSignature = ok 0x010203 ∧
    (newIE 112 0 [1, 2]).ptmsiSignature = ok 0 ∧ (newIE 112 0 [1, 2, 3, 4]).ptmsiSignature = ok 0 := by decide +kernel

/-- C78 fails for an IP address: five octets are returned as an address -/
theorem C78_ip_wrong : (newIE 74 0 [10, 0, 0, 1, 9]).ip = ok [10, 0, 0, 1, 9] := by decide +kernel

/-- C78 fails for lists: an FQ-CSID announcing two sets and holding one is accepted, `CSIDs` returns the one; `EBIs` of a data
forwarding element returns the one bearer there is of the two announced, where the fields are refused -/
theorem C78_lists_wrong : (newIE 132 0 [2, 10, 0, 0, 1, 0, 7]).csid = ok ⟨0, 2, [10, 0, 0, 1], [7]⟩ ∧
    (newIE 132 0 [2, 10, 0, 0, 1, 0, 7]).csids = ok [7] ∧
    (newIE 90 0 [4, 10, 0, 0, 1, 0, 0, 0, 1, 2, 5]).ebis = ok [5] ∧
    (newIE 90 0 [4, 10, 0, 0, 1, 0, 0, 0, 1, 2, 5]).s103 = err .eof := by decide +kernel

/-- C78 fails for `GREKey` of a tunnel endpoint: the five octets up to the end of the key are not enough for it, though they are
for `TEID` -/
theorem C78_gre_wrong : (newIE 87 0 [0, 0, 0, 0, 7]).greKey = err .eof ∧ (newIE 87 0 [0, 0, 0, 0, 7]).teid = ok 7 ∧
    (newIE 87 0 [0, 0, 0, 0, 7, 0]).greKey = ok 7 := by decide +kernel

end Verif.V2

/-! ### cases that meet the hypotheses -/

namespace Verif.V2
open Res
example := C78_generic_value (g := defaultGrouped) 3 1 2 3 4 [5, 6] (by decide)
example := C78_qos (g := defaultGrouped) (by decide) (by decide)
example := C78_flags (g := defaultGrouped) (newIE 77 0 [1]) (by decide)
end Verif.V2
