import Verif.Proofs.Typed.Auto
import Verif.Proofs.V2Header
/-
Property theorems C41 (F-TEID), and the address carrying parts of C48 and C50 (PAA, IP Address, S103, S1-U).
-/
set_option linter.unusedSimpArgs false
namespace Verif.V2
open Res NetIP Spec

variable (g : UInt8 → Bool)

/-- an element survives the wire: it serialises to type, length, instance, payload, and parsing that, whatever follows it,
gives the same element -/
def Carried (i : IE) : Prop :=
  i.marshal g = ok ([i.typ] ++ be16 (UInt16.ofNat i.payload.length) ++ [i.rawInst] ++ i.payload) ∧
  ∀ rest, parse g ([i.typ] ++ be16 (UInt16.ofNat i.payload.length) ++ [i.rawInst] ++ i.payload ++ rest) = ok i

theorem carried_new {t ins : UInt8} {p : Bytes} (h : p.length < 65536) (hg : g t = false) :
    Carried g (newIE t ins p) := by
  have h1 := C05_ie_round_trip g (newIE t ins p) [] (C05_new_wf g t ins p h hg)
  have h2 : ∀ rest, _ := fun rest => (C05_ie_round_trip g (newIE t ins p) rest (C05_new_wf g t ins p h hg)).2
  have he : enc g (newIE t ins p) =
      [(newIE t ins p).typ] ++ be16 (UInt16.ofNat (newIE t ins p).payload.length) ++ [(newIE t ins p).rawInst] ++
        (newIE t ins p).payload := by
    simp [newIE, IE.setLength, enc, hg, IE.typ, IE.payload, IE.rawInst]
  rw [he] at h1 h2
  exact ⟨h1.1, h2⟩

/-! ### addresses -/

theorem to4_some {a v : Bytes} (h : to4 a = some v) : ∃ p q r s, v = [p, q, r, s] := by
  have hl : v.length = 4 := by
    unfold to4 at h
    split at h
    · simp_all
    · split at h
      · rename_i h2; simp only [Option.some.injEq] at h; subst h; simp [h2.1]
      · simp at h
  match v, hl with
  | [p, q, r, s], _ => exact ⟨p, q, r, s, rfl⟩

theorem to16_some {a v : Bytes} (h : to16 a = some v) : ∃ v0 v1 v2 v3 v4 v5 v6 v7 v8 v9 v10 v11 v12 v13 v14 v15,
    v = [v0, v1, v2, v3, v4, v5, v6, v7, v8, v9, v10, v11, v12, v13, v14, v15] := by
  have hl : v.length = 16 := by
    unfold to16 at h
    split at h
    · rename_i h2; simp only [Option.some.injEq] at h; subst h; simp [v4Prefix, h2]
    · split at h
      · simp_all
      · simp at h
  match v, hl with
  | [_, _, _, _, _, _, _, _, _, _, _, _, _, _, _, _], _ => exact ⟨_, _, _, _, _, _, _, _, _, _, _, _, _, _, _, _, rfl⟩

theorem to4_4 (p q r s : UInt8) : to4 [p, q, r, s] = some [p, q, r, s] := by simp [to4]
theorem to16_16 {v : Bytes} (h : v.length = 16) : to16 v = some v := by
  unfold to16; rw [if_neg (by omega), if_pos h]

/-- TS 29.274 8.22: V4 flag, V6 flag and interface type in the first octet, the TEID/GRE key, the addresses that are present -/
def encFTEID (ifType : UInt8) (teid : UInt32) (v4 v6 : Option Bytes) : Bytes :=
  [UInt8.ofNat ((if v4.isSome then 128 else 0) + (if v6.isSome then 64 else 0) + ifType.toNat)] ++ be32 teid ++
    v4.getD [] ++ v6.getD []

theorem first_octet_facts : ∀ x : UInt8, x < 64 →
    ((x ||| 0x80 = UInt8.ofNat (128 + 0 + x.toNat)) ∧ (x ||| 0x40 = UInt8.ofNat (0 + 64 + x.toNat)) ∧
     (x ||| 0x80 ||| 0x40 = UInt8.ofNat (128 + 64 + x.toNat)) ∧ x = UInt8.ofNat (0 + 0 + x.toNat)) ∧
    ((UInt8.ofNat (128 + 0 + x.toNat)) &&& 0x3f = x ∧ (UInt8.ofNat (0 + 64 + x.toNat)) &&& 0x3f = x ∧
      (UInt8.ofNat (128 + 64 + x.toNat)) &&& 0x3f = x ∧ (UInt8.ofNat (0 + 0 + x.toNat)) &&& 0x3f = x) ∧
    ((UInt8.ofNat (128 + 0 + x.toNat)) &&& 0xc0 = 0x80 ∧ (UInt8.ofNat (0 + 64 + x.toNat)) &&& 0xc0 = 0x40 ∧
      (UInt8.ofNat (128 + 64 + x.toNat)) &&& 0xc0 = 0xc0 ∧ (UInt8.ofNat (0 + 0 + x.toNat)) &&& 0xc0 = 0) ∧
    (has8thBit (UInt8.ofNat (128 + 0 + x.toNat)) = true ∧ has8thBit (UInt8.ofNat (0 + 64 + x.toNat)) = false ∧
     has8thBit (UInt8.ofNat (128 + 64 + x.toNat)) = true ∧ has8thBit (UInt8.ofNat (0 + 0 + x.toNat)) = false) ∧
    (has7thBit (UInt8.ofNat (128 + 0 + x.toNat)) = false ∧ has7thBit (UInt8.ofNat (0 + 64 + x.toNat)) = true ∧
     has7thBit (UInt8.ofNat (128 + 64 + x.toNat)) = true ∧ has7thBit (UInt8.ofNat (0 + 0 + x.toNat)) = false) :=
  forall_byte (p := fun x => x < 64 → _) (by decide +kernel)

theorem rd32_be32'' (n : UInt32) {p q r s : UInt8} (h : be32 n = [p, q, r, s]) : rd32 [p, q, r, s] = ok n := by
  rw [← h]; simp

/-- what the accessors must say about an F-TEID element -/
structure FTEIDReads (i : IE) (ifType : UInt8) (teid : UInt32) (v4 v6 : Option Bytes) : Prop where
  r_typ : i.typ = 87
  r_payload : i.payload = encFTEID ifType teid v4 v6
  r_fields : i.fteid = ok ⟨(if v4.isSome then 0x80 else 0) ||| (if v6.isSome then 0x40 else 0), ifType, teid, v4, v6⟩
  r_ifType : i.interfaceType = ok ifType
  r_teid : i.teid = ok teid
  r_has4 : i.hasIPv4 = ok v4.isSome
  r_has6 : i.hasIPv6 = ok v6.isSome
  /-- `IP` prefers the IPv4 address -/
  r_ip : i.ip = orNotFound (v4.or v6)
  r_ipv6 : i.ipv6 = orNotFound v6
  /-- `IPv4` is `IP` if that is an IPv4 (or IPv4-mapped) address -/
  r_ipv4 : i.ipv4 = orNotFound ((v4.or v6).bind to4)
  /-- `GREKey` fails on an element that carries no address -/
  r_gre : i.greKey = if v4.isSome ∨ v6.isSome then ok teid else err .eof

theorem hasBits : has8thBit 0 = false ∧ has8thBit 0x80 = true ∧ has8thBit 0x40 = false ∧ has8thBit 0xc0 = true ∧
    has7thBit 0 = false ∧ has7thBit 0x80 = false ∧ has7thBit 0x40 = true ∧ has7thBit 0xc0 = true := by decide

theorem bitOr : (0x80 : UInt8) ||| 0x40 = 0xc0 := by decide

theorem fteid_marshal (ifType : UInt8) (teid : UInt32) (a4 a6 : Bytes) (h : ifType < 64) :
    (newFTEIDFields ifType teid a4 a6).marshal = ok (encFTEID ifType teid (to4 a4) (to16 a6)) := by
  obtain ⟨⟨f1, f2, f3, f4⟩, -⟩ := first_octet_facts ifType h
  obtain ⟨p, q, r, s, hb, -⟩ := be32_cases teid
  rcases h4 : to4 a4 with _ | v4 <;> rcases h6 : to16 a6 with _ | v6
  · simp only [newFTEIDFields, h4, h6, encFTEID, hb]
    conv => rhs; simp only [Option.isSome, Bool.false_eq_true, if_false]; rw [← f4]
    simp [FTEID.marshal, FTEID.marshalLen, FTEID.marshalTo, FTEID.putV4, FTEID.putV6, hb, setAt, copyAt, hasBits, bitOr, to4_4, to16_16]
  · obtain ⟨v0, v1, v2, v3, v4, v5, v6, v7, v8, v9, v10, v11, v12, v13, v14, v15, rfl⟩ := to16_some h6
    simp only [newFTEIDFields, h4, h6, encFTEID, hb]
    conv => rhs; simp only [Option.isSome, Bool.false_eq_true, if_false, if_true]; rw [← f2]
    simp [FTEID.marshal, FTEID.marshalLen, FTEID.marshalTo, FTEID.putV4, FTEID.putV6, hb, setAt, copyAt, hasBits, bitOr, to4_4, to16_16]
  · obtain ⟨w0, w1, w2, w3, rfl⟩ := to4_some h4
    simp only [newFTEIDFields, h4, h6, encFTEID, hb]
    conv => rhs; simp only [Option.isSome, Bool.false_eq_true, if_false, if_true]; rw [← f1]
    simp [FTEID.marshal, FTEID.marshalLen, FTEID.marshalTo, FTEID.putV4, FTEID.putV6, hb, setAt, copyAt, hasBits, bitOr, to4_4, to16_16]
  · obtain ⟨v0, v1, v2, v3, v4, v5, v6, v7, v8, v9, v10, v11, v12, v13, v14, v15, rfl⟩ := to16_some h6
    obtain ⟨w0, w1, w2, w3, rfl⟩ := to4_some h4
    simp only [newFTEIDFields, h4, h6, encFTEID, hb]
    conv => rhs; simp only [Option.isSome, Bool.false_eq_true, if_false, if_true]; rw [← f3]
    simp [FTEID.marshal, FTEID.marshalLen, FTEID.marshalTo, FTEID.putV4, FTEID.putV6, hb, setAt, copyAt, hasBits, bitOr, to4_4, to16_16]

theorem fteid_reads (i : IE) (ifType : UInt8) (teid : UInt32) (a4 a6 : Bytes) (h : ifType < 64) (ht : i.typ = 87)
    (hp : i.payload = encFTEID ifType teid (to4 a4) (to16 a6)) : FTEIDReads i ifType teid (to4 a4) (to16 a6) := by
  obtain ⟨-, ⟨a1, a2, a3, a4'⟩, ⟨b1, b2, b3, b4⟩, ⟨c1, c2, c3, c4⟩, ⟨d1, d2, d3, d4⟩⟩ := first_octet_facts ifType h
  obtain ⟨p, q, r, s, hb, -⟩ := be32_cases teid
  have hr := rd32_be32'' teid hb
  obtain ⟨k1, k2, k3, k4, k5, k6, k7, k8⟩ := hasBits
  rcases h4 : to4 a4 with _ | v4 <;> rcases h6 : to16 a6 with _ | v6
  · rw [h4, h6] at hp
    have hp' := hp
    simp only [encFTEID, Option.isSome, Bool.false_eq_true, if_false, hb] at hp
    generalize UInt8.ofNat (0 + 0 + ifType.toNat) = o at *
    refine ⟨ht, hp', ?_, ?_, ?_, ?_, ?_, ?_, ?_, ?_, ?_⟩ <;>
    simp [IE.fteid, IE.interfaceType, IE.teid, IE.hasIPv4, IE.hasIPv6, IE.ip, IE.ipv4, IE.ipv6, IE.greKey, orNotFound,
      parseFTEID, FTEID.getV4, FTEID.getV6, ht, hp, a4', b4, c4, d4, hr, slice, k1, k5]
  · obtain ⟨x0, x1, x2, x3, x4, x5, x6, x7, x8, x9, x10, x11, x12, x13, x14, x15, rfl⟩ := to16_some h6
    rw [h4, h6] at hp
    have hp' := hp
    simp only [encFTEID, Option.isSome, Bool.false_eq_true, if_false, if_true, hb] at hp
    generalize UInt8.ofNat (0 + 64 + ifType.toNat) = o at *
    refine ⟨ht, hp', ?_, ?_, ?_, ?_, ?_, ?_, ?_, ?_, ?_⟩ <;>
    simp [IE.fteid, IE.interfaceType, IE.teid, IE.hasIPv4, IE.hasIPv6, IE.ip, IE.ipv4, IE.ipv6, IE.greKey, orNotFound,
      parseFTEID, FTEID.getV4, FTEID.getV6, ht, hp, a2, b2, c2, d2, hr, slice, k3, k7, ofOpt, to16_16]
  · obtain ⟨w0, w1, w2, w3, rfl⟩ := to4_some h4
    rw [h4, h6] at hp
    have hp' := hp
    simp only [encFTEID, Option.isSome, Bool.false_eq_true, if_false, if_true, hb] at hp
    generalize UInt8.ofNat (128 + 0 + ifType.toNat) = o at *
    refine ⟨ht, hp', ?_, ?_, ?_, ?_, ?_, ?_, ?_, ?_, ?_⟩ <;>
    simp [IE.fteid, IE.interfaceType, IE.teid, IE.hasIPv4, IE.hasIPv6, IE.ip, IE.ipv4, IE.ipv6, IE.greKey, orNotFound,
      parseFTEID, FTEID.getV4, FTEID.getV6, ht, hp, a1, b1, c1, d1, hr, slice, k2, k6, ofOpt, to4_4]
  · obtain ⟨x0, x1, x2, x3, x4, x5, x6, x7, x8, x9, x10, x11, x12, x13, x14, x15, rfl⟩ := to16_some h6
    obtain ⟨w0, w1, w2, w3, rfl⟩ := to4_some h4
    rw [h4, h6] at hp
    have hp' := hp
    simp only [encFTEID, Option.isSome, Bool.false_eq_true, if_false, if_true, hb] at hp
    generalize UInt8.ofNat (128 + 64 + ifType.toNat) = o at *
    refine ⟨ht, hp', ?_, ?_, ?_, ?_, ?_, ?_, ?_, ?_, ?_⟩ <;>
    simp [IE.fteid, IE.interfaceType, IE.teid, IE.hasIPv4, IE.hasIPv6, IE.ip, IE.ipv4, IE.ipv6, IE.greKey, orNotFound,
      parseFTEID, FTEID.getV4, FTEID.getV6, ht, hp, a3, b3, c3, d3, hr, slice, k4, k8, ofOpt, to4_4, to16_16, bitOr]

@[simp] theorem typ_new (t n : UInt8) (p : Bytes) : (newIE t n p).typ = t := (Eq.refl _).trans (Eq.refl _)
@[simp] theorem payload_new (t n : UInt8) (p : Bytes) : (newIE t n p).payload = p := (Eq.refl _).trans (Eq.refl _)
@[simp] theorem withInstance_new (t m n : UInt8) (p : Bytes) : (newIE t m p).withInstance n = newIE t n p := rfl

/-- C41: for every interface type below 64, every TEID and every pair of addresses, the constructor returns an element whose
payload is the 3GPP encoding; with any instance it survives the wire, and the accessors return the values given. Missing:
`GREKey` of an element without an address (`C41_gre_wrong`). -/
theorem C41_fteid_partial (ifType : UInt8) (teid : UInt32) (a4 a6 : Bytes) (h : ifType < 64) (hg : g 87 = false) :
    ∃ i, newFTEID ifType teid a4 a6 = ok (some i) ∧ i.instance' = 0 ∧
      ∀ n, Carried g (i.withInstance n) ∧ FTEIDReads (i.withInstance n) ifType teid (to4 a4) (to16 a6) := by
  refine ⟨newIE 87 0 (encFTEID ifType teid (to4 a4) (to16 a6)), ?_, by simp [IE.instance', IE.rawInst, newIE, IE.setLength], fun n => ⟨?_, ?_⟩⟩
  · rw [newFTEID, fteid_marshal _ _ _ _ h, build]
  · rw [withInstance_new]
    refine carried_new g ?_ hg
    have h4 : ((to4 a4).getD []).length ≤ 4 := by
      rcases h4 : to4 a4 with _ | v
      · simp
      · obtain ⟨_, _, _, _, rfl⟩ := to4_some h4; simp
    have h6 : ((to16 a6).getD []).length ≤ 16 := by
      rcases h6 : to16 a6 with _ | v
      · simp
      · obtain ⟨_, _, _, _, _, _, _, _, _, _, _, _, _, _, _, _, rfl⟩ := to16_some h6; simp
    simp only [encFTEID, List.length_append, List.length_singleton, length_be32]
    omega
  · exact fteid_reads _ _ _ _ _ h rfl rfl

/-- what the code gets wrong: an F-TEID without an address has a TEID, but as a GRE key it is refused as too short -/
theorem C41_gre_wrong (ifType : UInt8) (teid : UInt32) (h : ifType < 64) (hg : g 87 = false) :
    ∃ i, newFTEID ifType teid [] [] = ok (some i) ∧ i.teid = ok teid ∧ i.greKey = err .eof := by
  obtain ⟨i, hi, -, hr⟩ := C41_fteid_partial g ifType teid [] [] h hg
  have hp : newFTEID ifType teid [] [] = ok (some (newIE 87 0 (encFTEID ifType teid (to4 []) (to16 [])))) := by
    rw [newFTEID, fteid_marshal _ _ _ _ h, build]
  obtain rfl : newIE 87 0 (encFTEID ifType teid (to4 []) (to16 [])) = i := by
    rw [hp] at hi; simpa using hi
  have := (hr 0).2
  rw [withInstance_new] at this
  exact ⟨_, hi, this.r_teid, by rw [this.r_gre, if_neg (by decide)]⟩

-- S11 interface, IPv4 only; and dual stack
example : newFTEID 10 0x11223344 [10, 0, 0, 1] [] =
    ok (some (.mk 87 9 0 [0x8a, 0x11, 0x22, 0x33, 0x44, 10, 0, 0, 1] [])) := by decide
example : ((newIE 87 2 [0xca, 0, 0, 0, 7, 1, 2, 3, 4, 32, 1, 0, 0, 0, 0, 0, 0, 0, 0, 0, 0, 0, 0, 0, 1]).ipv6,
    (newIE 87 2 [0xca, 0, 0, 0, 7, 1, 2, 3, 4, 32, 1, 0, 0, 0, 0, 0, 0, 0, 0, 0, 0, 0, 0, 0, 1]).ip) =
    (ok [32, 1, 0, 0, 0, 0, 0, 0, 0, 0, 0, 0, 0, 0, 0, 1], ok [1, 2, 3, 4]) := by decide
-- an interface type of 64 or more sets the address flags: the element cannot be read back
example : (newFTEID 0x80 1 [] []).bind (fun i => (i.getD default).fteid) = err .eof := by decide

/-! ### PDN Address Allocation, S103, S1-U, IP Address -/

/-- what can be read back from a PDN Address Allocation element (TS 29.274 8.14) -/
theorem C50_paa_v4 (a : Bytes) (v : Bytes) (pre : UInt8) (h : to4 a = some v) (hg : g 79 = false) :
    ∃ i, newPAA a pre = ok (some i) ∧ i.payload = [1] ++ v ∧
      ∀ n, Carried g (i.withInstance n) ∧ (i.withInstance n).ip = ok v ∧ (i.withInstance n).ipv4 = ok v ∧
        (i.withInstance n).ipv6 = err .notFound ∧ parsePAA (i.withInstance n).payload = ok ⟨1, v, 0, []⟩ := by
  obtain ⟨p, q, r, s, rfl⟩ := to4_some h
  refine ⟨newIE 79 0 ([1] ++ [p, q, r, s]), ?_, rfl, fun n => ⟨?_, ?_⟩⟩
  · rw [newPAA, h]
    simp [PAA.marshal, PAA.marshalLen, PAA.marshalTo, setAt, copyAt, to4_4, ofOpt, build]
  · rw [withInstance_new]; exact carried_new g (by len) hg
  · rw [withInstance_new]
    have hq : parsePAA [1, p, q, r, s] = ok ⟨1, [p, q, r, s], 0, []⟩ := by
      simp [parsePAA, slice]
    simp [IE.ip, IE.ipv4, IE.ipv6, hq, to4_4, to16, orNotFound]

example : newPAA [10, 0, 0, 1] 64 = ok (some (newIE 79 0 [1, 10, 0, 0, 1])) ∧ (newIE 79 0 [1, 10, 0, 0, 1]).ipv4 = ok [10, 0, 0, 1] := by
  decide

/-- C50: IPv6 PDN address and prefix -/
theorem C50_paa_v6 (a : Bytes) (v : Bytes) (pre : UInt8) (h4 : to4 a = none) (h : to16 a = some v) (hg : g 79 = false) :
    ∃ i, newPAA a pre = ok (some i) ∧ i.payload = [2, pre] ++ v ∧
      ∀ n, Carried g (i.withInstance n) ∧ (i.withInstance n).ip = ok v ∧ (i.withInstance n).ipv6 = ok v ∧
        parsePAA (i.withInstance n).payload = ok ⟨2, [], pre, v⟩ := by
  obtain ⟨x0, x1, x2, x3, x4, x5, x6, x7, x8, x9, x10, x11, x12, x13, x14, x15, rfl⟩ := to16_some h
  generalize hv : [x0, x1, x2, x3, x4, x5, x6, x7, x8, x9, x10, x11, x12, x13, x14, x15] = v at *
  have hl : v.length = 16 := by rw [← hv]; rfl
  refine ⟨newIE 79 0 ([2, pre] ++ v), ?_, rfl, fun n => ⟨?_, ?_⟩⟩
  · rw [newPAA, h4, h]
    subst hv
    simp [PAA.marshal, PAA.marshalLen, PAA.marshalTo, setAt, copyAt, to16_16, ofOpt, build]
  · rw [withInstance_new]; exact carried_new g (by simp [hl]) hg
  · rw [withInstance_new]
    have hq : parsePAA ([2, pre] ++ v) = ok ⟨2, [], pre, v⟩ := by
      subst hv; simp [parsePAA, slice]
    simp only [IE.ip, IE.ipv6, typ_new, payload_new, hq, orNotFound]
    simp [hl, to16_16]

example : newPAA [0x20, 1, 0, 0, 0, 0, 0, 0, 0, 0, 0, 0, 0, 0, 0, 9] 64 =
    ok (some (newIE 79 0 [2, 64, 0x20, 1, 0, 0, 0, 0, 0, 0, 0, 0, 0, 0, 0, 0, 0, 9])) := by decide

/-- C50: dual stack PDN address -/
theorem C50_paa_dual (a4 a6 v4 v6 : Bytes) (pre : UInt8) (h4 : to4 a4 = some v4) (h6 : to16 a6 = some v6)
    (hg : g 79 = false) :
    ∃ i, newPAADual a4 a6 pre = ok (some i) ∧ i.payload = [3, pre] ++ v6 ++ v4 ∧
      ∀ n, Carried g (i.withInstance n) ∧ (i.withInstance n).ip = ok v4 ∧ (i.withInstance n).ipv4 = ok v4 ∧
        (i.withInstance n).ipv6 = ok v6 ∧ parsePAA (i.withInstance n).payload = ok ⟨3, v4, pre, v6⟩ := by
  obtain ⟨x0, x1, x2, x3, x4, x5, x6, x7, x8, x9, x10, x11, x12, x13, x14, x15, rfl⟩ := to16_some h6
  obtain ⟨p, q, r, s, rfl⟩ := to4_some h4
  generalize hv : [x0, x1, x2, x3, x4, x5, x6, x7, x8, x9, x10, x11, x12, x13, x14, x15] = v at *
  have hl : v.length = 16 := by rw [← hv]; rfl
  refine ⟨newIE 79 0 ([3, pre] ++ v ++ [p, q, r, s]), ?_, rfl, fun n => ⟨?_, ?_⟩⟩
  · subst hv
    simp [newPAADual, PAA.marshal, PAA.marshalLen, PAA.marshalTo, setAt, copyAt, h4, h6, ofOpt, build]
  · rw [withInstance_new]; exact carried_new g (by simp [hl]) hg
  · rw [withInstance_new]
    have hq : parsePAA ([3, pre] ++ v ++ [p, q, r, s]) = ok ⟨3, [p, q, r, s], pre, v⟩ := by
      subst hv; simp [parsePAA, slice]
    simp only [IE.ip, IE.ipv4, IE.ipv6, typ_new, payload_new, hq, orNotFound]
    simp [hl, to16_16, to4_4]

example : newPAADual [10, 0, 0, 1] [0x20, 1, 0, 0, 0, 0, 0, 0, 0, 0, 0, 0, 0, 0, 0, 9] 64 =
    ok (some (.mk 79 22 0 [3, 64, 0x20, 1, 0, 0, 0, 0, 0, 0, 0, 0, 0, 0, 0, 0, 0, 9, 10, 0, 0, 1] [])) := by decide
-- a dual-stack element built from unusable addresses is all zero, not Non-IP as documented
example : newPAADual [] [] 64 =
    ok (some (.mk 79 22 0 [3, 64, 0, 0, 0, 0, 0, 0, 0, 0, 0, 0, 0, 0, 0, 0, 0, 0, 0, 0, 0, 0] [])) := by decide

theorem putEBIs_eq (es pre : Bytes) (off : Nat) (h : off = pre.length) :
    putEBIs es off (pre ++ List.replicate es.length 0) = ok (pre ++ es.map (· &&& 0x0f)) := by
  induction es generalizing pre off with
  | nil => simp [putEBIs]
  | cons e es ih =>
    rw [putEBIs, setAt_append h (by len)]
    simp only [List.length_cons, List.replicate_succ, List.drop_one, List.tail_cons, bind_ok]
    rw [ih (pre ++ [e &&& 0x0f]) (off + 1) (by simp [h])]
    simp

theorem getEBIs_eq (es pre rest : Bytes) (off : Nat) (h : off = pre.length) :
    getEBIs (pre ++ (es ++ rest)) es.length off = ok es := by
  induction es generalizing pre off with
  | nil => rfl
  | cons e es ih =>
    rw [List.length_cons, getEBIs, List.cons_append, idx_mid h]
    have := ih (pre ++ [e]) (off + 1) (by simp [h])
    simp only [List.append_assoc, List.singleton_append] at this
    simp [this]

theorem collectEBIs_eq (es pre rest : Bytes) (off : Nat) (h : off = pre.length) :
    collectEBIs (pre ++ (es ++ rest)) es.length off = ok es := by
  induction es generalizing pre off with
  | nil => rfl
  | cons e es ih =>
    rw [List.length_cons, collectEBIs, List.cons_append, idx_mid h, if_neg (by len)]
    have := ih (pre ++ [e]) (off + 1) (by simp [h])
    simp only [List.append_assoc, List.singleton_append] at this
    simp [this]

/-- TS 29.274 8.25 -/
def encS103 (addr : Bytes) (key : UInt32) (ebis : Bytes) : Bytes :=
  [UInt8.ofNat addr.length] ++ addr ++ be32 key ++ [UInt8.ofNat ebis.length] ++ ebis

theorem u8_toNat {n : Nat} (h : n < 256) : (UInt8.ofNat n).toNat = n := by simp; omega

theorem S103_marshal (addr ebis : Bytes) (key : UInt32) (ha : addr.length < 256) (he : ebis.length < 256) :
    S103.marshal ⟨UInt8.ofNat addr.length, addr, key, UInt8.ofNat ebis.length, ebis⟩ =
      ok (encS103 addr key (ebis.map (· &&& 0x0f))) := by
  simp only [S103.marshal, S103.marshalLen, S103.marshalTo, u8_toNat ha, u8_toNat he]
  generalize hz : List.replicate (1 + addr.length + 4 + 1 + ebis.length) (0 : UInt8) = z
  have hl : z.length = 1 + addr.length + 4 + 1 + ebis.length := by rw [← hz]; simp
  rw [if_neg (by omega), show z = [] ++ z by rfl, setAt_append (by rfl) (by omega)]
  simp only [bind_ok]
  rw [if_neg (by len), copyAt_append (by rfl) (by len) (by len)]
  simp only [bind_ok]
  rw [if_neg (by len), copyAt_append (by len) (by len) (by len)]
  simp only [bind_ok]
  rw [setAt_append (by len) (by len)]
  simp only [bind_ok]
  rw [if_neg (by len)]
  subst hz
  simp only [List.drop_drop, List.drop_replicate]
  rw [show 1 + addr.length + 4 + 1 + ebis.length - 1 - addr.length - (be32 key).length - 1 = ebis.length by simp; omega]
  rw [putEBIs_eq _ _ _ (by len)]
  simp [encS103]

theorem S103_parse (addr ebis : Bytes) (key : UInt32) (ha : addr.length < 256) (he : ebis.length < 256) (rest : Bytes) :
    parseS103 (encS103 addr key ebis ++ rest) = ok ⟨UInt8.ofNat addr.length, addr, key, UInt8.ofNat ebis.length, ebis⟩ := by
  have e0 : encS103 addr key ebis ++ rest =
      [] ++ UInt8.ofNat addr.length :: (addr ++ (be32 key ++ UInt8.ofNat ebis.length :: (ebis ++ rest))) := by
    simp [encS103]
  have e1 : encS103 addr key ebis ++ rest =
      [UInt8.ofNat addr.length] ++ (addr ++ (be32 key ++ UInt8.ofNat ebis.length :: (ebis ++ rest))) := by
    simp [encS103]
  have e2 : encS103 addr key ebis ++ rest =
      ([UInt8.ofNat addr.length] ++ addr) ++ (be32 key ++ UInt8.ofNat ebis.length :: (ebis ++ rest)) := by
    simp [encS103]
  have e3 : encS103 addr key ebis ++ rest =
      ([UInt8.ofNat addr.length] ++ addr ++ be32 key) ++ UInt8.ofNat ebis.length :: (ebis ++ rest) := by
    simp [encS103]
  have e4 : encS103 addr key ebis ++ rest =
      ([UInt8.ofNat addr.length] ++ addr ++ be32 key ++ [UInt8.ofNat ebis.length]) ++ (ebis ++ rest) := by
    simp [encS103]
  have hl : (encS103 addr key ebis ++ rest).length = 1 + addr.length + 4 + 1 + ebis.length + rest.length := by
    simp [encS103]; omega
  generalize encS103 addr key ebis ++ rest = b at *
  have f0 : idx b 0 = ok (UInt8.ofNat addr.length) := by rw [e0]; exact idx_mid rfl
  have f1 : slice b 1 (1 + addr.length) = ok addr := by rw [e1]; exact slice_mid rfl rfl
  have f2 : slice b (1 + addr.length) (1 + addr.length + 4) = ok (be32 key) := by
    rw [e2]; exact slice_mid (by len) (by len)
  have f3 : idx b (1 + addr.length + 4) = ok (UInt8.ofNat ebis.length) := by rw [e3]; exact idx_mid (by len)
  have f4 : getEBIs b ebis.length (1 + addr.length + 4 + 1) = ok ebis := by
    rw [e4]; exact getEBIs_eq _ _ _ _ (by len)
  unfold parseS103
  rw [if_neg (by omega), f0]
  simp only [bind_ok, u8_toNat ha]
  rw [if_neg (by omega), f1]
  simp only [bind_ok]
  rw [if_neg (by omega), f2]
  simp only [bind_ok, rd32_be32']
  rw [if_neg (by omega), f3]
  simp only [bind_ok, u8_toNat he]
  rw [if_neg (by omega), f4]
  rfl

/-- the address stored for forwarding: the IPv4 form if there is one -/
def fwdAddr (ip : Bytes) : Option Bytes := (to4 ip).or (to16 ip)

theorem fwdAddr_len {ip v : Bytes} (h : fwdAddr ip = some v) : v.length = 4 ∨ v.length = 16 := by
  unfold fwdAddr at h
  rcases h4 : to4 ip with _ | w
  · rw [h4] at h
    simp only [Option.none_or] at h
    obtain ⟨_, _, _, _, _, _, _, _, _, _, _, _, _, _, _, _, rfl⟩ := to16_some h
    simp
  · rw [h4] at h
    simp only [Option.some_or, Option.some.injEq] at h
    subst h
    obtain ⟨_, _, _, _, rfl⟩ := to4_some h4
    simp

theorem addrAt_eq (pre addr rest : Bytes) (k : Nat) (hk : k = pre.length) (h : addr.length = 4 ∨ addr.length = 16) :
    addrAt (pre ++ UInt8.ofNat addr.length :: (addr ++ rest)) k = ok addr := by
  unfold addrAt
  rw [idx_mid hk]
  have hs : pre ++ UInt8.ofNat addr.length :: (addr ++ rest) = (pre ++ [UInt8.ofNat addr.length]) ++ (addr ++ rest) := by simp
  rw [hs]
  rcases h with h | h
  · rw [h]
    simp only [bind_ok]
    rw [if_pos (by decide), if_neg (by len), slice_mid (by len) (by omega)]
  · rw [h]
    simp only [bind_ok]
    rw [if_neg (by decide), if_pos (by decide), if_neg (by len), slice_mid (by len) (by omega)]

theorem keyAfterAddr_eq (addr : Bytes) (key : UInt32) (rest : Bytes) (h : addr.length = 4 ∨ addr.length = 16) :
    keyAfterAddr (UInt8.ofNat addr.length :: (addr ++ (be32 key ++ rest))) = ok key := by
  unfold keyAfterAddr
  have hs : UInt8.ofNat addr.length :: (addr ++ (be32 key ++ rest)) =
      ([UInt8.ofNat addr.length] ++ addr) ++ (be32 key ++ rest) := by simp
  rw [idx_zero, hs]
  rcases h with h | h
  · rw [h]
    simp only [bind_ok]
    rw [if_pos (by decide), if_neg (by len), slice_mid (by len) (by len)]
    simp
  · rw [h]
    simp only [bind_ok]
    rw [if_neg (by decide), if_pos (by decide), if_neg (by len), slice_mid (by len) (by len)]
    simp

theorem ip_s103 {i : IE} (h : i.typ = 90) (hl : 4 ≤ i.payload.length) : i.ip = addrAt i.payload 0 := by
  unfold IE.ip; rw [if_neg (by omega)]; simp [h]
theorem ip_s1u {i : IE} (h : i.typ = 91) (hl : 4 ≤ i.payload.length) : i.ip = addrAt i.payload 1 := by
  unfold IE.ip; rw [if_neg (by omega)]; simp [h]
theorem ip_ip {i : IE} (h : i.typ = 74) (hl : 4 ≤ i.payload.length) : i.ip = ok i.payload := by
  unfold IE.ip; rw [if_neg (by omega)]; simp [h]
theorem gre_s103 {i : IE} (h : i.typ = 90) (hl : 6 ≤ i.payload.length) : i.greKey = keyAfterAddr i.payload := by
  unfold IE.greKey; rw [if_neg (by omega)]; simp [h]
theorem s103_eq {i : IE} (h : i.typ = 90) : i.s103 = parseS103 i.payload := by simp [IE.s103, h]
theorem s1udf_eq {i : IE} (h : i.typ = 91) : i.s1udf = parseS1UDF i.payload := by simp [IE.s1udf, h]

/-- C50: S103 PDN data forwarding info: address, GRE key and bearer IDs (below 16) are read back, by the field parser and by
the accessors, also after the wire. -/
theorem C50_s103 (ip v : Bytes) (key : UInt32) (ebis : Bytes) (hv : fwdAddr ip = some v) (he : ebis.length < 256)
    (hr : ∀ e ∈ ebis, e < 16) (hg : g 90 = false) :
    ∃ i, newS103 ip key ebis = ok (some i) ∧ i.payload = encS103 v key ebis ∧
      ∀ n, Carried g (i.withInstance n) ∧
        (i.withInstance n).s103 = ok ⟨UInt8.ofNat v.length, v, key, UInt8.ofNat ebis.length, ebis⟩ ∧
        (i.withInstance n).ip = ok v ∧ (i.withInstance n).greKey = ok key ∧ (i.withInstance n).ebis = ok ebis := by
  have hl := fwdAddr_len hv
  have hm : ebis.map (· &&& 0x0f) = ebis := by
    conv => rhs; rw [← List.map_id ebis]
    apply List.map_congr_left
    intro e hem
    exact (forall_byte (p := fun e => e < 16 → e &&& 0x0f = e) (by decide +kernel)) e (hr e hem)
  have hn : newS103Fields ip key ebis = ⟨UInt8.ofNat v.length, v, key, UInt8.ofNat ebis.length, ebis⟩ := by
    unfold fwdAddr at hv
    unfold newS103Fields
    rcases h4 : to4 ip with _ | w
    · rw [h4] at hv
      simp only [Option.none_or] at hv
      obtain ⟨_, _, _, _, _, _, _, _, _, _, _, _, _, _, _, _, rfl⟩ := to16_some hv
      simp [hv]
    · rw [h4] at hv
      simp only [Option.some_or, Option.some.injEq] at hv
      subst hv
      obtain ⟨_, _, _, _, rfl⟩ := to4_some h4
      rfl
  refine ⟨newIE 90 0 (encS103 v key ebis), ?_, rfl, fun n => ⟨?_, ?_, ?_, ?_, ?_⟩⟩
  · rw [newS103, hn, S103_marshal _ _ _ (by omega) he, hm, build]
  · rw [withInstance_new]; exact carried_new g (by simp [encS103]; omega) hg
  · have := S103_parse v ebis key (by omega) he []
    rw [List.append_nil] at this
    rw [withInstance_new, s103_eq rfl, payload_new, this]
  · rw [withInstance_new, ip_s103 rfl (by rw [payload_new]; simp [encS103]; omega), payload_new]
    have := addrAt_eq [] v (be32 key ++ ([UInt8.ofNat ebis.length] ++ ebis)) 0 rfl hl
    simpa [encS103] using this
  · rw [withInstance_new, gre_s103 rfl (by rw [payload_new]; simp [encS103]; omega), payload_new]
    have := keyAfterAddr_eq v key ([UInt8.ofNat ebis.length] ++ ebis) hl
    simpa [encS103] using this
  · rw [withInstance_new]
    unfold IE.ebis
    rw [if_neg (by rw [typ_new]; decide), if_neg (by rw [payload_new]; simp [encS103])]
    simp only [payload_new]
    have h0 : encS103 v key ebis = UInt8.ofNat v.length :: (v ++ be32 key ++ [UInt8.ofNat ebis.length] ++ ebis) := by
      simp [encS103]
    have h1 : encS103 v key ebis = ([UInt8.ofNat v.length] ++ v ++ be32 key) ++ UInt8.ofNat ebis.length :: ebis := by
      simp [encS103]
    have h2 : encS103 v key ebis = ([UInt8.ofNat v.length] ++ v ++ be32 key ++ [UInt8.ofNat ebis.length]) ++ (ebis ++ []) := by
      simp [encS103]
    have hi : idx (encS103 v key ebis) 0 = ok (UInt8.ofNat v.length) := by rw [h0]; rfl
    rw [hi]
    simp only [bind_ok]
    rcases hl with hl | hl
    · rw [hl, if_pos (by decide), if_neg (by simp [encS103]; omega)]
      rw [show idx (encS103 v key ebis) 9 = ok (UInt8.ofNat ebis.length) by rw [h1]; exact idx_mid (by len)]
      simp only [bind_ok]
      rw [u8_toNat he, h2]
      exact collectEBIs_eq _ _ _ _ (by len)
    · rw [hl, if_neg (by decide), if_pos (by decide), if_neg (by simp [encS103]; omega)]
      rw [show idx (encS103 v key ebis) 21 = ok (UInt8.ofNat ebis.length) by rw [h1]; exact idx_mid (by len)]
      simp only [bind_ok]
      rw [u8_toNat he, h2]
      exact collectEBIs_eq _ _ _ _ (by len)

example : newS103 [10, 0, 0, 1] 0xaabbccdd [5, 6] =
    ok (some (.mk 90 12 0 [4, 10, 0, 0, 1, 0xaa, 0xbb, 0xcc, 0xdd, 2, 5, 6] [])) := by decide

/-- TS 29.274 8.26 -/
def encS1UDF (ebi : UInt8) (addr : Bytes) (teid : UInt32) : Bytes :=
  [ebi, UInt8.ofNat addr.length] ++ addr ++ be32 teid

/-- C50: S1-U data forwarding: bearer ID (below 16), address and TEID are read back from the fields, the address from `IP`.
Missing: `TEID`, which looks at the bearer ID where the address length should be (see `C50_s1u_teid_wrong`). -/
theorem C50_s1u_partial (ebi : UInt8) (ip v : Bytes) (teid : UInt32) (hv : fwdAddr ip = some v) (hr : ebi < 16)
    (hg : g 91 = false) :
    ∃ i, newS1UDF ebi ip teid = ok (some i) ∧ i.payload = encS1UDF ebi v teid ∧
      ∀ n, Carried g (i.withInstance n) ∧ (i.withInstance n).s1udf = ok ⟨ebi, UInt8.ofNat v.length, v, teid⟩ ∧
        (i.withInstance n).ip = ok v := by
  have hl := fwdAddr_len hv
  have hm : ebi &&& 0x0f = ebi :=
    (forall_byte (p := fun e => e < 16 → e &&& 0x0f = e) (by decide +kernel)) ebi hr
  have hn : newS1UDFFields ebi ip teid = ⟨ebi, UInt8.ofNat v.length, v, teid⟩ := by
    unfold fwdAddr at hv
    unfold newS1UDFFields
    rcases h4 : to4 ip with _ | w
    · rw [h4] at hv
      simp only [Option.none_or] at hv
      obtain ⟨_, _, _, _, _, _, _, _, _, _, _, _, _, _, _, _, rfl⟩ := to16_some hv
      simp [hv]
    · rw [h4] at hv
      simp only [Option.some_or, Option.some.injEq] at hv
      subst hv
      obtain ⟨_, _, _, _, rfl⟩ := to4_some h4
      rfl
  have hl' : v.length < 256 := by omega
  refine ⟨newIE 91 0 (encS1UDF ebi v teid), ?_, rfl, fun n => ⟨?_, ?_, ?_⟩⟩
  · rw [newS1UDF, hn]
    have : S1UDF.marshal ⟨ebi, UInt8.ofNat v.length, v, teid⟩ = ok (encS1UDF ebi v teid) := by
      simp only [S1UDF.marshal, S1UDF.marshalLen, S1UDF.marshalTo, u8_toNat hl', hm]
      generalize hz : List.replicate (2 + v.length + 4) (0 : UInt8) = z
      have hlz : z.length = 2 + v.length + 4 := by rw [← hz]; simp
      rw [if_neg (by omega), show z = [] ++ z by rfl, setAt_append (by rfl) (by omega)]
      simp only [bind_ok]
      rw [setAt_append (by rfl) (by len)]
      simp only [bind_ok]
      rw [if_neg (by len), copyAt_append (by rfl) (by len) (by len)]
      simp only [bind_ok]
      rw [if_neg (by len), copyAt_append (by len) (by len) (by len)]
      subst hz
      simp [encS1UDF]
      omega
    rw [this, build]
  · rw [withInstance_new]; exact carried_new g (by simp [encS1UDF]; omega) hg
  · rw [withInstance_new, s1udf_eq rfl, payload_new]
    unfold parseS1UDF encS1UDF
    rw [if_neg (by len)]
    simp only [List.cons_append, List.nil_append, idx_zero, bind_ok, idx_succ, u8_toNat hl', hm]
    rw [if_neg (by len)]
    rw [show (ebi :: UInt8.ofNat v.length :: (v ++ be32 teid)) = [ebi, UInt8.ofNat v.length] ++ (v ++ be32 teid) by rfl]
    rw [slice_mid (by rfl) (by len)]
    simp only [bind_ok]
    rw [if_neg (by len), ← List.append_assoc, ← List.append_nil (be32 teid),
      slice_mid (by len) (by len)]
    simp
  · rw [withInstance_new, ip_s1u rfl (by rw [payload_new]; simp [encS1UDF]), payload_new]
    have := addrAt_eq [ebi] v (be32 teid) 1 rfl hl
    simpa [encS1UDF] using this

example : newS1UDF 5 [10, 0, 0, 1] 0x11223344 = ok (some (newIE 91 0 [5, 4, 10, 0, 0, 1, 0x11, 0x22, 0x33, 0x44])) := by decide

/-- C50: a received S1-U data forwarding element: the spare bits beside the bearer ID do not matter, nor does what follows the
TEID -/
theorem C50_s1u_received (x : UInt8) (v : Bytes) (hv : v.length < 256) (teid : UInt32) (rest : Bytes) (n : UInt8) :
    (newIE 91 n ([x, UInt8.ofNat v.length] ++ v ++ be32 teid ++ rest)).s1udf =
      ok ⟨UInt8.ofNat (x.toNat % 16), UInt8.ofNat v.length, v, teid⟩ := by
  have hm : x &&& 0x0f = UInt8.ofNat (x.toNat % 16) :=
    (forall_byte (p := fun x => x &&& 0x0f = UInt8.ofNat (x.toNat % 16)) (by decide +kernel)) x
  rw [s1udf_eq rfl, payload_new]
  unfold parseS1UDF
  rw [if_neg (by len)]
  simp only [List.cons_append, List.nil_append, idx_zero, bind_ok, idx_succ, u8_toNat hv, hm]
  rw [if_neg (by len)]
  rw [show (x :: UInt8.ofNat v.length :: (v ++ be32 teid ++ rest)) = [x, UInt8.ofNat v.length] ++ (v ++ (be32 teid ++ rest)) by simp]
  rw [slice_mid (by rfl) (by len)]
  simp only [bind_ok]
  rw [if_neg (by len), ← List.append_assoc, slice_mid (by len) (by len)]
  simp

example : (newIE 91 0 [0xf5, 4, 10, 0, 0, 1, 0x11, 0x22, 0x33, 0x44, 9]).s1udf = ok ⟨5, 4, [10, 0, 0, 1], 0x11223344⟩ := by decide

/-- the `TEID` accessor is wrong on S1-U data forwarding: for bearer 5 it fails, for bearer 4 it returns other octets -/
theorem C50_s1u_teid_wrong :
    (newS1UDF 5 [10, 0, 0, 1] 0x11223344).bind (fun i => (i.getD default).teid) = err .malformed ∧
    (newS1UDF 4 [10, 0, 0, 1] 0x11223344).bind (fun i => (i.getD default).teid) = ok 0x01112233 := by decide

/-- C50: IP Address element -/
theorem C50_ip (ip v : Bytes) (hv : fwdAddr ip = some v) (hg : g 74 = false) (n : UInt8) :
    ((newIPAddress ip).withInstance n).payload = v ∧ Carried g ((newIPAddress ip).withInstance n) ∧
    ((newIPAddress ip).withInstance n).ip = ok v := by
  have hn : newIPAddress ip = newIE 74 0 v := by
    unfold fwdAddr at hv
    unfold newIPAddress
    rcases h4 : to4 ip with _ | w
    · rw [h4] at hv; simp only [Option.none_or] at hv; simp [hv]
    · rw [h4] at hv; simp only [Option.some_or, Option.some.injEq] at hv; subst hv; rfl
  have hl := fwdAddr_len hv
  rw [hn, withInstance_new]
  refine ⟨rfl, carried_new g (by omega) hg, ?_⟩
  rw [ip_ip rfl (by rw [payload_new]; omega), payload_new]

example : (newIPAddress (v4Prefix ++ [1, 2, 3, 4])).payload = [1, 2, 3, 4] := by decide

/-! ### C48 for these elements -/

theorem parseFTEID_returns (b : Bytes) : Returns (parseFTEID b) := by
  unfold parseFTEID FTEID.getV4 FTEID.getV6
  ret
  all_goals refine returns_bind ?_ (fun _ _ => ?_)
  all_goals ret
theorem parsePAA_returns (b : Bytes) : Returns (parsePAA b) := by unfold parsePAA; dsimp only; ret
theorem keyAfterAddr_returns (b : Bytes) (h : 1 ≤ b.length) : Returns (keyAfterAddr b) := by unfold keyAfterAddr; ret
theorem addrAt_returns (b : Bytes) (k : Nat) (h : k < b.length) : Returns (addrAt b k) := by unfold addrAt; ret
theorem getEBIs_returns (b : Bytes) (n off : Nat) (h : off + n ≤ b.length) : Returns (getEBIs b n off) := by
  induction n generalizing off with
  | zero => simp [getEBIs]
  | succ n ih =>
    rw [getEBIs]
    ret
    exact returns_bind (ih _ (by omega)) (fun _ _ => by ret)
theorem collectEBIs_returns (b : Bytes) (n off : Nat) : Returns (collectEBIs b n off) := by
  induction n generalizing off with
  | zero => simp [collectEBIs]
  | succ n ih =>
    rw [collectEBIs]
    ret
    exact returns_bind (ih _) (fun _ _ => by ret)

/-- C48 for the F-TEID, PAA, S103, S1-U and IP Address readers: whatever the type and payload -/
theorem C48_addr (i : IE) : Returns i.fteid ∧ Returns i.hasIPv4 ∧ Returns i.hasIPv6 ∧ Returns i.interfaceType ∧
    Returns i.greKey ∧ Returns i.teid ∧ Returns i.s103 ∧ Returns i.ebis ∧ Returns i.s1udf ∧ Returns i.ip ∧
    Returns i.ipv4 ∧ Returns i.ipv6 ∧ Returns (parsePAA i.payload) := by
  have h4 : Returns i.hasIPv4 := by unfold IE.hasIPv4; ret
  have h6 : Returns i.hasIPv6 := by unfold IE.hasIPv6; ret
  have hip : Returns i.ip := by
    unfold IE.ip
    ret
    · exact returns_bind (parsePAA_returns _) (fun _ _ => by ret)
    · exact addrAt_returns _ _ (by omega)
    · exact addrAt_returns _ _ (by omega)
    · exact returns_bind (parseFTEID_returns _) (fun _ _ => returns_bind h4 (fun _ _ => returns_bind h6 (fun _ _ => by ret)))
  have ho : ∀ o, Returns (orNotFound o) := by intro o; cases o <;> simp [orNotFound]
  refine ⟨?_, h4, h6, ?_, ?_, ?_, ?_, ?_, ?_, hip, ?_, ?_, parsePAA_returns _⟩
  · unfold IE.fteid; ret; exact parseFTEID_returns _
  · unfold IE.interfaceType; ret
  · unfold IE.greKey; ret; exact keyAfterAddr_returns _ (by omega)
  · unfold IE.teid; ret; exact keyAfterAddr_returns _ (by omega)
  · unfold IE.s103; ret
    unfold parseS103; dsimp only; ret
    exact returns_bind (getEBIs_returns _ _ _ (by omega)) (fun _ _ => by ret)
  · unfold IE.ebis; ret <;> exact collectEBIs_returns _ _ _
  · unfold IE.s1udf; ret
    unfold parseS1UDF; dsimp only; ret
  · exact returns_bind hip (fun _ _ => ho _)
  · unfold IE.ipv6
    ret
    · exact returns_bind hip (fun _ _ => ho _)
    · exact returns_bind (parsePAA_returns _) (fun _ _ => ho _)
    · refine returns_bind (parseFTEID_returns _) (fun _ _ => returns_bind h6 (fun _ _ => ?_))
      ret
      exact ho _

example : (newIE 87 0 [0xff, 1]).ip = err .eof := by decide

end Verif.V2

/-! ### cases that meet the hypotheses -/

namespace Verif.V2
open Res NetIP
example := C41_fteid_partial (g := defaultGrouped) 11 7 [10, 0, 0, 1] [] (by decide) (by decide)
example := C41_gre_wrong (g := defaultGrouped) 11 7 (by decide) (by decide)
example := C50_paa_v4 (g := defaultGrouped) [10, 0, 0, 1] [10, 0, 0, 1] 0 (by decide) (by decide)
example := C50_paa_v6 (g := defaultGrouped) [0x20, 1, 0xd, 0xb8, 0, 0, 0, 0, 0, 0, 0, 0, 0, 0, 0, 1] _ 64 (by decide) rfl (by decide)
example := C50_paa_dual (g := defaultGrouped) [10, 0, 0, 1] [0x20, 1, 0xd, 0xb8, 0, 0, 0, 0, 0, 0, 0, 0, 0, 0, 0, 1] _ _ 64 rfl rfl (by decide)
example := C50_s103 (g := defaultGrouped) [10, 0, 0, 1] _ 7 [5, 6] rfl (by decide) (by decide) (by decide)
example := C50_s1u_partial (g := defaultGrouped) 5 [10, 0, 0, 1] _ 7 rfl (by decide) (by decide)
example := C50_s1u_received 0x15 [10, 0, 0, 1] (by decide) 7 [1, 2] 0
example := C50_ip (g := defaultGrouped) [10, 0, 0, 1] _ rfl (by decide) 0
end Verif.V2
