import Verif.Model.Typed.Plmn
import Verif.Props.Typed.Plain
/-
Property theorems C50 for the elements with a PLMN in front and the fully qualified CSID, and C48 for them.
-/
set_option linter.unusedSimpArgs false
namespace Verif.V2
open Res Utils NetIP

variable (g : UInt8 → Bool)

theorem plmn_three {mcc mnc : Bytes} (h : IsPLMN mcc mnc) :
    ∃ a b c, encPLMN mcc mnc = [a, b, c] ∧ encodePLMN mcc mnc = ok [a, b, c] ∧ decodePLMN [a, b, c] = ok (mcc, mnc) := by
  obtain ⟨h1, h2, h3⟩ := plmn_facts h
  match he : encPLMN mcc mnc, h2 with
  | [a, b, c], _ => exact ⟨a, b, c, rfl, he ▸ h1, he ▸ h3⟩

/-- PLMN ID (TS 29.274 8.64) and Serving Network (8.18) -/
theorem C50_plmn (t : UInt8) (ht : t = 120 ∨ t = 83) {mcc mnc : Bytes} (h : IsPLMN mcc mnc) (n : UInt8) (hg : g t = false) :
    ∃ i, newPLMN t mcc mnc = ok (some i) ∧ i.typ = t ∧ i.payload = encPLMN mcc mnc ∧ Carried g (i.withInstance n) ∧
      (i.withInstance n).plmnString t = ok (mcc ++ mnc) ∧ (i.withInstance n).plmn = ok (mcc, mnc) := by
  obtain ⟨a, b, c, e, h1, h2⟩ := plmn_three h
  refine ⟨newIE t 0 [a, b, c], by simp [newPLMN, h1, build], rfl, e ▸ rfl, carried_new g (by simp) hg, ?_, ?_⟩
  · simp [IE.plmnString, h2]
  · rcases ht with rfl | rfl <;> simp [IE.plmn, h2]

example : newPLMN 83 [48, 48, 49] [48, 49] = ok (some (newIE 83 0 [0x00, 0xf1, 0x10])) ∧
    (newIE 83 0 [0x00, 0xf1, 0x10]).plmnString 83 = ok [48, 48, 49, 48, 49] := by decide

/-- Global CN-Id (TS 29.274 8.25): PLMN and CN-Id, twelve bits -/
theorem C50_global_cn {mcc mnc : Bytes} (h : IsPLMN mcc mnc) (id : UInt16) (hid : id.toNat < 4096) (n : UInt8)
    (hg : g 89 = false) :
    ∃ i, newGlobalCNID mcc mnc id = ok (some i) ∧ i.typ = 89 ∧ i.payload = encPLMN mcc mnc ++ be16 id ∧
      Carried g (i.withInstance n) ∧ (i.withInstance n).plmn = ok (mcc, mnc) ∧ (i.withInstance n).cnid = ok id := by
  obtain ⟨a, b, c, e, h1, h2⟩ := plmn_three h
  have hm : id &&& 0xfff = id := by
    apply UInt16.toNat_inj.mp
    rw [UInt16.toNat_and]
    show id.toNat &&& 4095 = _
    rw [Nat.and_two_pow_sub_one_eq_mod (n := 12)]
    omega
  refine ⟨newIE 89 0 ([a, b, c] ++ be16 id), ?_, rfl, e ▸ rfl, carried_new g (by simp) hg, ?_, ?_⟩
  · simp [newGlobalCNID, h1, hm, build, copyAt, be16, List.replicate_succ]
  · simp [IE.plmn, slice, h2]
  · simp [IE.cnid, slice, be16]
    exact rd16_be16' id

example : newGlobalCNID [48, 48, 49] [48, 49] 0xabc = ok (some (newIE 89 0 [0x00, 0xf1, 0x10, 0x0a, 0xbc])) := by decide

/-- Trace Reference (TS 29.274 8.53): PLMN and three octets of trace identity -/
theorem C50_trace {mcc mnc : Bytes} (h : IsPLMN mcc mnc) (id : UInt32) (hid : id.toNat < 2 ^ 24) (n : UInt8)
    (hg : g 115 = false) :
    ∃ i, newTrace mcc mnc id = ok (some i) ∧ i.typ = 115 ∧ i.payload = encPLMN mcc mnc ++ be24 id ∧
      Carried g (i.withInstance n) ∧ parseTrace (i.withInstance n).payload = ok ⟨mcc, mnc, id⟩ ∧
      (i.withInstance n).plmn = ok (mcc, mnc) ∧ (i.withInstance n).traceID = ok id := by
  obtain ⟨a, b, c, e, h1, h2⟩ := plmn_three h
  have hb := uint24_be24 hid
  refine ⟨newIE 115 0 ([a, b, c] ++ be24 id), ?_, rfl, e ▸ rfl, carried_new g (by simp) hg, ?_, ?_, ?_⟩
  · simp [newTrace, Trace.marshalTo, h1, build, copyAt, (C03_uint24 id).1, be24, List.replicate_succ]
  · simp [parseTrace, slice, be24, h2] at hb ⊢; exact hb
  · simp [IE.plmn, slice, h2]
  · simp [IE.traceID, slice, be24] at hb ⊢; exact hb

example : newTrace [48, 48, 49] [48, 49, 50] 0x010203 = ok (some (newIE 115 0 [0x00, 0x21, 0x10, 1, 2, 3])) := by decide

/-- the last octet of User CSG Information: access mode in bits 8 and 7, LCSG in bit 2, CMI in bit 1 -/
def uciOctet (mode : UInt8) (lcsg cmi : Bool) : UInt8 := UInt8.ofNat (mode.toNat * 64 + lcsg.toNat * 2 + cmi.toNat)

/-- User CSG Information (TS 29.274 8.75) -/
theorem C50_uci_partial {mcc mnc : Bytes} (h : IsPLMN mcc mnc) (csg : UInt32) (hc : csg.toNat < 2 ^ 27) (mode : UInt8)
    (hm : mode < 4) (lcsg cmi : Bool) (n : UInt8) (hg : g 145 = false) :
    ∃ i, newUCI mcc mnc csg mode (if lcsg then 1 else 0) (if cmi then 1 else 0) = ok (some i) ∧ i.typ = 145 ∧
      i.payload = encPLMN mcc mnc ++ be32 csg ++ [uciOctet mode lcsg cmi] ∧ Carried g (i.withInstance n) ∧
      (i.withInstance n).uci = ok ⟨mcc, mnc, csg, mode, UInt8.ofNat (lcsg.toNat * 2 + cmi.toNat)⟩ ∧
      (i.withInstance n).plmn = ok (mcc, mnc) ∧ (i.withInstance n).csgID g = ok csg ∧
      (i.withInstance n).accessMode = ok mode := by
  obtain ⟨a, b, c, e, h1, h2⟩ := plmn_three h
  have key : ∀ (m : Fin 4) (l k : Bool), ((((.ofNat m : UInt8) &&& (0x03 : UInt8)) <<< 6) |||
        ((((if l then (1 : UInt8) else 0) <<< 1) &&& (0x02 : UInt8)) ||| ((if k then (1 : UInt8) else 0) &&& (0x01 : UInt8)))) =
          uciOctet (.ofNat m) l k ∧ uciOctet (.ofNat m) l k >>> 6 = .ofNat m ∧
        uciOctet (.ofNat m) l k &&& (0x03 : UInt8) = UInt8.ofNat (l.toNat * 2 + k.toNat) := by decide +kernel
  have := key ⟨mode.toNat, hm⟩ lcsg cmi
  simp only [UInt8.ofNat_toNat] at this
  obtain ⟨k1, k2, k3⟩ := this
  have hcs : csg &&& 0x7ffffff = csg := by
    apply UInt32.toNat_inj.mp
    rw [UInt32.toNat_and]
    show csg.toNat &&& 134217727 = _
    rw [Nat.and_two_pow_sub_one_eq_mod (n := 27)]
    omega
  generalize uciOctet mode lcsg cmi = o at *
  generalize UInt8.ofNat (lcsg.toNat * 2 + cmi.toNat) = fl at *
  obtain ⟨p, q, r, s, hb, -⟩ := be32_cases csg
  have hr := rd32_be32'' csg hb
  refine ⟨newIE 145 0 ([a, b, c] ++ be32 csg ++ [o]), ?_, rfl, e ▸ rfl, carried_new g (by simp) hg, ?_, ?_, ?_, ?_⟩
  · simp [newUCI, UCI.marshalTo, h1, build, copyAt, setAt, hcs, k1, hb, List.replicate_succ]
  · simp [IE.uci, parseUCI, slice, idx, hb, h2, hr, hcs, k2, k3]
  · simp [IE.plmn, slice, h2]
  · simp [IE.csgID, slice, hb, hr, hcs]
  · simp [IE.accessMode, idx, hb, k2]

example : newUCI [48, 48, 49] [48, 49] 7 2 1 0 = ok (some (newIE 145 0 [0x00, 0xf1, 0x10, 0, 0, 0, 7, 0x82])) := by decide

/-- but the accessor `CMI` returns the whole octet, access mode included -/
theorem C50_uci_cmi_wrong {mcc mnc : Bytes} (csg : UInt32) (mode : UInt8) (lcsg cmi : UInt8) {i : IE}
    (h : newUCI mcc mnc csg mode lcsg cmi = ok (some i)) :
    i.cmi g = ok (((mode &&& (0x03 : UInt8)) <<< 6) ||| (((lcsg <<< 1) &&& (0x02 : UInt8)) ||| (cmi &&& (0x01 : UInt8)))) := by
  simp only [newUCI, UCI.marshalTo, List.length_replicate, show ¬ (8 < 3) by omega, if_false] at h
  cases hp : encodePLMN mcc mnc with
  | ok pl =>
    simp only [hp, bind_ok] at h
    obtain ⟨b, hb, hl⟩ := copyAt_len_ok (b := List.replicate 8 (0 : UInt8)) (lo := 0) (hi := 3) (by omega) (by simp) pl
    obtain ⟨b', hb', hl'⟩ := copyAt_len_ok (b := b) (lo := 3) (hi := 7) (by omega) (by simp [hl]) (be32 (csg &&& 0x7ffffff))
    simp only [List.length_replicate] at hl
    have : ¬ b.length < 8 := by omega
    simp only [hb, bind_ok, this, if_false, hb'] at h
    rw [setAt_of_lt (by omega)] at h
    simp only [build, ok.injEq, Option.some.injEq] at h
    subst h
    have h8 : b'.length = 8 := by omega
    simp [IE.cmi, idx, h8]
  | err x => simp [hp, build] at h
  | «panic» => simp [hp, build] at h
  | diverge => simp [hp, build] at h

example : ∃ i, newUCI [48, 48, 49] [48, 49] 7 1 1 1 = ok (some i) ∧ i.accessMode = ok 1 ∧ i.cmi defaultGrouped = ok 0x43 := by
  exact ⟨_, rfl, by decide, by decide⟩

/-! ### GUTI -/

/-- GUTI (TS 29.274 8.58, TS 23.003 2.8.1).  The element is right and so are the accessors of single values. -/
theorem C50_guti_partial {mcc mnc : Bytes} (h : IsPLMN mcc mnc) (grp : UInt16) (code : UInt8) (tmsi : UInt32) (n : UInt8)
    (hg : g 117 = false) :
    ∃ i, newGUTI mcc mnc grp code tmsi = ok (some i) ∧ i.typ = 117 ∧
      i.payload = encPLMN mcc mnc ++ be16 grp ++ [code] ++ be32 tmsi ∧ Carried g (i.withInstance n) ∧
      (i.withInstance n).plmn = ok (mcc, mnc) ∧ (i.withInstance n).mmeGroupID = ok grp ∧
      (i.withInstance n).mmeCode = ok code ∧ (i.withInstance n).mtmsi = ok tmsi ∧
      ∀ spare, ∃ f, (i.withInstance n).guti spare = ok f ∧ f.group = grp ∧ f.code = code ∧ f.mtmsi = tmsi := by
  obtain ⟨a, b, c, e, h1, h2⟩ := plmn_three h
  obtain ⟨p, q, r, s, hb, -⟩ := be32_cases tmsi
  have hr := rd32_be32'' tmsi hb
  obtain ⟨u, v, hu⟩ : ∃ u v, be16 grp = [u, v] := ⟨_, _, rfl⟩
  have hr' := rd16_be16' grp
  rw [hu] at hr'
  refine ⟨newIE 117 0 ([a, b, c] ++ be16 grp ++ [code] ++ be32 tmsi), ?_, rfl, e ▸ rfl, carried_new g (by simp) hg,
    ?_, ?_, ?_, ?_, ?_⟩
  · simp [newGUTI, GUTI.marshalTo, h1, build, copyAt, setAt, hb, hu, List.replicate_succ]
  · simp [IE.plmn, slice, h2]
  · simp [IE.mmeGroupID, slice, hu, hr']
  · simp [IE.mmeCode, idx, hu, hb]
  · simp [IE.mtmsi, slice, hu, hb, hr]
  · intro spare
    simp [IE.guti, parseGUTI, slice, idx, hu, hb, decodeMCC, decodeMNC, hexEncode, hr, hr']
    split <;> simp

example : newGUTI [48, 48, 49] [48, 49] 0x1111 0x22 0x33333333 =
    ok (some (newIE 117 0 [0x00, 0xf1, 0x10, 0x11, 0x11, 0x22, 0x33, 0x33, 0x33, 0x33])) := by decide

/-- the field structure shows another PLMN: it is read one octet too late -/
theorem C50_guti_plmn_wrong :
    ∃ i, newGUTI [49, 50, 51] [52, 53] 0x1111 0x22 0x33333333 = ok (some i) ∧ i.plmn = ok ([49, 50, 51], [52, 53]) ∧
      ∀ spare, i.guti spare = ok ⟨[51, 102, 52], [49, 49, 53], 0x1111, 0x22, 0x33333333⟩ := by
  refine ⟨newIE 117 0 [0x21, 0xf3, 0x54, 0x11, 0x11, 0x22, 0x33, 0x33, 0x33, 0x33], by decide, by decide, fun spare => ?_⟩
  simp [IE.guti, parseGUTI, slice, idx, decodeMCC, decodeMNC, hexEncode, rd16, rd32]
  decide

/-- and a PLMN that cannot be encoded gives an element of zeros instead of none -/
theorem C50_guti_bad_plmn : newGUTI [120] [48, 49] 5 6 7 = ok (some (newIE 117 0 (List.replicate 10 0))) := by decide

/-! ### Fully qualified CSID -/

/-- TS 29.274 8.62: node identity type, number of CSIDs, node identity, CSIDs -/
def encCSID (kind : UInt8) (node : Bytes) (ids : List UInt16) : Bytes :=
  [UInt8.ofNat (kind.toNat * 16 + ids.length)] ++ node ++ ids.flatMap be16

theorem flatMap_be16_length (ids : List UInt16) : (ids.flatMap be16).length = ids.length * 2 := by
  induction ids with
  | nil => rfl
  | cons x xs ih => simp [ih]; omega

theorem putCSIDs_eq (ids : List UInt16) (pre : Bytes) (off : Nat) (ho : off = pre.length) :
    putCSIDs ids off (pre ++ List.replicate (ids.length * 2) 0) = ok (pre ++ ids.flatMap be16) := by
  induction ids generalizing pre off with
  | nil => simp [putCSIDs]
  | cons x xs ih =>
    rw [putCSIDs, if_neg (by simp; omega)]
    rw [copyAt_append ho (by simp [ho]) (by simp; omega)]
    simp only [bind_ok]
    have : List.drop (be16 x).length (List.replicate ((x :: xs).length * 2) (0 : UInt8)) = List.replicate (xs.length * 2) 0 := by
      simp [Nat.add_mul]
    rw [this, ih (pre ++ be16 x) (off + 2) (by simp [ho])]
    simp

theorem getCSIDs_eq (ids : List UInt16) (pre : Bytes) (off fuel : Nat) (ho : off = pre.length) (hf : ids.length < fuel) :
    getCSIDs fuel (pre ++ ids.flatMap be16) off = ok ids := by
  induction ids generalizing pre off fuel with
  | nil =>
    obtain ⟨k, rfl⟩ : ∃ k, fuel = k + 1 := ⟨fuel - 1, by simp at hf; omega⟩
    rw [getCSIDs, if_neg (by simp; omega)]
  | cons x xs ih =>
    obtain ⟨k, rfl⟩ : ∃ k, fuel = k + 1 := ⟨fuel - 1, by simp at hf; omega⟩
    rw [getCSIDs, if_pos (by simp [ho])]
    rw [List.flatMap_cons, slice_mid ho (by simp)]
    simp only [bind_ok]
    rw [rd16_be16' x, ← List.append_assoc, ih (pre ++ be16 x) (off + 2) k (by simp [ho]) (by simp at hf; omega)]
    rfl

theorem csid_octet (kind : UInt8) (hk : kind < 3) (k : Nat) (h : k < 16) :
    (((kind <<< 4) &&& (0xf0 : UInt8)) ||| (UInt8.ofNat k &&& (0x0f : UInt8))) = UInt8.ofNat (kind.toNat * 16 + k) ∧
    (UInt8.ofNat (kind.toNat * 16 + k) >>> 4) &&& (0x0f : UInt8) = kind ∧
    UInt8.ofNat (kind.toNat * 16 + k) &&& (0x0f : UInt8) = UInt8.ofNat k := by
  have key : ∀ (t : Fin 3) (k : Fin 16), ((((UInt8.ofNat t) <<< 4) &&& (0xf0 : UInt8)) ||| (UInt8.ofNat k &&& (0x0f : UInt8))) =
      UInt8.ofNat ((UInt8.ofNat t).toNat * 16 + k) ∧
      (UInt8.ofNat ((UInt8.ofNat t).toNat * 16 + k) >>> 4) &&& (0x0f : UInt8) = UInt8.ofNat t ∧
      UInt8.ofNat ((UInt8.ofNat t).toNat * 16 + k) &&& (0x0f : UInt8) = UInt8.ofNat k := by decide +kernel
  have := key ⟨kind.toNat, hk⟩ ⟨k, h⟩
  simpa only [UInt8.ofNat_toNat] using this

theorem csid_marshal (kind : UInt8) (hk : kind < 3) (node : Bytes) (ids : List UInt16) (hi : ids.length < 16)
    (hn : node.length = if kind = 1 then 16 else 4) :
    CSID.marshalTo ⟨kind, UInt8.ofNat ids.length, node, ids⟩ (List.replicate (CSID.marshalLen ⟨kind, UInt8.ofNat ids.length, node, ids⟩) 0) =
      ok (encCSID kind node ids) := by
  obtain ⟨k1, -, -⟩ := csid_octet kind hk ids.length hi
  have hl : CSID.marshalLen ⟨kind, UInt8.ofNat ids.length, node, ids⟩ = 1 + node.length + ids.length * 2 := by
    have e : kind < 3 ↔ kind.toNat < 3 := Iff.rfl
    have : kind = 0 ∨ kind = 1 ∨ kind = 2 := by
      rw [e] at hk
      rcases (by omega : kind.toNat = 0 ∨ kind.toNat = 1 ∨ kind.toNat = 2) with h | h | h
      · exact .inl (UInt8.toNat_inj.mp h)
      · exact .inr (.inl (UInt8.toNat_inj.mp h))
      · exact .inr (.inr (UInt8.toNat_inj.mp h))
    rcases this with rfl | rfl | rfl <;> simp [CSID.marshalLen, hn]
  rw [hl, CSID.marshalTo, if_neg (by simp)]
  rw [setAt_of_lt (by simp; omega)]
  simp only [bind_ok, k1]
  have e0 : (List.replicate (1 + node.length + ids.length * 2) (0 : UInt8)).set 0 (UInt8.ofNat (kind.toNat * 16 + ids.length)) =
      [UInt8.ofNat (kind.toNat * 16 + ids.length)] ++ (List.replicate (node.length + ids.length * 2) 0) := by
    rw [Nat.add_assoc, Nat.add_comm 1, List.replicate_succ]; rfl
  rw [e0, if_neg (by simp; omega)]
  rw [copyAt_append (by rfl) (by simp) (by simp)]
  simp only [bind_ok]
  have : List.drop node.length (List.replicate (node.length + ids.length * 2) (0 : UInt8)) = List.replicate (ids.length * 2) 0 := by
    simp
  rw [this, putCSIDs_eq _ _ _ (by simp; omega)]
  simp [encCSID]

theorem csid_parse (kind : UInt8) (hk : kind < 3) (node : Bytes) (ids : List UInt16) (hi : ids.length < 16)
    (hn : node.length = if kind = 1 then 16 else 4) (i : IE) (ht : i.typ = 132) (hp : i.payload = encCSID kind node ids) :
    i.csid = ok ⟨kind, UInt8.ofNat ids.length, node, ids⟩ ∧ i.nodeIDType = ok kind ∧ i.csids = ok ids ∧
      (ids ≠ [] → i.nodeID = ok node) := by
  obtain ⟨-, k2, k3⟩ := csid_octet kind hk ids.length hi
  have hlen : (encCSID kind node ids).length = 1 + node.length + ids.length * 2 := by
    simp only [encCSID, List.length_append, flatMap_be16_length]; rfl
  have h0 : idx (encCSID kind node ids) 0 = ok (UInt8.ofNat (kind.toNat * 16 + ids.length)) := rfl
  have hs : slice (encCSID kind node ids) 1 (1 + node.length) = ok node := by
    rw [encCSID, List.append_assoc]; exact slice_mid rfl rfl
  have hc : ∀ fuel, ids.length < fuel → getCSIDs fuel (encCSID kind node ids) (1 + node.length) = ok ids := by
    intro fuel hf
    exact getCSIDs_eq ids _ _ fuel (by simp; omega) hf
  have e : kind < 3 ↔ kind.toNat < 3 := Iff.rfl
  have hkk : kind = 0 ∨ kind = 1 ∨ kind = 2 := by
    rw [e] at hk
    rcases (by omega : kind.toNat = 0 ∨ kind.toNat = 1 ∨ kind.toNat = 2) with h | h | h
    · exact .inl (UInt8.toNat_inj.mp h)
    · exact .inr (.inl (UInt8.toNat_inj.mp h))
    · exact .inr (.inr (UInt8.toNat_inj.mp h))
  have hpos : ids ≠ [] → 1 ≤ ids.length := by intro h; cases ids <;> simp_all
  generalize UInt8.ofNat (kind.toNat * 16 + ids.length) = o at *
  generalize encCSID kind node ids = P at *
  have l1 : ¬ P.length < 1 := by omega
  have hc := hc (P.length + 1) (by omega)
  rcases hkk with rfl | rfl | rfl <;> simp at hn <;> simp only [hn] at hs hc hlen
  · have l2 : ¬ P.length < 5 := by omega
    refine ⟨?_, ?_, ?_, fun hne => ?_⟩
    · simp [IE.csid, parseCSID, ht, hp, h0, k2, k3, hs, hc, l1, l2]
    · simp [IE.nodeIDType, ht, hp, h0, k2, l1]
    · simp [IE.csids, ht, hp, h0, k2, hc, l1]
    · have := hpos hne
      have l3 : ¬ P.length < 6 := by omega
      simp [IE.nodeID, ht, hp, h0, k2, hs, l1, l3]
  · have l2 : ¬ P.length < 17 := by omega
    refine ⟨?_, ?_, ?_, fun hne => ?_⟩
    · simp [IE.csid, parseCSID, ht, hp, h0, k2, k3, hs, hc, l1, l2]
    · simp [IE.nodeIDType, ht, hp, h0, k2, l1]
    · simp [IE.csids, ht, hp, h0, k2, hc, l1]
    · have := hpos hne
      have l3 : ¬ P.length < 18 := by omega
      simp [IE.nodeID, ht, hp, h0, k2, hs, l1, l3]
  · have l2 : ¬ P.length < 5 := by omega
    refine ⟨?_, ?_, ?_, fun hne => ?_⟩
    · simp [IE.csid, parseCSID, ht, hp, h0, k2, k3, hs, hc, l1, l2]
    · simp [IE.nodeIDType, ht, hp, h0, k2, l1]
    · simp [IE.csids, ht, hp, h0, k2, hc, l1]
    · have := hpos hne
      have l3 : ¬ P.length < 6 := by omega
      simp [IE.nodeID, ht, hp, h0, k2, hs, l1, l3]

/-- Fully qualified CSID (TS 29.274 8.62).  `ip` is what `net.ParseIP` makes of `s`: an IPv4 address in either form, an IPv6
address, or nothing, in which case `s` has to be four octets in hexadecimal.  With no CSID the accessor `NodeID` fails. -/
theorem C50_csid_partial (s : Bytes) (ip : Option Bytes) (kind : UInt8) (node : Bytes) (ids : List UInt16)
    (hi : ids.length < 16)
    (hs : (kind = 0 ∧ ∃ a, ip = some a ∧ to4 a = some node) ∨
      (kind = 1 ∧ ip = some node ∧ to4 node = none ∧ node.length = 16) ∨
      (kind = 2 ∧ ip = none ∧ hexDecode s = ok node ∧ node.length = 4)) (n : UInt8) (hg : g 132 = false) :
    ∃ i, newCSID s ip ids = ok (some i) ∧ i.typ = 132 ∧ i.payload = encCSID kind node ids ∧ Carried g (i.withInstance n) ∧
      (i.withInstance n).csid = ok ⟨kind, UInt8.ofNat ids.length, node, ids⟩ ∧ (i.withInstance n).nodeIDType = ok kind ∧
      (i.withInstance n).csids = ok ids ∧ (ids ≠ [] → (i.withInstance n).nodeID = ok node) := by
  have hf : newCSIDFields s ip ids = some ⟨kind, UInt8.ofNat ids.length, node, ids⟩ ∧ kind < 3 ∧
      node.length = if kind = 1 then 16 else 4 := by
    rcases hs with ⟨rfl, a, rfl, h⟩ | ⟨rfl, rfl, h, hl⟩ | ⟨rfl, rfl, h, hl⟩
    · obtain ⟨p, q, r, t, rfl⟩ := to4_some h
      exact ⟨by simp [newCSIDFields, h], by decide, rfl⟩
    · exact ⟨by simp [newCSIDFields, h], by decide, hl⟩
    · exact ⟨by simp [newCSIDFields, h], by decide, hl⟩
  obtain ⟨h1, hk, hn⟩ := hf
  refine ⟨newIE 132 0 (encCSID kind node ids), ?_, rfl, rfl, carried_new g ?_ hg, ?_⟩
  · simp only [newCSID, h1]
    rw [csid_marshal kind hk node ids hi hn]; rfl
  · simp only [encCSID, List.length_append, flatMap_be16_length, hn]
    simp
    split <;> omega
  · exact csid_parse kind hk node ids hi hn _ rfl rfl

/-- departures: without a CSID the node identity is refused; a string that is neither an address nor hexadecimal crashes; other
sizes of a hexadecimal identity give no element or cut off CSIDs -/
theorem C50_csid_wrong :
    (∃ i, newCSID [] (some [1, 2, 3, 4]) [] = ok (some i) ∧ i.nodeID = err .eof) ∧
    newCSID [122] none [1] = .panic ∧
    newCSID [49, 50, 51, 52, 53, 54, 55, 56, 57, 48] none [] = ok none ∧
    newCSID [49, 50, 51, 52, 53, 54, 55, 56, 57, 48] none [7] =
      ok (some (newIE 132 0 [0x21, 0x12, 0x34, 0x56, 0x78, 0x90, 0])) := by
  exact ⟨⟨_, rfl, by decide⟩, by decide, by decide, by decide⟩

example : ∃ i, newCSID [] (some [1, 2, 3, 4]) [0x0102, 0x0304] = ok (some i) ∧ i.payload = [0x02, 1, 2, 3, 4, 1, 2, 3, 4] ∧
    i.csids = ok [0x0102, 0x0304] := ⟨_, rfl, by decide, by decide⟩

/-! ### C48 -/

theorem getCSIDs_returns (b : Bytes) (off fuel : Nat) (h : b.length + 1 ≤ off + fuel) (h' : 1 ≤ fuel) :
    Returns (getCSIDs fuel b off) := by
  induction fuel generalizing off with
  | zero => omega
  | succ k ih =>
    rw [getCSIDs]
    split
    · refine returns_bind_slice (by omega) (by omega) (fun s hs => ?_)
      refine returns_bind_rd16 (by omega) (fun x => ?_)
      exact returns_bind (ih (off + 2) (by omega) (by omega)) (fun _ _ => by ret)
    · ret

/-- C48 for the readers of this file but the GUTI structure -/
theorem C48_plmn (i : IE) (t : UInt8) : Returns (i.plmnString t) ∧ Returns i.cnid ∧ Returns (parseTrace i.payload) ∧
    Returns i.traceID ∧ Returns i.uci ∧ Returns i.accessMode ∧ Returns i.mmeGroupID ∧ Returns i.mmeCode ∧ Returns i.mtmsi ∧
    Returns i.csid ∧ Returns i.nodeIDType ∧ Returns i.nodeID ∧ Returns i.csids := by
  have hd : ∀ {b : Bytes} {α} {f : Bytes × Bytes → Res α}, 3 ≤ b.length → (∀ x, Returns (f x)) → Returns (decodePLMN b >>= f) :=
    fun h hf => returns_bind (decodePLMN_returns h) (fun _ _ => hf _)
  refine ⟨?_, ?_, ?_, ?_, ?_, ?_, ?_, ?_, ?_, ?_, ?_, ?_, ?_⟩
  · unfold IE.plmnString; ret
    all_goals exact hd (by omega) (fun _ => by ret)
  · unfold IE.cnid; ret
  · unfold parseTrace; ret
    all_goals exact hd (by omega) (fun _ => by ret)
  · unfold IE.traceID; ret
  · unfold IE.uci; ret
    unfold parseUCI; ret
    all_goals exact hd (by omega) (fun _ => by ret)
  · unfold IE.accessMode; ret
  · unfold IE.mmeGroupID; ret
  · unfold IE.mmeCode; ret
  · unfold IE.mtmsi; ret
  · unfold IE.csid; ret
    unfold parseCSID; dsimp only; ret
    · exact returns_bind (getCSIDs_returns _ _ _ (by omega) (by omega)) (fun _ _ => by ret)
    · exact returns_bind (getCSIDs_returns _ _ _ (by omega) (by omega)) (fun _ _ => by ret)
  · unfold IE.nodeIDType; ret
  · unfold IE.nodeID; dsimp only; ret
  · unfold IE.csids; dsimp only; ret
    · exact getCSIDs_returns _ _ _ (by omega) (by omega)
    · exact getCSIDs_returns _ _ _ (by omega) (by omega)

example : (newIE 115 0 [0x00, 0xf1]).traceID = err .eof := by decide

/-- the GUTI structure: reading panics exactly for a payload of three octets with no octet behind it -/
theorem C48_guti_partial (i : IE) (spare : Bytes) :
    (i.guti spare = .panic ↔ i.typ = 117 ∧ i.payload.length = 3 ∧ spare = []) ∧
    (¬ (i.typ = 117 ∧ i.payload.length = 3 ∧ spare = []) → Returns (i.guti spare)) := by
  have h2 : ¬ (i.typ = 117 ∧ i.payload.length = 3 ∧ spare = []) → Returns (i.guti spare) := by
    intro h
    unfold IE.guti
    split
    · rename_i ht
      unfold parseGUTI
      split
      · ret
      · rename_i hl
        have hlen : 4 ≤ (i.payload ++ spare).length := by
          rcases Nat.lt_or_ge i.payload.length 4 with h4 | h4
          · have h3 : i.payload.length = 3 := by omega
            have : spare ≠ [] := fun hs => h ⟨ht, h3, hs⟩
            have : 1 ≤ spare.length := by cases spare <;> simp_all
            simp; omega
          · simp; omega
        have hdec : ∀ s : Bytes, s.length = 2 → Returns (decodeMCC s) ∧ Returns (decodeMNC s) := by
          intro s hs
          match s, hs with
          | [x, y], _ => simp [decodeMCC, decodeMNC, hexEncode]; split <;> simp
        refine returns_bind_slice (by omega) (by omega) (fun s hs => ?_)
        refine returns_bind (hdec s (by omega)).1 (fun mcc _ => ?_)
        refine returns_bind_slice (by omega) (by omega) (fun t ht => ?_)
        refine returns_bind (hdec t (by omega)).2 (fun mnc _ => ?_)
        ret
    · ret
  refine ⟨⟨fun h => ?_, fun ⟨ht, hl, hs⟩ => ?_⟩, h2⟩
  · refine Decidable.byContradiction (fun hn => ?_)
    have := h2 hn
    rw [h] at this
    simp [Returns] at this
  · subst hs
    match hp : i.payload, hl with
    | [a, b, c], _ => simp [IE.guti, ht, parseGUTI, hp, slice, decodeMCC, hexEncode]

example : (newIE 117 0 [1, 2, 3]).guti [] = .panic ∧ (newIE 117 0 [1, 2, 3]).guti [4] = err .eof := by decide

end Verif.V2

/-! ### cases that meet the hypotheses -/

namespace Verif.V2
open Res Utils NetIP
example := C50_plmn (g := defaultGrouped) 120 (.inl rfl) (mcc := [48, 48, 49]) (mnc := [48, 49]) (by decide) 1 (by decide)
example := C50_global_cn (g := defaultGrouped) (mcc := [51, 49, 48]) (mnc := [52, 49, 48]) (by decide) 0x123 (by decide) 1 (by decide)
example := C50_trace (g := defaultGrouped) (mcc := [48, 48, 49]) (mnc := [48, 49]) (by decide) 0x10203 (by decide) 1 (by decide)
example := C50_uci_partial (g := defaultGrouped) (mcc := [48, 48, 49]) (mnc := [48, 49]) (by decide) 0x10203 (by decide) 2 (by decide) true false 1 (by decide)
example := C50_uci_cmi_wrong (g := defaultGrouped) (mcc := [48, 48, 49]) (mnc := [48, 49]) 0x10203 2 1 0 rfl
example := C50_guti_partial (g := defaultGrouped) (mcc := [48, 48, 49]) (mnc := [48, 49]) (by decide) 0x1234 0x56 0x789abcde 1 (by decide)
example := C50_csid_partial (g := defaultGrouped) [] (some [127, 0, 0, 1]) 0 [127, 0, 0, 1] [8, 9] (by decide) (.inl ⟨rfl, _, rfl, rfl⟩) 1 (by decide)
end Verif.V2
