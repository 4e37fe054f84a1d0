import Verif.Props.Cut
import Verif.Props.V2Msg2
import Verif.Proofs.Order
/-
Create Session Request with a private extension and additional IEs (C13, C16): MarshalTo does not advance behind the private
extension (gtpv2/message/create-session-req.go:679-683).  What is sent, for every message, and that the private extension is never
received.
-/
namespace Verif.Msg
open Res
variable {ι η : Type} {io : IEOps ι} {enc : ι → Bytes} {sz wf : ι → Prop} {ho : HdrOps η}

/-- blocks that advance, followed by others -/
theorem writeFields_append (L : IELaws io enc sz wf) (F : Fields ι) (rest : List Entry) : ∀ (es : List Entry) (pre r : Bytes),
    (∀ f, ∀ x ∈ F f, sz x) → es.all (·.adv) = true → ((emit es F).map io.mlen).sum ≤ r.length →
    writeFields io F (es ++ rest) pre.length (pre ++ r)
      = writeFields io F rest (pre ++ (emit es F).flatMap enc).length
          (pre ++ (emit es F).flatMap enc ++ r.drop ((emit es F).map io.mlen).sum)
  | [], pre, r, _, _, _ => by simp [emit]
  | e :: es, pre, r, hs, ha, hl => by
    have hcons : emit (e :: es) F = F e.field ++ emit es F := by simp [emit]
    rw [hcons, List.map_append, List.sum_append] at hl
    simp only [List.all_cons, Bool.and_eq_true] at ha
    rw [hcons, List.cons_append]
    simp only [writeFields, ha.1]
    rw [writeList_adv L _ _ _ (hs e.field) (by omega)]
    simp only [bind_ok]
    have := writeFields_append L F rest es (pre ++ (F e.field).flatMap enc) (r.drop ((F e.field).map io.mlen).sum) hs ha.2
      (by rw [List.length_drop]; omega)
    rw [List.length_append, length_flatMap_enc L _ (hs e.field)] at this
    rw [this]
    simp [List.flatMap_append, List.drop_drop]

/-- a block that forgets to advance, and one behind it -/
theorem writeFields_two (L : IELaws io enc sz wf) (F : Fields ι) (i j : Nat) (pre r : Bytes) (hs : ∀ f, ∀ x ∈ F f, sz x)
    (h1 : (F i).length ≤ 1) (hl : ((F i).map io.mlen).sum + ((F j).map io.mlen).sum ≤ r.length) :
    writeFields io F [⟨i, false⟩, ⟨j, true⟩] pre.length (pre ++ r)
      = ok (pre ++ ((F j).flatMap enc ++
          ((F i).flatMap enc ++ r.drop ((F i).map io.mlen).sum).drop ((F j).map io.mlen).sum)) := by
  have step : writeList io false (F i) pre.length (pre ++ r)
      = ok (pre.length, pre ++ ((F i).flatMap enc ++ r.drop ((F i).map io.mlen).sum)) := by
    match hh : F i, h1 with
    | [], _ => simp [writeList]
    | [x], _ =>
      simp only [hh, List.map_cons, List.map_nil, List.sum_cons, List.sum_nil] at hl
      have hx : sz x := hs i x (by simp [hh])
      simp only [writeList]
      rw [sliceFrom_of_le (by simp), bind_ok, List.drop_left, L.mto x r hx (by omega), bind_ok, List.take_left]
      simp
  simp only [writeFields]
  rw [step, bind_ok]
  simp only []
  have hlen := length_flatMap_enc L (F i) (hs i)
  rw [writeList_adv L (F j) pre _ (hs j) (by simp only [List.length_append, List.length_drop]; omega), bind_ok]
  simp

/-- serialising, whatever the body written -/
theorem marshal_of_write (H : HdrLaws ho) (m : Message η ι) (p out : Bytes) (hr : m.schema.reset = true)
    (hc : m.schema.lenCheck = false) (hlen : p.length = bodyLen io m.schema m.fields)
    (hw : writeFields io m.fields m.schema.order 0 (List.replicate (bodyLen io m.schema m.fields) 0) = ok p)
    (hm : ho.mto (doneHdr ho m.hdr p) (List.replicate (ho.mlen (doneHdr ho m.hdr p)) 0) = ok out) :
    marshalLen ho io m = (ho.mlen (doneHdr ho m.hdr p) : Int) ∧
    marshal ho io m = ok ({ m with hdr := doneHdr ho m.hdr p }, out) := by
  have e : marshalLen ho io m = (ho.mlen (doneHdr ho m.hdr p) : Int) := by
    have := H.len m.hdr p
    rw [marshalLen, doneHdr, H.lenL]
    omega
  refine ⟨e, ?_⟩
  unfold marshal
  simp only [e, Int.toNat_natCast]
  rw [if_neg (by omega)]
  unfold marshalTo
  simp only [hc, Bool.false_and, Bool.false_eq_true, if_false, hr, if_true]
  have hN : marshalLen ho io { m with hdr := ho.setPayload m.hdr [] } - ho.mlen (ho.setPayload m.hdr [])
      = (bodyLen io m.schema m.fields : Int) := by
    simp only [marshalLen, H.pay, List.length_nil]; omega
  rw [hN, if_neg (by omega)]
  simp only [Int.toNat_natCast]
  rw [hw]
  simp only [bind_ok, H.setset]
  have : ho.mto (ho.setLength (ho.setPayload m.hdr p)) (List.replicate (ho.mlen (doneHdr ho m.hdr p)) 0) = ok out := hm
  rw [this]
  rfl

end Verif.Msg

namespace Verif.V2
open Res Spec Msg
variable (g : UInt8 → Bool)

/-- the octets of the fields of a Create Session Request in front of the private extension -/
def front (F : Fields IE) : Bytes := ((List.range 64).flatMap F).flatMap (rawEnc g)

/-- the body of every Create Session Request as it is sent: the additional IEs start where the private extension does -/
def csrBody (F : Fields IE) : Bytes :=
  front g F ++ ((F 65).flatMap (rawEnc g) ++
    ((F 64).flatMap (rawEnc g) ++ List.replicate ((F 65).flatMap (rawEnc g)).length 0).drop ((F 65).flatMap (rawEnc g)).length)

theorem csr_order : Tab.createSessionRequest.order
    = (List.range 64).map (fun f => (⟨f, true⟩ : Entry)) ++ [⟨64, false⟩, ⟨65, true⟩] := by decide +kernel

theorem csr_write (F : Fields IE) (h1 : (F 64).length ≤ 1) :
    writeFields (ieOps g) F Tab.createSessionRequest.order 0
      (List.replicate (bodyLen (ieOps g) Tab.createSessionRequest F) 0) = ok (csrBody g F) ∧
    (csrBody g F).length = bodyLen (ieOps g) Tab.createSessionRequest F := by
  have hl : Tab.createSessionRequest.lensOK = true := by decide +kernel
  have hem : emit ((List.range 64).map (fun f => (⟨f, true⟩ : Entry))) F = (List.range 64).flatMap F := by
    simp only [emit, List.flatMap_map]
  have hS := sum_emit (io := ieOps g) Tab.createSessionRequest hl F
  have hfl : ∀ l : List IE, (l.flatMap (rawEnc g)).length = (l.map (ieOps g).mlen).sum :=
    fun l => length_flatMap_enc (ieLaws g) l (fun _ _ => trivial)
  have hsum : bodyLen (ieOps g) Tab.createSessionRequest F
      = (front g F).length + (((F 64).flatMap (rawEnc g)).length + ((F 65).flatMap (rawEnc g)).length) := by
    have e2 : emit (((List.range 64).map (fun f => (⟨f, true⟩ : Entry))) ++ [⟨64, false⟩, ⟨65, true⟩]) F
        = (List.range 64).flatMap F ++ (F 64 ++ F 65) := by
      rw [← hem]; simp [emit]
    rw [← hS, csr_order, e2, List.map_append, List.sum_append, List.map_append, List.sum_append, front, hfl, hfl, hfl]
  constructor
  · have k1 := writeFields_append (ieLaws g) F [⟨64, false⟩, ⟨65, true⟩] ((List.range 64).map (fun f => (⟨f, true⟩ : Entry))) []
      (List.replicate (bodyLen (ieOps g) Tab.createSessionRequest F) 0) (fun _ _ _ => trivial)
      (by decide +kernel) (by rw [hem, ← hfl, List.length_replicate]; show (front g F).length ≤ _; omega)
    rw [hem, ← hfl, List.nil_append, List.nil_append] at k1
    rw [csr_order]
    refine Eq.trans k1 ?_
    rw [writeFields_two (ieLaws g) F 64 65 _ _ (fun _ _ _ => trivial) h1 (by
      rw [← hfl, ← hfl, List.length_drop, List.length_replicate]
      show _ ≤ _ - (front g F).length
      omega)]
    rw [← hfl, ← hfl, List.drop_replicate, List.drop_replicate]
    have e3 : bodyLen (ieOps g) Tab.createSessionRequest F - (((List.range 64).flatMap F).flatMap (rawEnc g)).length
        - ((F 64).flatMap (rawEnc g)).length = ((F 65).flatMap (rawEnc g)).length := by
      show bodyLen (ieOps g) Tab.createSessionRequest F - (front g F).length - _ = _
      omega
    rw [e3]
    rfl
  · rw [hsum]
    simp only [csrBody, List.length_append, List.length_drop, List.length_replicate]
    omega

/-- **C16** what every Create Session Request is sent as, whatever its header and fields (PrivateExtension, field 64, holds at most one
IE): the size is the announced one and Length is right, but the body is the IEs in front of the private extension, the additional
IEs, and what is left of the private extension and zeros behind it. -/
theorem C16_createSessionRequest_exact (m : Message) (hs : m.schema = Tab.createSessionRequest) (h1 : (m.fields 64).length ≤ 1) :
    ∃ m' out, marshalMsg g m = ok (m', out) ∧ m'.fields = m.fields ∧
      (out.length : Int) = Msg.marshalLen hdrOps (ieOps g) m ∧
      (out.drop 2).take 2 = be16 (UInt16.ofNat (out.length - 4)) ∧
      out = encH (doneHdr hdrOps m.hdr (csrBody g m.fields)) ∧
      out.drop (if m.hdr.flags.toNat / 8 % 2 = 1 then 12 else 8) = csrBody g m.fields := by
  obtain ⟨hw, hl⟩ := csr_write g m.fields h1
  rw [← hs] at hw hl
  have h2 := mto_done (doneHdr hdrOps m.hdr (csrBody g m.fields))
    (List.replicate (doneHdr hdrOps m.hdr (csrBody g m.fields)).marshalLen 0) (by simp)
  simp only [List.drop_replicate, Nat.sub_self, List.replicate_zero, List.append_nil] at h2
  obtain ⟨k1, k2⟩ := marshal_of_write hdrLaws m (csrBody g m.fields) _ (by rw [hs]; rfl) (by rw [hs]; rfl) hl hw h2
  refine ⟨_, _, k2, rfl, ?_, ?_, rfl, ?_⟩
  · rw [k1, length_encH]; rfl
  · have e1 : ((encH (doneHdr hdrOps m.hdr (csrBody g m.fields))).drop 2).take 2
        = be16 (doneHdr hdrOps m.hdr (csrBody g m.fields)).length := by
      obtain ⟨l0, l1, hl⟩ := be16_cases (doneHdr hdrOps m.hdr (csrBody g m.fields)).length
      simp [encH, hl]
    rw [e1, length_encH]
    congr 1
    have e2 : (doneHdr hdrOps m.hdr (csrBody g m.fields)).payload = csrBody g m.fields := rfl
    have e3 : (doneHdr hdrOps m.hdr (csrBody g m.fields)).hasTEID = m.hdr.hasTEID := rfl
    rw [Header.marshalLen, e2, e3]
    show UInt16.ofNat (4 + (csrBody g m.fields).length) + (if m.hdr.hasTEID = true then 4 else 0) = _
    cases m.hdr.hasTEID <;> (apply UInt16.toNat.inj; rw [UInt16.toNat_add]; simp only [UInt16.toNat_ofNat', UInt16.reduceToNat, if_true, if_false, Bool.false_eq_true]; omega)
  · exact drop_encH (doneHdr hdrOps m.hdr (csrBody g m.fields))

/-- octets that, followed by n > 0 zeros, read the same from the n-th on are zeros -/
theorem zeros_of_shift (P : Bytes) (n : Nat) (hn : 0 < n) (h : (P ++ List.replicate n 0).drop n = P) : ∀ i, i < P.length → P[i]? = some 0 := by
  have key : ∀ k i, i < P.length → P.length - i ≤ k → P[i]? = some 0 := by
    intro k
    induction k with
    | zero => intro i hi hk; omega
    | succ k ih =>
      intro i hi hk
      have e : P[i]? = (P ++ List.replicate n 0)[n + i]? := by
        conv => lhs; rw [← h]
        rw [List.getElem?_drop]
      rw [e]
      by_cases c : n + i < P.length
      · rw [List.getElem?_append_left c]
        exact ih (n + i) c (by omega)
      · rw [List.getElem?_append_right (by omega), List.getElem?_replicate, if_pos (by omega)]
  exact fun i hi => key P.length i hi (by omega)

/-- the rules of Create Session Request by which an element of type 255 goes to field 64, and no other does -/
def Keeps64 (rules : List Rule) (d : Act) : Prop :=
  (∀ t i : Nat, t ≠ 255 → 64 ∉ (sel rules d t i).touches) ∧ ∀ i : Nat, sel rules d 255 i = .set 64

theorem apply_mem (a : Act) (F : Fields IE) (x y : IE) (f : Nat) (h : y ∈ a.apply F x f) : y ∈ F f ∨ y = x := by
  induction a with
  | drop => exact Or.inl h
  | set k =>
    simp only [Act.apply, upd] at h
    split at h
    · exact Or.inr (by simpa using h)
    · exact Or.inl h
  | app k =>
    simp only [Act.apply, upd] at h
    split at h
    · rename_i e; subst e
      simpa using h
    · exact Or.inl h
  | free k r ih =>
    simp only [Act.apply] at h
    split at h
    · simp only [upd] at h
      split at h
      · exact Or.inr (by simpa using h)
      · exact Or.inl h
    · exact ih h
  | ifset k r ih =>
    simp only [Act.apply] at h
    split at h
    · exact ih h
    · simp only [upd] at h
      split at h
      · exact Or.inr (by simpa using h)
      · exact Or.inl h

theorem file64 {rules : List Rule} {d : Act} (hk : Keeps64 rules d) (xs : List IE) :
    (∀ y ∈ classify (ieOps g) rules d xs 64, y.typ = 255) ∧
    ∀ f, f ≠ 64 → ∀ y ∈ classify (ieOps g) rules d xs f, y.typ ≠ 255 := by
  unfold classify
  suffices H : ∀ (xs : List IE) (F : Fields IE), (∀ y ∈ F 64, y.typ = 255) → (∀ f, f ≠ 64 → ∀ y ∈ F f, y.typ ≠ 255) →
      (∀ y ∈ xs.foldl (fun F x => (sel rules d ((ieOps g).typ x).toNat ((ieOps g).inst x).toNat).apply F x) F 64, y.typ = 255) ∧
      ∀ f, f ≠ 64 → ∀ y ∈ xs.foldl (fun F x => (sel rules d ((ieOps g).typ x).toNat ((ieOps g).inst x).toNat).apply F x) F f,
        y.typ ≠ 255 from
    H xs Fields.empty (fun y hy => by cases hy) (fun f _ y hy => by cases hy)
  intro xs
  induction xs with
  | nil => exact fun F h1 h2 => ⟨h1, h2⟩
  | cons x xs ih =>
    intro F h1 h2
    rw [List.foldl_cons]
    apply ih
    · by_cases c : x.typ = 255
      · have e : ((ieOps g).typ x).toNat = 255 := by show x.typ.toNat = 255; rw [c]; rfl
        rw [e, hk.2]
        intro y hy
        simp only [Act.apply, upd, if_true, List.mem_singleton] at hy
        rw [hy]; exact c
      · have hn : ((ieOps g).typ x).toNat ≠ 255 := fun e => c (UInt8.toNat.inj e)
        rw [Order.apply_out _ _ _ _ (hk.1 _ _ hn)]
        exact h1
    · intro f hf y hy
      by_cases c : x.typ = 255
      · have e : ((ieOps g).typ x).toNat = 255 := by show x.typ.toNat = 255; rw [c]; rfl
        rw [e, hk.2] at hy
        simp only [Act.apply, upd, if_neg hf] at hy
        exact h2 f hf y hy
      · rcases apply_mem _ _ _ _ _ hy with h | h
        · exact h2 f hf y h
        · rw [h]; exact c

theorem keeps64_of (rules : List Rule) (d : Act) (h1 : ∀ r ∈ rules, r.typ ≠ 255 → 64 ∉ r.act.touches) (h2 : 64 ∉ d.touches)
    (h3 : rules.find? (fun r => r.typ == 255) = some ⟨255, none, .set 64⟩) : Keeps64 rules d := by
  constructor
  · intro t i ht
    unfold sel
    split
    · rename_i r hr
      have a := List.find?_some hr
      have b := List.mem_of_find?_eq_some hr
      simp only [Bool.and_eq_true, beq_iff_eq] at a
      exact h1 r b (by rw [a.1]; exact ht)
    · exact h2
  · intro i
    obtain ⟨_, as, bs, e, hn⟩ := List.find?_eq_some_iff_append.mp h3
    have : rules.find? (fun r => r.typ == 255 && (r.inst == none || r.inst == some i)) = some ⟨255, none, .set 64⟩ := by
      rw [List.find?_eq_some_iff_append]
      refine ⟨by simp, as, bs, e, ?_⟩
      intro r hr
      have := hn r hr
      simp only [Bool.not_eq_true'] at this ⊢
      rw [this]; rfl
    unfold sel
    rw [this]

theorem keeps_new : Keeps64 Tab.createSessionRequest.newRules Tab.createSessionRequest.newDefault :=
  keeps64_of _ _ (by decide +kernel) (by decide +kernel) (by decide +kernel)

theorem keeps_un : Keeps64 Tab.createSessionRequest.unRules Tab.createSessionRequest.unDefault :=
  keeps64_of _ _ (by decide +kernel) (by decide +kernel) (by decide +kernel)

theorem csr_front (F : Fields IE) (hw : ∀ f, ∀ x ∈ F f, wf g x = true) :
    csrBody g F = encs g ((List.range 64).flatMap F ++ F 65) ++
      (encs g (F 64) ++ List.replicate (encs g (F 65)).length 0).drop (encs g (F 65)).length := by
  have hA : (F 65).flatMap (rawEnc g) = encs g (F 65) := flatMap_rawEnc g _ (hw 65)
  have hP : (F 64).flatMap (rawEnc g) = encs g (F 64) := flatMap_rawEnc g _ (hw 64)
  have hE : front g F = encs g ((List.range 64).flatMap F) := by
    apply flatMap_rawEnc
    intro x hx
    obtain ⟨f, _, hx⟩ := List.mem_flatMap.mp hx
    exact hw f x hx
  have happ : ∀ a b : List IE, encs g (a ++ b) = encs g a ++ encs g b := by
    intro a b; simp only [encs_eq_flatMap, List.flatMap_append]
  rw [csrBody, hA, hP, hE, happ, List.append_assoc]

theorem newCSR_facts (ies : List (Option IE)) (hw : ∀ x, some x ∈ ies → wf g x = true) :
    (∀ f, ∀ x ∈ newFields (ieOps g) Tab.createSessionRequest ies f, wf g x = true) ∧
    (newFields (ieOps g) Tab.createSessionRequest ies 64).length ≤ 1 := by
  refine ⟨classify_mem (ieOps g) _ _ _ _ (fun x hx => hw x (by simpa using hx)), ?_⟩
  have hs : Tab.createSessionRequest ∈ Tab.all := by simp [Tab.all]
  exact (stable_new (ieOps g) _ (all_unGood _ hs) (ies.filterMap id)
    (fun x _ => newSub_sound (ieOps g) _ (by decide +kernel) x)).scalar 64 (by decide +kernel)

theorem parse_done (h : Header) (p : Bytes) (hT : h.flags.toNat / 8 % 2 = 1) (hseq : h.seq.toNat < 2 ^ 24)
    (hmax : 12 + p.length < 65536) : Header.parse (encH (doneHdr hdrOps h p)) = ok (doneHdr hdrOps h p) := by
  have hml : (hdrOps.setPayload h p).marshalLen = 12 + p.length := by
    have e : (hdrOps.setPayload h p).hasTEID = h.hasTEID := rfl
    have e2 : (hdrOps.setPayload h p).payload = p := rfl
    rw [Header.marshalLen, e, e2, hasTEID_iff, if_pos (by simpa using hT)]
    omega
  have hwf := setLength_wf (hdrOps.setPayload h p) hseq (fun h0 => absurd (show h.flags.toNat / 8 % 2 = 0 from h0) (by omega))
    (by omega)
  have hml' : ((hdrOps.setPayload h p).setLength).marshalLen = 12 + p.length := hml
  have := Header.parse_encH (hdrOps.setPayload h p).setLength [] hwf (by omega)
  rw [List.append_nil] at this
  exact this

/-- what a parser that accepts the datagram has found: the elements in front, the additional ones, and what it makes of the rest -/
theorem csr_received (teid seq : UInt32) (ies : List (Option IE)) (hw : ∀ x, some x ∈ ies → wf g x = true)
    (hseq : seq.toNat < 2 ^ 24) (hmax : 12 + ((ies.filterMap id).map (IE.marshalLen g)).sum < 65536)
    (F : Fields IE) (hF : F = newFields (ieOps g) Tab.createSessionRequest ies) :
    ∃ m' b, marshalMsg g (newMessage g Tab.createSessionRequest teid seq ies) = ok (m', b) ∧
      (∀ r, parseMsg g b = ok r → ∃ ys, wfs g ys = true ∧
        encs g ys = (encs g (F 64) ++ List.replicate (encs g (F 65)).length 0).drop (encs g (F 65)).length ∧
        r.schema = Tab.createSessionRequest ∧
        r.fields = classify (ieOps g) Tab.createSessionRequest.unRules Tab.createSessionRequest.unDefault
          ((List.range 64).flatMap F ++ F 65 ++ ys)) ∧
      (∀ ys, wfs g ys = true →
        encs g ys = (encs g (F 64) ++ List.replicate (encs g (F 65)).length 0).drop (encs g (F 65)).length →
        ∃ r, parseMsg g b = ok r) := by
  subst hF
  obtain ⟨hwF, h1⟩ := newCSR_facts g ies hw
  obtain ⟨m', b, e, _, hlen, _, hb, _⟩ := C16_createSessionRequest_exact g (newMessage g Tab.createSessionRequest teid seq ies) rfl h1
  rw [show (newMessage g Tab.createSessionRequest teid seq ies).fields = newFields (ieOps g) Tab.createSessionRequest ies from rfl] at hb
  have hs : Tab.createSessionRequest ∈ Tab.all := by simp [Tab.all]
  have hbody := csr_front g _ hwF
  have hsz : (csrBody g (newFields (ieOps g) Tab.createSessionRequest ies)).length ≤ ((ies.filterMap id).map (IE.marshalLen g)).sum := by
    rw [(csr_write g _ h1).2]
    exact sum_newFields g _ (all_unGood _ hs) (all_lensOK _ hs) ies
  -- the header is read back
  have hhdr : Header.parse b = ok (doneHdr hdrOps (newMessage g Tab.createSessionRequest teid seq ies).hdr
      (csrBody g (newFields (ieOps g) Tab.createSessionRequest ies))) := by
    rw [hb]
    refine parse_done _ _ ?_ hseq (by omega)
    show (0x48 : UInt8).toNat / 8 % 2 = 1
    decide
  have h2 : 2 ≤ b.length := by
    rw [hb, length_encH]
    unfold Header.marshalLen; omega
  have hpm : parseMsg g b = unmarshal hdrOps (ieOps g) Tab.createSessionRequest b := by
    rw [hb] at h2 ⊢
    rw [parseMsg_encH g _ h2]
    rfl
  refine ⟨m', b, e, ?_, ?_⟩
  · intro r hr
    obtain ⟨t, ht, hp, hsch, hc⟩ := parseMsg_ok g hr
    rw [hhdr] at hp
    have hh := ok.inj hp
    have hpay : r.hdr.payload = csrBody g (newFields (ieOps g) Tab.createSessionRequest ies) := by rw [← hh]; rfl
    have ht32 : t = 32 := by
      rw [hb] at ht
      have : (encH (doneHdr hdrOps (newMessage g Tab.createSessionRequest teid seq ies).hdr
        (csrBody g (newFields (ieOps g) Tab.createSessionRequest ies))))[1]? = some 32 := rfl
      rw [this] at ht
      exact (Option.some.inj ht).symm
    have hs' : r.schema = Tab.createSessionRequest := by rw [hsch, ht32]; rfl
    rcases hc with ⟨_, hlt, hf⟩ | ⟨xs, hx, hf⟩
    · rw [hpay] at hlt
      have hfl : ∀ l : List IE, l ≠ [] → 4 ≤ (encs g l).length := by
        intro l hl
        cases l with
        | nil => exact absurd rfl hl
        | cons x l =>
          have := length_enc g x
          simp only [encs, List.length_append]
          omega
      rw [hbody] at hlt
      simp only [List.length_append, List.length_drop, List.length_replicate] at hlt
      have e1 : (List.range 64).flatMap (newFields (ieOps g) Tab.createSessionRequest ies) ++
          newFields (ieOps g) Tab.createSessionRequest ies 65 = [] := by
        apply Classical.byContradiction
        intro h
        have := hfl _ h
        omega
      have e2 : newFields (ieOps g) Tab.createSessionRequest ies 65 = [] := (List.append_eq_nil_iff.mp e1).2
      have e3 : newFields (ieOps g) Tab.createSessionRequest ies 64 = [] := by
        apply Classical.byContradiction
        intro h
        have := hfl _ h
        omega
      refine ⟨[], rfl, ?_, hs', ?_⟩
      · rw [e2, e3]; rfl
      · rw [List.append_nil, e1, hf]; rfl
    · rw [hpay, hbody] at hx
      obtain ⟨hwx, hex⟩ := (parseMulti_ok_iff g _ xs).mp hx
      have hwfront : wfs g ((List.range 64).flatMap (newFields (ieOps g) Tab.createSessionRequest ies) ++
          newFields (ieOps g) Tab.createSessionRequest ies 65) = true := by
        rw [wfs_iff]
        intro x hx
        rcases List.mem_append.mp hx with h | h
        · obtain ⟨f, _, h⟩ := List.mem_flatMap.mp h
          exact hwF f x h
        · exact hwF 65 x h
      obtain ⟨ys, e1, e2⟩ := encs_prefix g _ xs _ hwfront hwx hex.symm
      refine ⟨ys, ?_, e2.symm, hs', ?_⟩
      · rw [e1, wfs_append, Bool.and_eq_true] at hwx; exact hwx.2
      · rw [hf, hs', e1]
  · intro ys hys hey
    have hwall : ∀ x ∈ (List.range 64).flatMap (newFields (ieOps g) Tab.createSessionRequest ies) ++
          newFields (ieOps g) Tab.createSessionRequest ies 65 ++ ys, wf g x = true := by
      intro x hx
      rcases List.mem_append.mp hx with h | h
      · rcases List.mem_append.mp h with h | h
        · obtain ⟨f, _, h⟩ := List.mem_flatMap.mp h
          exact hwF f x h
        · exact hwF 65 x h
      · exact (wfs_iff g ys).mp hys x h
    rw [hpm]
    refine ⟨_, unmarshal_body (ieLaws g) _ b _ _ hhdr ?_ hwall⟩
    rw [flatMap_rawEnc g _ hwall]
    show csrBody g _ = _
    rw [hbody, ← hey]
    simp only [encs_eq_flatMap, List.flatMap_append]

/-- **C13** a Create Session Request with a private extension and additional IEs is serialised, but its private extension is never
received: whatever a parser that accepts the datagram finds in that field, it is not the one that was given. -/
theorem C13_createSessionRequest_lost (teid seq : UInt32) (ies : List (Option IE)) (hw : ∀ x, some x ∈ ies → wf g x = true)
    (hseq : seq.toNat < 2 ^ 24) (hmax : 12 + ((ies.filterMap id).map (IE.marshalLen g)).sum < 65536)
    (h64 : (newMessage g Tab.createSessionRequest teid seq ies).fields 64 ≠ [])
    (h65 : (newMessage g Tab.createSessionRequest teid seq ies).fields 65 ≠ []) :
    ∃ m' b, marshalMsg g (newMessage g Tab.createSessionRequest teid seq ies) = ok (m', b) ∧
      ∀ r, parseMsg g b = ok r → r.fields 64 ≠ (newMessage g Tab.createSessionRequest teid seq ies).fields 64 := by
  obtain ⟨hwF, h1⟩ := newCSR_facts g ies hw
  obtain ⟨m', b, e, hr, _⟩ := csr_received g teid seq ies hw hseq hmax _ rfl
  refine ⟨m', b, e, ?_⟩
  intro r hp heq
  obtain ⟨ys, hwy, hey, _, hf⟩ := hr r hp
  have hk := file64 g keeps_new (ies.filterMap id)
  change newFields (ieOps g) Tab.createSessionRequest ies 64 ≠ [] at h64
  change newFields (ieOps g) Tab.createSessionRequest ies 65 ≠ [] at h65
  change r.fields 64 = newFields (ieOps g) Tab.createSessionRequest ies 64 at heq
  change (∀ y ∈ newFields (ieOps g) Tab.createSessionRequest ies 64, y.typ = 255) ∧
    (∀ f, f ≠ 64 → ∀ y ∈ newFields (ieOps g) Tab.createSessionRequest ies f, y.typ ≠ 255) at hk
  generalize newFields (ieOps g) Tab.createSessionRequest ies = F at *
  obtain ⟨x, hx⟩ : ∃ x, F 64 = [x] := by
    match hh : F 64, h1 with
    | [], _ => exact absurd hh h64
    | [x], _ => exact ⟨x, rfl⟩
  have hx255 : x.typ = 255 := hk.1 x (by rw [hx]; exact List.mem_singleton.mpr rfl)
  -- the element received is among those read from the rest
  have hin : x ∈ ys := by
    have hm : x ∈ r.fields 64 := by rw [heq, hx]; exact List.mem_singleton.mpr rfl
    rw [hf] at hm
    have := classify_mem (ieOps g) Tab.createSessionRequest.unRules Tab.createSessionRequest.unDefault
      (fun y => y ∈ (List.range 64).flatMap F ++ F 65 ++ ys) _ (fun y hy => hy) 64 x hm
    rcases List.mem_append.mp this with h | h
    · rcases List.mem_append.mp h with h | h
      · obtain ⟨f, hf, h⟩ := List.mem_flatMap.mp h
        exact absurd hx255 (hk.2 f (by have := List.mem_range.mp hf; omega) x h)
      · exact absurd hx255 (hk.2 65 (by omega) x h)
    · exact h
  have hone : encs g [x] = enc g x := by simp [encs]
  have hpos : 0 < (encs g (F 65)).length := by
    cases hc : F 65 with
    | nil => exact absurd hc h65
    | cons a l =>
      have := length_enc g a
      simp only [encs, List.length_append]
      omega
  -- so the rest is that element alone
  have hys : ys = [x] := by
    obtain ⟨s, t, rfl⟩ := List.append_of_mem hin
    have hl := congrArg List.length hey
    rw [hx, hone] at hl
    simp only [encs_eq_flatMap, List.flatMap_append, List.flatMap_cons, List.length_append, List.length_drop,
      List.length_replicate] at hl
    have hnil : ∀ l : List IE, (l.flatMap (enc g)).length = 0 → l = [] := by
      intro l hl
      cases l with
      | nil => rfl
      | cons a l =>
        have := length_enc g a
        simp only [List.flatMap_cons, List.length_append] at hl
        omega
    rw [hnil s (by omega), hnil t (by omega)]
    rfl
  rw [hys, hx, hone] at hey
  have hz := zeros_of_shift (enc g x) _ hpos hey.symm 0 (by have := length_enc g x; omega)
  have : (enc g x)[0]? = some x.typ := by cases x; rfl
  rw [this, hx255] at hz
  exact absurd hz (by decide)

/-- **C13** Create Session Requests round trip exactly if there is no private extension or no additional IE. -/
theorem C13_createSessionRequest_iff (teid seq : UInt32) (ies : List (Option IE)) (hw : ∀ x, some x ∈ ies → wf g x = true)
    (hseq : seq.toNat < 2 ^ 24) (hmax : 12 + ((ies.filterMap id).map (IE.marshalLen g)).sum < 65536) :
    RoundTrips g Tab.createSessionRequest teid seq ies ↔
      (newMessage g Tab.createSessionRequest teid seq ies).fields 64 = [] ∨
      (newMessage g Tab.createSessionRequest teid seq ies).fields 65 = [] := by
  constructor
  · rintro ⟨m', b, hm, _, hp, _, hf, _⟩
    apply Classical.byContradiction
    intro h
    rw [not_or] at h
    obtain ⟨m₂, b₂, e, hl⟩ := C13_createSessionRequest_lost g teid seq ies hw hseq hmax h.1 h.2
    rw [hm] at e
    obtain ⟨rfl, rfl⟩ := Prod.mk.inj (ok.inj e)
    exact hl m' hp (by rw [hf])
  · intro h
    exact C13_round_trip_createSessionRequest_partial g teid seq ies hw hseq h hmax

/-- zeros read as elements are elements of type 0 without value -/
theorem zeros_read (ys : List IE) (hw : wfs g ys = true) : ∀ n, encs g ys = List.replicate n 0 →
    n = 4 * ys.length ∧ ys = List.replicate ys.length (IE.mk 0 0 0 [] []) := by
  have hz : wf g (IE.mk 0 0 0 [] []) = true := by
    simp only [wf]; cases g 0 <;> rfl
  have henc : encs g [IE.mk 0 0 0 [] []] = [0, 0, 0, 0] := by
    simp only [encs, enc]; cases g 0 <;> rfl
  induction ys with
  | nil =>
    intro n h
    have := congrArg List.length h
    simp only [encs, List.length_nil, List.length_replicate] at this
    exact ⟨by simp; omega, rfl⟩
  | cons y ys ih =>
    intro n h
    have hl := congrArg List.length h
    have h4 := length_enc g y
    simp only [encs, List.length_append, List.length_replicate] at hl
    obtain ⟨k, rfl⟩ : ∃ k, n = 4 + k := ⟨n - 4, by omega⟩
    have e : encs g (y :: ys) = encs g [IE.mk 0 0 0 [] []] ++ List.replicate k 0 := by
      rw [h, henc, ← List.replicate_append_replicate]; rfl
    obtain ⟨zs, e1, e2⟩ := encs_prefix g [IE.mk 0 0 0 [] []] (y :: ys) _ (by simp [wfs, hz]) hw e
    simp only [List.singleton_append, List.cons.injEq] at e1
    obtain ⟨rfl, rfl⟩ := e1
    simp only [wfs, Bool.and_eq_true] at hw
    obtain ⟨a, b⟩ := ih hw.2 k e2.symm
    refine ⟨by simp only [List.length_cons]; omega, ?_⟩
    rw [List.length_cons, List.replicate_succ, ← b]

/-- **C13** if the additional IEs are at least as long as the private extension, which is of n octets, nothing of it is sent but n
zeros behind the additional IEs.  The receiver refuses the message unless n is a multiple of 4; then it takes the zeros for n / 4
more elements, of type 0, and there is no private extension. -/
theorem C13_createSessionRequest_zeros (teid seq : UInt32) (ies : List (Option IE)) (hw : ∀ x, some x ∈ ies → wf g x = true)
    (hseq : seq.toNat < 2 ^ 24) (hmax : 12 + ((ies.filterMap id).map (IE.marshalLen g)).sum < 65536) (F : Fields IE)
    (hF : F = (newMessage g Tab.createSessionRequest teid seq ies).fields) (hle : (encs g (F 64)).length ≤ (encs g (F 65)).length) :
    ∃ m' b, marshalMsg g (newMessage g Tab.createSessionRequest teid seq ies) = ok (m', b) ∧
      ((∃ r, parseMsg g b = ok r) ↔ (encs g (F 64)).length % 4 = 0) ∧
      ∀ r, parseMsg g b = ok r → r.fields 64 = [] ∧ r.fields = classify (ieOps g) Tab.createSessionRequest.unRules Tab.createSessionRequest.unDefault
        ((List.range 64).flatMap F ++ F 65 ++ List.replicate ((encs g (F 64)).length / 4) (IE.mk 0 0 0 [] [])) := by
  have hF' : F = newFields (ieOps g) Tab.createSessionRequest ies := hF
  obtain ⟨m', b, e, h1, h2⟩ := csr_received g teid seq ies hw hseq hmax F hF'
  have ht : (encs g (F 64) ++ List.replicate (encs g (F 65)).length 0).drop (encs g (F 65)).length
      = List.replicate (encs g (F 64)).length 0 := by
    rw [List.drop_append, List.drop_eq_nil_of_le hle, List.nil_append, List.drop_replicate]
    congr 1
    omega
  rw [ht] at h2
  refine ⟨m', b, e, ⟨?_, ?_⟩, ?_⟩
  · rintro ⟨r, hr⟩
    obtain ⟨ys, hwy, hey, _⟩ := h1 r hr
    rw [ht] at hey
    have := (zeros_read g ys hwy _ hey).1
    omega
  · intro h4
    have hz : wf g (IE.mk 0 0 0 [] []) = true := by
      simp only [wf]; cases g 0 <;> rfl
    have henc : enc g (IE.mk 0 0 0 [] []) = [0, 0, 0, 0] := by
      simp only [enc, encs]; cases g 0 <;> rfl
    apply h2 (List.replicate ((encs g (F 64)).length / 4) (IE.mk 0 0 0 [] []))
    · rw [wfs_iff]
      intro x hx
      rw [(List.mem_replicate.mp hx).2]; exact hz
    · have key : ∀ k, encs g (List.replicate k (IE.mk 0 0 0 [] [])) = List.replicate (4 * k) 0 := by
        intro k
        induction k with
        | zero => rfl
        | succ k ih =>
          rw [List.replicate_succ, encs, ih, henc, show 4 * (k + 1) = 4 + 4 * k by omega, ← List.replicate_append_replicate]
          rfl
      rw [key]
      congr 1
      omega
  · intro r hr
    obtain ⟨ys, hwy, hey, _, hf⟩ := h1 r hr
    rw [ht] at hey
    obtain ⟨a, b⟩ := zeros_read g ys hwy _ hey
    refine ⟨?_, by rw [hf, show (encs g (F 64)).length / 4 = ys.length by omega, ← b]⟩
    apply List.eq_nil_iff_forall_not_mem.mpr
    intro x hx
    have hk := file64 g keeps_new (ies.filterMap id)
    change (∀ y ∈ newFields (ieOps g) Tab.createSessionRequest ies 64, y.typ = 255) ∧
      (∀ f, f ≠ 64 → ∀ y ∈ newFields (ieOps g) Tab.createSessionRequest ies f, y.typ ≠ 255) at hk
    rw [← hF'] at hk
    rw [hf] at hx
    have hx255 := (file64 g keeps_un _).1 x hx
    have := classify_mem (ieOps g) Tab.createSessionRequest.unRules Tab.createSessionRequest.unDefault
      (fun y => y ∈ (List.range 64).flatMap F ++ F 65 ++ ys) _ (fun y hy => hy) 64 x hx
    rcases List.mem_append.mp this with h | h
    · rcases List.mem_append.mp h with h | h
      · obtain ⟨f, hf, h⟩ := List.mem_flatMap.mp h
        exact hk.2 f (by have := List.mem_range.mp hf; omega) x h hx255
      · exact hk.2 65 (by omega) x h hx255
    · rw [b] at h
      rw [(List.mem_replicate.mp h).2] at hx255
      exact absurd hx255 (show ¬ (0 : UInt8) = 255 by decide)

/-- a private extension of 8 octets and an additional IE of 9: accepted, with two elements of type 0; one of 7 octets and an
additional IE of 9: refused -/
example :
    (match bytesOf defaultGrouped (newMessage defaultGrouped Tab.createSessionRequest 7 1
        [some (newIE 255 0 [0, 1, 7, 8]), some (newIE 250 0 [1, 2, 3, 4, 5])]) with
      | ok b => fieldsOf (parseMsg defaultGrouped b) [64, 65]
      | _ => none) = some [[], [newIE 250 0 [1, 2, 3, 4, 5], .mk 0 0 0 [] [], .mk 0 0 0 [] []]] ∧
    (match bytesOf defaultGrouped (newMessage defaultGrouped Tab.createSessionRequest 7 1
        [some (newIE 255 0 [0, 1, 7]), some (newIE 250 0 [1, 2, 3, 4, 5])]) with
      | ok b => (parseMsg defaultGrouped b).accepted
      | _ => true) = false := by decide +kernel

end Verif.V2

/-! ### cases that meet the hypotheses: a private extension and an additional element -/
namespace Verif.V2
open Res Spec Msg
def bothIEs : List (Option IE) := [some (newIE 255 0 [0, 1, 7, 8]), none, some (newIE 250 0 [1, 2, 3, 4, 5])]
theorem bothIEs_wf : ∀ x, some x ∈ bothIEs → wf defaultGrouped x = true := by
  intro x hx; simp [bothIEs] at hx; rcases hx with rfl | rfl <;> decide
example := C16_createSessionRequest_exact (g := defaultGrouped) (newMessage defaultGrouped Tab.createSessionRequest 7 1 bothIEs) rfl
  (by decide +kernel)
example := C13_createSessionRequest_lost (g := defaultGrouped) 7 1 bothIEs bothIEs_wf (by decide) (by decide) (by decide +kernel) (by decide +kernel)
example := C13_createSessionRequest_iff (g := defaultGrouped) 7 1 bothIEs bothIEs_wf (by decide) (by decide)
example := C13_createSessionRequest_zeros (g := defaultGrouped) 7 1 bothIEs bothIEs_wf (by decide) (by decide) _ rfl (by decide +kernel)
end Verif.V2
