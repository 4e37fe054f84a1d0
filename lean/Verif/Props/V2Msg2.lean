import Verif.Props.V2Msg
/-
Property theorems C16-C18 (GTPv2 messages: exact sizes, re-serialising, what the library accepts).
-/
namespace Verif.V2
open Res Spec Msg

variable (g : UInt8 → Bool)

/-! ### C16 -/

/-- C16: any content of the fields (single-valued ones holding at most one IE; IEs need not be well-formed), any
header: serialisation succeeds, with exactly the announced size; the size and Length field are exact; the body is
the concatenation of the field IEs in the order of the message; and written into a larger buffer it overwrites
only its own octets.  Partial: Create Session Request only when PrivateExtension or AdditionalIEs is empty. -/
theorem C16_exact_size_partial (m : Message) (hs : m.schema ∈ Tab.all)
    (hk : ∀ f, f ∉ m.schema.multi → (m.fields f).length ≤ 1)
    (hcsr : m.schema = Tab.createSessionRequest → m.fields 64 = [] ∨ m.fields 65 = []) :
    ∃ m' out, marshalMsg g m = ok (m', out) ∧
      (out.length : Int) = Msg.marshalLen hdrOps (ieOps g) m ∧
      (out.drop 2).take 2 = be16 (UInt16.ofNat (out.length - 4)) ∧
      out.drop (if m.hdr.flags.toNat / 8 % 2 = 1 then 12 else 8) = (emit m.schema.order m.fields).flatMap (rawEnc g) ∧
      ((∀ f, ∀ x ∈ m.fields f, wf g x = true) →
        out.drop (if m.hdr.flags.toNat / 8 % 2 = 1 then 12 else 8) = encs g (emit m.schema.order m.fields)) ∧
      (∀ b : Bytes, out.length ≤ b.length →
        Msg.marshalTo hdrOps (ieOps g) m b = ok (m', out ++ b.drop out.length)) := by
  have hc : Clobberless m.fields m.schema.order := by
    by_cases h3 : m.schema = Tab.createSessionRequest
    · rw [h3]; exact clobberless_csr _ (hk 64 (by rw [h3]; decide +kernel)) (hcsr h3)
    · exact clobberless_of_advOK _ (advOK_of_ne _ hs h3) _ hk
  have hl := all_lensOK _ hs
  have hr := all_reset _ hs
  have hlen : (encH (done g m).hdr).length = (done g m).hdr.marshalLen := length_encH _
  have hbody : (encH (done g m).hdr).drop (if m.hdr.flags.toNat / 8 % 2 = 1 then 12 else 8)
      = (emit m.schema.order m.fields).flatMap (rawEnc g) := drop_encH (done g m).hdr
  refine ⟨_, _, marshalMsg_eq g m hl hc hr, ?_, ?_, hbody, ?_, ?_⟩
  · rw [hlen, marshalLen_done g m hl]
  · have e1 : ((encH (done g m).hdr).drop 2).take 2 = be16 (done g m).hdr.length := by
      obtain ⟨l0, l1, hl⟩ := be16_cases (done g m).hdr.length
      simp [encH, hl]
    rw [e1, hlen, marshalLen_done_hdr]
    congr 1
    show UInt16.ofNat (4 + (Msg.body (rawEnc g) m.schema m.fields).length) + (if m.hdr.hasTEID = true then 4 else 0) = _
    rw [hasTEID_iff]
    by_cases hT : m.hdr.flags.toNat / 8 % 2 = 1
    · simp only [hT, decide_true, if_true]
      apply UInt16.toNat.inj
      rw [UInt16.toNat_add]
      simp only [UInt16.toNat_ofNat', UInt16.reduceToNat]
      omega
    · simp only [hT, decide_false, if_false, Bool.false_eq_true]
      apply UInt16.toNat.inj
      rw [UInt16.toNat_add]
      simp only [UInt16.toNat_ofNat', UInt16.reduceToNat]
      omega
  · intro hw
    rw [hbody, flatMap_rawEnc g _ (mem_emit hw)]
  · intro b hb
    rw [hlen] at hb ⊢
    exact marshalTo_buf g m b hl hc hr hb

example : bytesOf defaultGrouped (newMessage defaultGrouped Tab.deleteSessionRequest 7 1 [some exOther, some exEBI])
    = ok [0x48, 36, 0, 18, 0, 0, 0, 7, 0, 0, 1, 0, 73, 0, 1, 0, 5, 250, 0, 1, 0, 9] := by decide +kernel

/-- C16 fails for Create Session Request with a private extension and an additional IE: the body is not the
concatenation of the IEs (the last octets are never written). -/
theorem C16_createSessionRequest_wrong :
    bytesOf defaultGrouped (newMessage defaultGrouped Tab.createSessionRequest 7 1 [some exPrivate, some exOther])
      = ok ([0x48, 32, 0, 20, 0, 0, 0, 7, 0, 0, 1, 0] ++ [250, 0, 1, 0, 9, 1, 7, 0, 0, 0, 0, 0]) ∧
    encs defaultGrouped [exPrivate, exOther] = [255, 0, 3, 0, 0, 1, 7, 250, 0, 1, 0, 9] := by decide +kernel

/-! ### C17 -/

/-- C17: serialising a message (of any type, any content) a second time gives the same bytes and leaves the message
as the first time; hence any number of times. -/
theorem C17_serialise_twice (m m' : Message) (b : Bytes) (hs : m.schema ∈ Tab.all ∨ ∃ t, m.schema = genericSchema t)
    (h : marshalMsg g m = ok (m', b)) : marshalMsg g m' = ok (m', b) := by
  apply marshal_again hdrLaws (ieOps g) m m' b _ h
  rcases hs with hs | ⟨t, hs⟩
  · exact all_reset _ hs
  · rw [hs]; rfl

/-- C17: a parsed message re-serialises to bytes that parse to exactly the re-serialised message, with the fields and
header values of the first one (only Length and payload are recomputed).  Hypotheses: the datagram is below 64 KiB,
has a TEID or is re-serialised to at least 12 octets (see C18).  Partial: Create Session Request with both a
private extension and additional IEs is excluded (`C17_forwarding_breaks`). -/
theorem C17_forward_partial (b : Bytes) (m : Message) (h : parseMsg g b = ok m) (hb : b.length < 65536)
    (hmin : m.hdr.flags.toNat / 8 % 2 = 1 ∨ 12 ≤ Msg.marshalLen hdrOps (ieOps g) m)
    (hcsr : m.schema = Tab.createSessionRequest → m.fields 64 = [] ∨ m.fields 65 = []) :
    ∃ m' b', marshalMsg g m = ok (m', b') ∧ parseMsg g b' = ok m' ∧ m'.schema = m.schema ∧ m'.fields = m.fields ∧
      m'.hdr.flags = m.hdr.flags ∧ m'.hdr.typ = m.hdr.typ ∧ m'.hdr.teid = m.hdr.teid ∧ m'.hdr.seq = m.hdr.seq ∧
      m'.hdr.spare = m.hdr.spare ∧ b'.length ≤ b.length := by
  obtain ⟨t, ht, hp, hsch, hf⟩ := parseMsg_ok g h
  obtain ⟨tail, hbt, hteid, hseq, _⟩ := (C10_parse_total_faithful b).2 _ hp
  have htyp : m.hdr.typ = t := by rw [hbt] at ht; simpa [encH] using ht
  -- the schema is one of the table or generic
  have hprop : m.schema.lensOK = true ∧ m.schema.unGood = true ∧ m.schema.reset = true ∧
      (m.schema ≠ Tab.createSessionRequest → m.schema.advOK = true) := by
    rcases (C12_dispatch_faithful g b m h).1 with ⟨t', _, _, ⟨hm, _⟩ | ⟨hg, _⟩⟩
    · exact ⟨all_lensOK _ hm, all_unGood _ hm, all_reset _ hm, advOK_of_ne _ hm⟩
    · rw [hg]; exact ⟨rfl, rfl, rfl, fun _ => rfl⟩
  obtain ⟨hl, hu, hr, hadv⟩ := hprop
  -- the parsed IEs
  obtain ⟨xs, hxw, hxl, hfx⟩ : ∃ xs, (∀ x ∈ xs, wf g x = true) ∧
      (xs.map (IE.marshalLen g)).sum ≤ m.hdr.payload.length ∧
      m.fields = classify (ieOps g) m.schema.unRules m.schema.unDefault xs := by
    rcases hf with ⟨_, _, hf⟩ | ⟨xs, hx, hf⟩
    · exact ⟨[], by simp, by simp, hf⟩
    · obtain ⟨hw, he⟩ := (C06_accepts_iff g _ _).mp hx
      refine ⟨xs, hw, ?_, hf⟩
      rw [he, ← flatMap_rawEnc g xs hw, List.length_flatMap]
      apply Nat.le_of_eq
      congr 1
      apply List.map_congr_left
      intro x _
      exact (length_rawEnc g x).symm
  have hst : Stable m.schema.orderF m.schema.multi m.schema.froz (unAct (ieOps g) m.schema) m.fields := by
    rw [hfx]; exact stable_un (ieOps g) m.schema hu xs
  have hc : Clobberless m.fields m.schema.order := by
    by_cases h3 : m.schema = Tab.createSessionRequest
    · rw [h3]; exact clobberless_csr _ (hst.scalar 64 (by rw [h3]; decide +kernel)) (hcsr h3)
    · exact clobberless_of_advOK _ (hadv h3) _ hst.scalar
  have hw : ∀ f, ∀ x ∈ m.fields f, wf g x = true := by
    rw [hfx]; exact classify_mem (ieOps g) _ _ _ xs hxw
  have hcl : classify (ieOps g) m.schema.unRules m.schema.unDefault (emit m.schema.order m.fields) = m.fields := by
    rw [hfx]; exact classify_un (ieOps g) m.schema hu xs
  have hsz : (done g m).hdr.marshalLen ≤ b.length := by
    rw [marshalLen_done_hdr, length_body (ieLaws g) _ hl _ (fun _ _ _ => trivial), ← sum_emit _ hl, emit_eq, hfx]
    simp only [Schema.unGood, Bool.and_eq_true, decide_eq_true_eq] at hu
    have h1 := sum_classify (ieOps g) m.schema.unRules m.schema.unDefault hu.1 (IE.marshalLen g) xs
    have h2 : (encH m.hdr).length ≤ b.length := by rw [hbt]; simp
    rw [length_encH, Header.marshalLen, hasTEID_iff] at h2
    simp only [decide_eq_true_eq] at h2
    have h3 : ((m.schema.orderF.flatMap (classify (ieOps g) m.schema.unRules m.schema.unDefault xs)).map
      (ieOps g).mlen).sum ≤ (xs.map (IE.marshalLen g)).sum := h1
    omega
  have h12 : 12 ≤ (done g m).hdr.marshalLen := by
    rcases hmin with h | h
    · rw [marshalLen_done_hdr, if_pos h]; omega
    · rw [marshalLen_done g m hl] at h; omega
  refine ⟨_, _, marshalMsg_eq g m hl hc hr, ?_, rfl, rfl, rfl, rfl, rfl, rfl, rfl, ?_⟩
  · rw [parseMsg_encH g _ (by rw [length_encH]; omega)]
    have e : (done g m).hdr.typ = t := htyp
    rw [e, ← hsch]
    exact unmarshal_done g m hw hseq hteid h12 (by omega) hcl
  · rw [length_encH]; exact hsz

/-- a datagram with a TEID and the given IEs parses to the message with those IEs filed -/
theorem parse_datagram (s : Schema) (hs : s ∈ Tab.all) (hT : s.flags.toNat / 8 % 2 = 1) (teid seq : UInt32)
    (xs : List IE) (hw : ∀ x ∈ xs, wf g x = true) (hseq : seq.toNat < 2 ^ 24)
    (hmax : 12 + (encs g xs).length < 65536) :
    parseMsg g (encH (Header.new s.flags s.typ teid seq (encs g xs)))
      = ok ⟨s, Header.new s.flags s.typ teid seq (encs g xs), classify (ieOps g) s.unRules s.unDefault xs⟩ := by
  have hn := C09_new_header s.flags s.typ teid seq (encs g xs) hmax
  obtain ⟨_, hb⟩ := C09_header_round_trip (Header.new s.flags s.typ teid seq (encs g xs)) []
    (by rw [hn.2.2.2.2.2]; exact hseq) (by rw [hn.2.2.1]; intro h; omega)
    (by rw [hn.1, hn.2.1, hn.2.2.1]) (by rw [hn.1, if_pos hT]; omega) (by rw [hn.1, if_pos hT]; omega)
  rw [List.append_nil] at hb
  rw [parseMsg_encH g _ (by rw [length_encH, Header.marshalLen]; omega)]
  have : (Header.new s.flags s.typ teid seq (encs g xs)).typ = s.typ := rfl
  rw [this, schemaOf_all s hs]
  exact unmarshal_body (ieLaws g) s _ _ xs hb (by rw [flatMap_rawEnc g xs hw]; rfl) hw

/-- non-trivial instance: a received message with its IEs in another order than it writes them, forwarded -/
example : bytesOf defaultGrouped ⟨Tab.deleteSessionRequest,
      Header.new 0x48 36 7 1 (encs defaultGrouped [exOther, exEBI]),
      classify (ieOps defaultGrouped) Tab.deleteSessionRequest.unRules Tab.deleteSessionRequest.unDefault [exOther, exEBI]⟩
    = ok (encH (Header.new 0x48 36 7 1 (encs defaultGrouped [exEBI, exOther]))) := by decide +kernel

/-- C17 fails for Create Session Request: a received message with a private extension and an unknown IE, forwarded,
is not even parseable any more. -/
theorem C17_forwarding_breaks :
    ∃ b m m' b', parseMsg defaultGrouped b = ok m ∧ m.fields 64 = [exPrivate] ∧ m.fields 65 = [exOther] ∧
      marshalMsg defaultGrouped m = ok (m', b') ∧ parseMsg defaultGrouped b' = err .invalidLength := by
  have hp := parse_datagram defaultGrouped Tab.createSessionRequest (by simp [Tab.all]) (by decide) 7 1
    [exPrivate, exOther] (by decide) (by decide) (by decide)
  generalize hM : (⟨Tab.createSessionRequest, Header.new 0x48 32 7 1 (encs defaultGrouped [exPrivate, exOther]),
      classify (ieOps defaultGrouped) Tab.createSessionRequest.unRules Tab.createSessionRequest.unDefault
        [exPrivate, exOther]⟩ : Message) = M
  have h2 : bytesOf defaultGrouped M
      = ok [0x48, 32, 0, 20, 0, 0, 0, 7, 0, 0, 1, 0, 250, 0, 1, 0, 9, 1, 7, 0, 0, 0, 0, 0] := by
    rw [← hM]; decide +kernel
  unfold bytesOf at h2
  rw [bind_eq_ok] at h2
  obtain ⟨⟨m', b'⟩, h3, h4⟩ := h2
  simp only [ok.injEq] at h4
  subst h4
  refine ⟨_, M, m', _, (by rw [← hM]; exact hp), ?_, ?_, h3, ?_⟩
  · rw [← hM]; decide +kernel
  · rw [← hM]; decide +kernel
  · have : (match parseMsg defaultGrouped [0x48, 32, 0, 20, 0, 0, 0, 7, 0, 0, 1, 0, 250, 0, 1, 0, 9, 1, 7, 0, 0, 0, 0, 0]
        with | err e => some e | _ => none) = some .invalidLength := by decide +kernel
    split at this
    · rename_i e he; rw [he]; simpa using this
    · cases this

/-! ### C18 -/

/-- C18: every message built by a constructor with TEID, from any list of well-formed IEs that fits, serialises and is
accepted by the parser.  Partial: Create Session Request with private extension and additional IEs is excluded
(`C18_unparseable`); Echo messages are treated in `C18_echo`. -/
theorem C18_accepted_partial (s : Schema) (hs : s ∈ Tab.all) (hT : s.flags.toNat / 8 % 2 = 1)
    (teid seq : UInt32) (ies : List (Option IE))
    (hw : ∀ x, some x ∈ ies → wf g x = true) (hseq : seq.toNat < 2 ^ 24)
    (hcsr : s = Tab.createSessionRequest → (newMessage g s teid seq ies).fields 64 = [] ∨
      (newMessage g s teid seq ies).fields 65 = [])
    (hmax : 12 + ((ies.filterMap id).map (IE.marshalLen g)).sum < 65536) :
    ∃ m' b m'', marshalMsg g (newMessage g s teid seq ies) = ok (m', b) ∧ parseMsg g b = ok m'' ∧
      m''.schema = s ∧ m''.hdr = m'.hdr := by
  have hl := all_lensOK s hs
  have hu := all_unGood s hs
  have hk : ∀ f, f ∉ s.multi → (newFields (ieOps g) s ies f).length ≤ 1 := kinds_new g s hs ies
  have hc : Clobberless (newFields (ieOps g) s ies) s.order := by
    by_cases h3 : s = Tab.createSessionRequest
    · have := hcsr h3
      subst h3
      exact clobberless_csr _ (hk 64 (by decide +kernel)) this
    · exact clobberless_of_advOK s (advOK_of_ne s hs h3) _ hk
  have hlen : (done g (newMessage g s teid seq ies)).hdr.marshalLen
      = 12 + (Msg.body (rawEnc g) s (newFields (ieOps g) s ies)).length := by
    rw [marshalLen_done_hdr]
    show 8 + (if s.flags.toNat / 8 % 2 = 1 then 4 else 0) + (Msg.body (rawEnc g) s (newFields (ieOps g) s ies)).length = _
    rw [if_pos hT]
  have hb := length_newBody g s hl hu ies
  refine ⟨_, _, ⟨s, (done g (newMessage g s teid seq ies)).hdr,
    classify (ieOps g) s.unRules s.unDefault (emit s.order (newFields (ieOps g) s ies))⟩,
    marshalMsg_eq g _ hl hc (all_reset s hs), ?_, rfl, rfl⟩
  · rw [parseMsg_encH g _ (by rw [length_encH]; omega)]
    have e : (done g (newMessage g s teid seq ies)).hdr.typ = s.typ := rfl
    rw [e, schemaOf_all s hs]
    apply unmarshal_any g (newMessage g s teid seq ies) _ hseq _ (by omega) (by omega)
    · exact classify_mem (ieOps g) s.newRules s.newDefault _ _ (fun x hx => hw x (by simpa using hx))
    · intro h; exact absurd hT (by have : s.flags.toNat / 8 % 2 = 0 := h; omega)

/-- C18 for Echo Request and Echo Response: accepted if at least one IE is given. -/
theorem C18_echo (s : Schema) (hs : s = Tab.echoRequest ∨ s = Tab.echoResponse)
    (teid seq : UInt32) (ies : List (Option IE)) (hne : ∃ x, some x ∈ ies)
    (hw : ∀ x, some x ∈ ies → wf g x = true) (hseq : seq.toNat < 2 ^ 24)
    (hmax : 12 + ((ies.filterMap id).map (IE.marshalLen g)).sum < 65536) : RoundTrips g s teid seq ies := by
  have hsa : s ∈ Tab.all ∧ s.keepsAll = true ∧ s.flags.toNat / 8 % 2 = 0 ∧
      tableAll (fun a => (a.targets ++ a.frozen).all (fun f => s.orderF.contains f)) s.newRules s.newDefault = true ∧
      s ≠ Tab.contextResponse ∧ s ≠ Tab.createBearerResponse ∧ s ≠ Tab.createSessionRequest := by
    have hname : ∀ a b : Schema, a.typ ≠ b.typ → a ≠ b := by rintro a b h rfl; exact h rfl
    rcases hs with rfl | rfl
    · exact ⟨by simp [Tab.all], by decide +kernel, by decide +kernel, by decide +kernel,
        hname _ _ (by decide), hname _ _ (by decide), hname _ _ (by decide)⟩
    · exact ⟨by simp [Tab.all], by decide +kernel, by decide +kernel, by decide +kernel,
        hname _ _ (by decide), hname _ _ (by decide), hname _ _ (by decide)⟩
  obtain ⟨hsa, hka, hT, htg, n1, n2, n3⟩ := hsa
  apply C13_round_trip_partial g s hsa n1 n2 n3 teid seq ies hw hseq _ hmax
  rw [marshalLen_done g _ (all_lensOK s hsa), marshalLen_done_hdr]
  have : 4 ≤ (Msg.body (rawEnc g) s (newFields (ieOps g) s ies)).length := by
    apply four_le_body
    obtain ⟨x, hx⟩ := hne
    have hne : ies.filterMap id ≠ [] := by
      intro h
      have : x ∈ ies.filterMap id := by simpa using hx
      rw [h] at this; simp at this
    have hd : ies.filterMap id = (ies.filterMap id).dropLast ++ [(ies.filterMap id).getLast hne] :=
      (List.dropLast_concat_getLast hne).symm
    intro h0
    rw [emit_eq, newFields, hd, classify, List.foldl_append] at h0
    have hm := apply_mem (order := s.orderF)
      (List.foldl (fun F x => (sel s.newRules s.newDefault ((ieOps g).typ x).toNat ((ieOps g).inst x).toNat).apply F x)
        Fields.empty (ies.filterMap id).dropLast)
      ((ies.filterMap id).getLast hne)
      (sel s.newRules s.newDefault ((ieOps g).typ ((ies.filterMap id).getLast hne)).toNat
        ((ieOps g).inst ((ies.filterMap id).getLast hne)).toNat)
      (tableAll_sound hka _ _) (by
        have := tableAll_sound htg ((ieOps g).typ ((ies.filterMap id).getLast hne)).toNat
          ((ieOps g).inst ((ies.filterMap id).getLast hne)).toNat
        intro f hf
        rw [List.all_eq_true] at this
        simpa using this f hf)
    rw [List.foldl_cons, List.foldl_nil] at h0
    rw [h0] at hm
    simp at hm
  show (12 : Int) ≤ ((8 + _ + (Msg.body (rawEnc g) s (newFields (ieOps g) s ies)).length : Nat) : Int)
  omega

/-- C18 fails: Echo Request and Echo Response without IEs serialise to 8 octets, which the parser rejects. -/
theorem C18_empty_echo_rejected :
    bytesOf defaultGrouped (newMessage defaultGrouped Tab.echoRequest 0 1 []) = ok [0x40, 1, 0, 4, 0, 0, 1, 0] ∧
    fieldsOf (there_and_back defaultGrouped (newMessage defaultGrouped Tab.echoRequest 0 1 [])) [] = none ∧
    fieldsOf (there_and_back defaultGrouped (newMessage defaultGrouped Tab.echoResponse 0 1 [])) [] = none := by
  decide +kernel

/-- C18 fails: a Create Session Request with a private extension and an additional IE is rejected by the parser. -/
theorem C18_unparseable :
    fieldsOf (there_and_back defaultGrouped (newMessage defaultGrouped Tab.createSessionRequest 7 1
      [some exPrivate, some exOther])) [] = none := by decide +kernel

/-- generic messages: `NewGeneric` panics on a nil argument, unlike every other constructor -/
theorem C18_newGeneric_nil (t : UInt8) (teid seq : UInt32) (xs ys : List (Option IE)) :
    newGeneric g t teid seq (xs ++ none :: ys) = .panic := by
  simp [newGeneric]

/-- generic messages of a type without struct round trip -/
theorem C13_generic_round_trip (t : UInt8) (ht : t ∉ codes.map Prod.fst) (teid seq : UInt32) (xs : List IE)
    (hw : ∀ x ∈ xs, wf g x = true) (hseq : seq.toNat < 2 ^ 24)
    (hmax : 12 + (xs.map (IE.marshalLen g)).sum < 65536) :
    ∃ m m' b, newGeneric g t teid seq (xs.map some) = ok m ∧ marshalMsg g m = ok (m', b) ∧ parseMsg g b = ok m' ∧
      m'.fields 0 = xs ∧ m'.hdr.typ = t ∧ m'.hdr.teidAcc = teid ∧ m'.hdr.sequence = seq := by
  have hsch : schemaOf t = genericSchema t := by
    unfold schemaOf
    have hc2 : ∀ p ∈ Tab.dispatch, p.1 ∈ codes.map Prod.fst := by decide +kernel
    cases hf : Tab.dispatch.find? (fun p => p.1 == t) with
    | some p =>
      have hm := List.mem_of_find?_eq_some hf
      have he := List.find?_some hf
      simp only [beq_iff_eq] at he
      exact absurd (he ▸ hc2 p hm) ht
    | none => rfl
  have hu : (genericSchema t).unGood = true := by rfl
  have ho := round_trip g (genericSchema t) hsch rfl hu rfl (fun h => by simp [genericSchema] at h) teid seq
    (xs.map some) (fun x hx => hw x (by simpa using hx)) hseq (fun x _ => by rfl) ⟨Or.inl rfl, trivial⟩
    (by rw [marshalLen_done_hdr]; show 12 ≤ 8 + (if (0x48 : UInt8).toNat / 8 % 2 = 1 then 4 else 0) + _
        rw [if_pos (by decide)]; omega)
    (by rw [filterMap_some]; exact hmax)
  refine ⟨_, _, _, ?_, ho.1, ho.2, ?_, rfl, ?_, rfl⟩
  · rw [newGeneric, if_pos (by simp)]
  · show newFields (ieOps g) (genericSchema t) (xs.map some) 0 = xs
    rw [newFields, filterMap_some]
    exact classify_generic g t xs
  · have e := (C10_accessors (done g (newMessage g (genericSchema t) teid seq (xs.map some))).hdr 0 0).1
    have hf : (done g (newMessage g (genericSchema t) teid seq (xs.map some))).hdr.flags = 0x48 := rfl
    rw [e, hf, if_pos (by decide)]; rfl

example : fieldsOf (there_and_back defaultGrouped (newMessage defaultGrouped (genericSchema 240) 7 1
    [some exOther, some exIMSI])) [0] = some [[exOther, exIMSI]] := by decide +kernel

end Verif.V2

namespace Verif.V2
open Res Spec Msg
/-! ### cases that meet the hypotheses -/

example := C16_exact_size_partial (g := defaultGrouped) ⟨Tab.deleteSessionRequest, Header.new 0x48 36 7 1 [], fun f => if f = 1 then [exEBI] else []⟩
  (by simp [Tab.all]) (by intro f _; dsimp only; split <;> simp) (by intro h; exact absurd (congrArg Schema.typ h) (by decide))
example := C17_serialise_twice (g := defaultGrouped) (newMessage defaultGrouped Tab.deleteSessionRequest 7 1 [some exOther, some exEBI]) _ _
  (.inl (by show Tab.deleteSessionRequest ∈ Tab.all; simp [Tab.all])) rfl
example := C17_forward_partial (g := defaultGrouped) [0x48, 36, 0, 18, 0, 0, 0, 7, 0, 0, 1, 0, 250, 0, 1, 0, 9, 73, 0, 1, 0, 5] _ rfl (by decide) (.inl (by decide))
  (by intro h; exact absurd (congrArg Schema.typ h) (by decide))
example := C18_accepted_partial (g := defaultGrouped) Tab.deleteSessionRequest (by simp [Tab.all]) (by decide) 7 1 [some exOther, none, some exEBI]
  (by intro x hx; simp at hx; rcases hx with rfl | rfl <;> decide) (by decide) (by intro h; exact absurd (congrArg Schema.typ h) (by decide)) (by decide)
example := C18_echo (g := defaultGrouped) Tab.echoRequest (.inl rfl) 0 1 [some (.mk 3 1 0 [7] [])] ⟨_, .head _⟩
  (by intro x hx; simp at hx; subst hx; decide) (by decide) (by decide)
example := C13_generic_round_trip (g := defaultGrouped) 240 (by decide) 7 1 [exOther, exIMSI]
  (by decide) (by decide) (by decide)
end Verif.V2
