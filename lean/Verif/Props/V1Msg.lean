import Verif.Proofs.V1Msg
import Verif.Props.V1IE
import Verif.Proofs.V2Header
/-
Property theorems on GTPv1 messages: C22 (messages), C23, C24, C25, C52.
`Tab.all` are the 12 message types with a struct, `genericSchema t` the struct for other types.
-/
namespace Verif.V1
open Res Spec Msg

/-! ### C22 -/

/-- **C22** below 64 KiB the message parser returns. -/
theorem C22_message_partial (b : Bytes) (hb : b.length < 65536) : Returns (parseMsg b) := by
  unfold parseMsg
  split
  · simp
  · rename_i h
    match b, h with
    | x :: y :: r, _ =>
      simp only [idx, List.getElem?_cons_succ, List.getElem?_cons_zero, bind_ok]
      split
      · exact returns_bind (C22_header_partial _ hb) (fun _ _ => by simp)
      · exact returns_bind (unmarshal_returns ieLaws _ _ (C22_header_partial _ hb)) (fun _ _ => by simp)
    | [_], h => simp at h
    | [], h => simp at h

example : parseMsg [] = err .tooShortParse ∧ parseMsg [0x30] = err .tooShortParse ∧
    parseMsg [0x30, 1, 0, 0] = err .tooShortParse ∧ parseMsg [0x30, 255, 0, 0] = err .tooShortParse :=
  ⟨rfl, rfl, rfl, rfl⟩

/-- **C22** fails above: any message type, any content, Length field 65528 or more and not cut off. -/
theorem C22_message_panics (f t l0 l1 a0 a1 a2 a3 : UInt8) (r : Bytes) (hf : f.toNat % 8 = 0)
    (hl : 65528 ≤ l0.toNat * 256 + l1.toNat) (hr : l0.toNat * 256 + l1.toNat ≤ r.length) :
    parseMsg (f :: t :: l0 :: l1 :: a0 :: a1 :: a2 :: a3 :: r) = .panic := by
  have h := C22_header_panics f t l0 l1 a0 a1 a2 a3 r hf hl hr
  unfold parseMsg
  rw [if_neg (by simp only [List.length_cons]; omega)]
  simp only [idx, List.getElem?_cons_succ, List.getElem?_cons_zero, bind_ok]
  split
  · rw [h]; rfl
  · unfold unmarshal
    have : hdrOps.parse (f :: t :: l0 :: l1 :: a0 :: a1 :: a2 :: a3 :: r) = .panic := h
    rw [this]; rfl

/-! ### C23 -/

/-- building, serialising and parsing: the bytes have the announced length and Length field, the parsed message is of
the type built and has its fields, TEID and sequence number -/
def RoundTrips (s : Schema) (teid : UInt32) (seq : UInt16) (ies : List (Option TLV.IE)) : Prop :=
  ∃ m' b, marshalMsg (newMessage s teid seq ies) = ok (m', b) ∧
    (b.length : Int) = Msg.marshalLen hdrOps ieOps (newMessage s teid seq ies) ∧
    (newMessage s teid seq ies).hdr.length.toNat + 8 = b.length ∧
    parseMsg b = ok (.msg m') ∧ m'.schema = s ∧ m'.fields = (newMessage s teid seq ies).fields ∧
    m'.hdr.typ = s.typ ∧ m'.hdr.seq = seq ∧ m'.hdr.teid = (if s.hasTEIDArg then teid else 0)

theorem roundTrips_of (s : Schema) (hs : s ∈ Tab.all ∨ ∃ t, s = genericSchema t) (hty : schemaOf s.typ = s)
    (h255 : s.typ ≠ 255) (teid : UInt32) (seq : UInt16) (ies : List (Option TLV.IE)) (hw : ∀ x, some x ∈ ies → okIE x)
    (hseq : s.flags = 0x30 → seq = 0)
    (hmax : 12 + ((ies.filterMap id).map (TLV.IE.marshalLen TLV.v1)).sum < 65536) : RoundTrips s teid seq ies := by
  obtain ⟨h1, h2⟩ := round_trip s hs hty h255 teid seq ies hw hseq hmax
  obtain ⟨d1, d2, d3⟩ := done_newMessage s hs teid seq ies (fun x hx => ieLaws.wf_sz x (hw x hx))
  refine ⟨_, _, h1, ?_, ?_, h2, rfl, rfl, rfl, rfl, rfl⟩
  · rw [d3, length_encH]
  · rw [length_encH]
    have e : (newMessage s teid seq ies).hdr.length = UInt16.ofNat (Msg.marshalLen hdrOps ieOps (newMessage s teid seq ies) - 8).toNat := rfl
    have hlt : (done (newMessage s teid seq ies)).hdr.marshalLen < 65536 := by rw [d1]; split <;> omega
    have hge : 8 ≤ (done (newMessage s teid seq ies)).hdr.marshalLen := by rw [d1]; split <;> omega
    rw [e, d3, toNat_ofNat16 (by omega)]
    omega

/-- **C23** every GTPv1 message type round trips with every list of representable IEs that fits.
Hypothesis `hseq`: End Marker and Supported Extension Headers Notification are built without the S flag
(TS 29.281 wants it for the latter), so a sequence number other than 0 is not transmitted: `C23_sehn_loses_seq`. -/
theorem C23_round_trip_partial (s : Schema) (hs : s ∈ Tab.all) (teid : UInt32) (seq : UInt16)
    (ies : List (Option TLV.IE)) (hw : ∀ x, some x ∈ ies → okIE x)
    (hseq : s = Tab.endMarker ∨ s = Tab.supportedExtensionHeaderNotification → seq = 0)
    (hmax : 12 + ((ies.filterMap id).map (TLV.IE.marshalLen TLV.v1)).sum < 65536) : RoundTrips s teid seq ies := by
  apply roundTrips_of s (Or.inl hs) (schemaOf_all s hs) (all_typ s hs) teid seq ies hw _ hmax
  have : ∀ s ∈ Tab.all, s.flags = 0x30 → s = Tab.endMarker ∨ s = Tab.supportedExtensionHeaderNotification := by
    intro s hs
    simp only [Tab.all, List.mem_cons, List.not_mem_nil, or_false] at hs
    rcases hs with rfl|rfl|rfl|rfl|rfl|rfl|rfl|rfl|rfl|rfl|rfl|rfl <;> intro h <;>
      first
        | (exfalso; revert h; decide)
        | exact Or.inl rfl
        | exact Or.inr rfl
  exact fun h => hseq (this s hs h)

/-- **C23** messages of any other type, as a list of IEs -/
theorem C23_generic (t : UInt8) (ht : t ≠ 255) (hn : ∀ s ∈ Tab.all, s.typ ≠ t) (teid : UInt32) (seq : UInt16)
    (ies : List (Option TLV.IE)) (hw : ∀ x, some x ∈ ies → okIE x)
    (hmax : 12 + ((ies.filterMap id).map (TLV.IE.marshalLen TLV.v1)).sum < 65536) :
    RoundTrips (genericSchema t) teid seq ies ∧ (newMessage (genericSchema t) teid seq ies).fields 0 = ies.filterMap id := by
  constructor
  · apply roundTrips_of _ (Or.inr ⟨t, rfl⟩) _ ht teid seq ies hw (fun h => by simp [genericSchema] at h) hmax
    rcases schemaOf_cases t with ⟨h1, h2⟩ | ⟨h1, _⟩
    · exact absurd h2 (hn _ h1)
    · exact h1
  · have : ∀ (l : List TLV.IE) (F : Fields TLV.IE), (l.foldl (fun F x => (Act.app 0).apply F x) F) 0 = F 0 ++ l := by
      intro l
      induction l with
      | nil => intro F; simp
      | cons x l ih => intro F; rw [List.foldl_cons, ih]; simp [Act.apply]
    exact this _ Fields.empty

/-- examples: IMSI (TV, 8 octets), TEID, cause, APN (TLV), a private extension, an unknown TLV type -/
def exIMSI : TLV.IE := ⟨2, 0, [0x21, 0x43, 0x65, 0x87, 0x09, 0x21, 0x43, 0xf5]⟩
def exTEID : TLV.IE := ⟨16, 0, [1, 2, 3, 4]⟩
def exAPN : TLV.IE := ⟨131, 4, [3, 0x66, 0x6f, 0x6f]⟩
def exNSAPI (n : UInt8) : TLV.IE := ⟨20, 0, [n]⟩
def exOther : TLV.IE := ⟨240, 1, [9]⟩
def exCGA (n : UInt8) : TLV.IE := ⟨251, 4, [10, 0, 0, n]⟩
def exRecovery : TLV.IE := ⟨14, 0, [5]⟩

/-- fields of a message serialised and parsed again -/
def backFields (m : Message) (fs : List Nat) : Option (List (List TLV.IE)) :=
  match (do let r ← marshalMsg m; parseMsg r.2) with
  | ok (.msg m) => some (fs.map m.fields)
  | _ => none

example : RoundTrips Tab.createPDPContextRequest 7 1 [some exOther, none, some (exNSAPI 5), some exAPN, some (exNSAPI 6), some exIMSI] :=
  C23_round_trip_partial _ (by simp [Tab.all]) 7 1 _
    (by
      intro x hx
      simp only [List.mem_cons, Option.some.injEq, reduceCtorEq, List.not_mem_nil, or_false, false_or] at hx
      rcases hx with rfl | rfl | rfl | rfl | rfl <;> decide)
    (fun h => by rcases h with h | h <;> exact absurd (congrArg Schema.typ h) (by decide)) (by decide)

example : backFields (newMessage Tab.createPDPContextRequest 7 1
      [some exOther, none, some (exNSAPI 5), some exAPN, some (exNSAPI 6), some exIMSI]) [0, 6, 7, 12, 39]
    = some [[exIMSI], [exNSAPI 5], [exNSAPI 6], [exAPN], [exOther]] := by decide +kernel

def bytesOf (m : Message) : Res Bytes := do
  let r ← marshalMsg m
  ok r.2

theorem parseMsg_msg {b : Bytes} {m : Message} (h : parseMsg b = ok (.msg m)) :
    ∃ t, idx b 1 = ok t ∧ t ≠ 255 ∧ unmarshal hdrOps ieOps (schemaOf t) b = ok m := by
  unfold parseMsg at h
  split at h
  · cases h
  rw [bind_eq_ok] at h
  obtain ⟨t, ht, h⟩ := h
  split at h
  · rw [bind_eq_ok] at h
    obtain ⟨_, _, h⟩ := h
    simp only [ok.injEq] at h
    cases h
  rename_i ht255
  rw [bind_eq_ok] at h
  obtain ⟨m0, hm0, h⟩ := h
  simp only [ok.injEq, AnyMsg.msg.injEq] at h
  subst h
  exact ⟨t, ht, by simpa using ht255, hm0⟩

theorem marshalMsg_new (s : Schema) (hs : s ∈ Tab.all) (teid : UInt32) (seq : UInt16) (ies : List (Option TLV.IE))
    (hw : ∀ x, some x ∈ ies → okIE x) :
    marshalMsg (newMessage s teid seq ies) = ok (done (newMessage s teid seq ies), encH (done (newMessage s teid seq ies)).hdr) := by
  obtain ⟨hl, hu, hn, ha, hf⟩ := schema_facts s (Or.inl hs)
  have hstab := stable_new ieOps s hu (ies.filterMap id) (fun x _ => newSub_sound ieOps s hn x)
  have hb2 : bit s.flags 2 = false := by rcases hf with h | h <;> rw [h] <;> decide
  exact Msg.marshal_eq hdrLaws ieLaws (newMessage s teid seq ies)
    (encH (done (newMessage s teid seq ies)).hdr) hl (clobberless_of_advOK s ha _ hstab.scalar)
    (classify_mem ieOps s.newRules s.newDefault _ _ (fun x h => ieLaws.wf_sz x (hw x (by simpa using h)))) (Or.inr rfl)
    (mto_done _ (by intro h; have h : bit s.flags 2 = true := h; rw [hb2] at h; cases h))

/-- **C23** fails: a Supported Extension Headers Notification does not carry its sequence number. -/
theorem C23_sehn_loses_seq (teid : UInt32) (seq : UInt16) (hs : seq ≠ 0) (ies : List (Option TLV.IE))
    (hw : ∀ x, some x ∈ ies → okIE x) :
    ¬ RoundTrips Tab.supportedExtensionHeaderNotification teid seq ies := by
  rintro ⟨m', b, hm, _, _, hp, _, _, _, hq, _⟩
  rw [marshalMsg_new _ (by simp [Tab.all]) teid seq ies hw] at hm
  simp only [ok.injEq, Prod.mk.injEq] at hm
  obtain ⟨t, _, _, hu⟩ := parseMsg_msg hp
  have hwf := C22_header_wf b m'.hdr (unmarshal_ok hu).1
  have hfl : m'.hdr.flags = 0x30 := by rw [← hm.1]; rfl
  exact hs (hq.symm.trans (hwf.seq (by rw [hfl]; exact bits30.2.1)))

/-- **C52** no IE of a constructed GTPv1 message is lost: if no two IEs have the same type, except for types the message
has several places for, the IEs in the serialised message are the given ones in some order, between a header of 12
(8 for End Marker and Supported Extension Headers Notification) octets and the end. -/
theorem C52_v1_no_loss (s : Schema) (hs : s ∈ Tab.all) (teid : UInt32) (seq : UInt16) (xs : List TLV.IE)
    (hw : ∀ x ∈ xs, okIE x) (hx : Distinct ieOps s xs) :
    ∃ ys m' b, ys.Perm xs ∧ marshalMsg (newMessage s teid seq (xs.map some)) = ok (m', b) ∧
      b.drop (if s.flags = 0x32 then 12 else 8) = TLV.Spec.encs TLV.Spec.v1 ys := by
  obtain ⟨hl, hu, hn, ha, hf⟩ := schema_facts s (Or.inl hs)
  have hgood : ∀ s ∈ Tab.all, s.newGood = true ∧ s.keepsFirst = true ∧ s.separate = true := by decide +kernel
  obtain ⟨hg, hk, hsep⟩ := hgood s hs
  have hu' := hu
  simp only [Schema.unGood, Bool.and_eq_true, decide_eq_true_eq] at hu'
  have hperm := distinct_perm ieOps s hu'.1 hg hk hsep xs hx
  have hmem : ∀ x, some x ∈ xs.map some → okIE x := by
    intro x h; simp only [List.mem_map, Option.some.injEq, exists_eq_right] at h; exact hw x h
  have hstab := stable_new ieOps s hu ((xs.map some).filterMap id) (fun x _ => newSub_sound ieOps s hn x)
  have hb2 : bit s.flags 2 = false := by rcases hf with h | h <;> rw [h] <;> decide
  have hm := Msg.marshal_eq hdrLaws ieLaws (newMessage s teid seq (xs.map some))
    (encH (done (newMessage s teid seq (xs.map some))).hdr) hl (clobberless_of_advOK s ha _ hstab.scalar)
    (classify_mem ieOps s.newRules s.newDefault _ _ (fun x h => ieLaws.wf_sz x (hmem x (by simpa using h)))) (Or.inr rfl)
    (mto_done _ (by intro h; have h : bit s.flags 2 = true := h; rw [hb2] at h; cases h))
  refine ⟨_, _, _, hperm, hm, ?_⟩
  have e : TLV.Spec.encs TLV.Spec.v1 (emit s.order (newFields ieOps s (xs.map some)))
      = (done (newMessage s teid seq (xs.map some))).hdr.payload := by
    rw [payload_done, Msg.body, TLV.flatMap_rawEnc]
    · rfl
    · intro x hx'; exact (hw x (hperm.subset hx')).1
  rw [e]
  have hfl : (done (newMessage s teid seq (xs.map some))).hdr.flags = s.flags := rfl
  have hex : encExts (done (newMessage s teid seq (xs.map some))).hdr = [] := by
    simp only [encExts, hfl, hb2, Bool.false_eq_true, if_false]
  have hol : (encOpt (done (newMessage s teid seq (xs.map some))).hdr).length = if s.flags = 0x32 then 4 else 0 := by
    rw [length_encOpt, hfl]
    rcases hf with h | h
    · rw [h, bits32.2.1]; simp
    · rw [h, bits30.1, bits30.2.1, bits30.2.2]; simp
  rw [encH, hex, List.append_nil, List.drop_append_of_le_length, List.drop_eq_nil_of_le, List.nil_append]
  · simp only [List.length_append, List.length_cons, List.length_nil, length_be16, length_be32, hol]; split <;> omega
  · simp only [List.length_append, List.length_cons, List.length_nil, length_be16, length_be32, hol]; split <;> omega

example : Distinct ieOps Tab.createPDPContextRequest [exIMSI, exNSAPI 5, exOther, exNSAPI 6, exOther, exNSAPI 7] := by
  unfold Distinct
  decide +kernel

/-- two Charging Gateway Addresses are kept by a Create PDP Context Response, a third one is ignored -/
theorem C52_v1_third_gateway :
    bytesOf (newMessage Tab.createPDPContextResponse 7 1 [some (exCGA 1), some (exCGA 2), some (exCGA 3)])
      = bytesOf (newMessage Tab.createPDPContextResponse 7 1 [some (exCGA 1), some (exCGA 2)]) ∧
    bytesOf (newMessage Tab.createPDPContextResponse 7 1 [some (exCGA 1), some (exCGA 2)])
      = ok [0x32, 17, 0, 18, 0, 0, 0, 7, 0, 1, 0, 0, 251, 0, 4, 10, 0, 0, 1, 251, 0, 4, 10, 0, 0, 2] := by decide +kernel

/-! ### C24 -/

/-- the message types whose MarshalTo keeps the previous payload -/
theorem C24_stale_types : (Tab.all.filter (fun s => !s.reset)).map (·.name) =
    ["CreatePDPContextRequest", "CreatePDPContextResponse", "DeletePDPContextRequest", "DeletePDPContextResponse",
     "ErrorIndication", "SupportedExtensionHeaderNotification", "UpdatePDPContextRequest", "UpdatePDPContextResponse",
     "VersionNotSupported"] := by decide +kernel

/-- **C24** Echo Request, Echo Response, End Marker and generic messages: serialising a second time gives the same bytes
and leaves the message as the first time, hence any number of times. -/
theorem C24_serialise_twice_partial (m m' : Message) (b : Bytes)
    (hs : m.schema = Tab.echoRequest ∨ m.schema = Tab.echoResponse ∨ m.schema = Tab.endMarker ∨ ∃ t, m.schema = genericSchema t)
    (h : marshalMsg m = ok (m', b)) : marshalMsg m' = ok (m', b) := by
  apply marshal_again hdrLaws ieOps m m' b _ h
  rcases hs with hs | hs | hs | ⟨t, hs⟩ <;> rw [hs] <;> rfl

/-- **C24** for T-PDUs -/
theorem C24_tpdu_twice (h h' : Header) (b : Bytes) (hm : tpduMarshal h = ok (h', b)) : tpduMarshal h' = ok (h', b) := by
  unfold tpduMarshal tpduMarshalTo at hm
  rw [if_neg (by simp), bind_eq_ok] at hm
  obtain ⟨b', hb, he⟩ := hm
  simp only [ok.injEq, Prod.mk.injEq] at he
  obtain ⟨rfl, rfl⟩ := he
  have e : h.setLength.setLength = h.setLength := rfl
  have e2 : h.setLength.marshalLen = h.marshalLen := rfl
  unfold tpduMarshal tpduMarshalTo
  rw [if_neg (by simp), e, e2, hb]
  rfl

/-- **C24** fails for the nine other types: a message with at least one IE that serialises once returns an error the
second time. -/
theorem C24_second_fails (s : Schema) (hs : s ∈ Tab.all) (hr : s.reset = false) (teid : UInt32) (seq : UInt16)
    (xs : List TLV.IE) (hne : xs ≠ []) (hw : ∀ x ∈ xs, okIE x) (hx : Distinct ieOps s xs) :
    ∃ m' b, marshalMsg (newMessage s teid seq (xs.map some)) = ok (m', b) ∧ marshalMsg m' = err .tooShortMarshal := by
  obtain ⟨hl, hu, hn, ha, hf⟩ := schema_facts s (Or.inl hs)
  have hgood : ∀ s ∈ Tab.all, s.newGood = true ∧ s.keepsFirst = true ∧ s.separate = true := by decide +kernel
  obtain ⟨hg, hk, hsep⟩ := hgood s hs
  have hu' := hu
  simp only [Schema.unGood, Bool.and_eq_true, decide_eq_true_eq] at hu'
  have hperm := distinct_perm ieOps s hu'.1 hg hk hsep xs hx
  have hmem : ∀ x, some x ∈ xs.map some → okIE x := by
    intro x h; simp only [List.mem_map, Option.some.injEq, exists_eq_right] at h; exact hw x h
  have hstab := stable_new ieOps s hu ((xs.map some).filterMap id) (fun x _ => newSub_sound ieOps s hn x)
  have hb2 : bit s.flags 2 = false := by rcases hf with h | h <;> rw [h] <;> decide
  have hsz := classify_mem ieOps s.newRules s.newDefault (TLV.sized TLV.Spec.v1) ((xs.map some).filterMap id)
    (fun x h => ieLaws.wf_sz x (hmem x (by simpa using h)))
  have hm := Msg.marshal_eq hdrLaws ieLaws (newMessage s teid seq (xs.map some))
    (encH (done (newMessage s teid seq (xs.map some))).hdr) hl (clobberless_of_advOK s ha _ hstab.scalar)
    hsz (Or.inr rfl)
    (mto_done _ (by intro h; have h : bit s.flags 2 = true := h; rw [hb2] at h; cases h))
  refine ⟨_, _, hm, ?_⟩
  refine (stale_payload hdrLaws .tooShortMarshal mto_nil (done (newMessage s teid seq (xs.map some))) hr).2 ?_ ?_
  · have e := length_body ieLaws s hl (newFields ieOps s (xs.map some)) hsz
    exact e.symm
  · intro h
    have h : emit s.order (newFields ieOps s (xs.map some)) = [] := h
    rw [h] at hperm
    exact hne (List.nil_perm.mp hperm)

/-- the error is real: a Delete PDP Context Response with a cause and a recovery counter -/
example : (do let r ← marshalMsg (newMessage Tab.deletePDPContextResponse 7 1 [some ⟨1, 0, [128]⟩])
              let r2 ← marshalMsg r.1
              ok r2.2) = err .tooShortMarshal := by decide +kernel

/-- **C24** a parsed message of a type other than the nine can be serialised again; the result is no longer than the
octets parsed and has the header values and the same fields.  If its IEs all carry a value it is read back as the
same message. -/
theorem C24_forward_partial (b : Bytes) (m : Message) (h : parseMsg b = ok (.msg m)) (hr : m.schema.reset = true) :
    ∃ m' b', marshalMsg m = ok (m', b') ∧ m'.schema = m.schema ∧ m'.fields = m.fields ∧
      m'.hdr = { m.hdr with length := m'.hdr.length, payload := m'.hdr.payload } ∧ b'.length ≤ b.length ∧
      ((∀ f, ∀ x ∈ m.fields f, okIE x) → parseMsg b' = ok (.msg m')) := by
  obtain ⟨t, ht, ht255, hum⟩ := parseMsg_msg h
  obtain ⟨hp, hsch, hf⟩ := unmarshal_ok hum
  have hp : Header.parse b = ok m.hdr := hp
  have hwf := C22_header_wf b m.hdr hp
  obtain ⟨f1, _, _, f4, _, _, _, _, f9, _⟩ := C22_header_faithful b m.hdr hp
  have htyp : m.hdr.typ = t := by
    unfold idx at ht
    rw [f9] at ht
    simpa using ht
  have hs : schemaOf t ∈ Tab.all ∨ ∃ t', schemaOf t = genericSchema t' := by
    rcases schemaOf_cases t with ⟨h, _⟩ | ⟨h, _⟩
    · exact Or.inl h
    · exact Or.inr ⟨t, h⟩
  obtain ⟨hl, hu, hn, ha, _⟩ := schema_facts _ hs
  obtain ⟨hsz, hsc, hle, hcl⟩ := unmarshal_fields ieLaws hu hl hum
  rw [← hsch] at hl hu hn ha hsc hle hcl
  have hc := clobberless_of_advOK _ ha _ hsc
  have hext : ∀ e ∈ m.hdr.exts, bit m.hdr.flags 2 = true → extOK e = true ∧ (e.content.length + 2) % 4 = 0 :=
    fun e he h2 => (hwf.ext h2).2 e he
  have hmm := Msg.marshal_eq hdrLaws ieLaws m (encH (done m).hdr) hl hc hsz (Or.inl hr)
    (mto_done _ (fun h2 e he => (hext e he h2).1))
  have hdl : (done m).hdr.marshalLen ≤ m.hdr.marshalLen := by
    have e1 : (done m).hdr.marshalLen + m.hdr.payload.length
        = m.hdr.marshalLen + (Msg.body renc m.schema m.fields).length := hdrLaws.len m.hdr _
    rw [length_body ieLaws m.schema hl m.fields hsz] at e1
    have hle : bodyLen ieOps m.schema m.fields ≤ m.hdr.payload.length := hle
    omega
  have hbl : (encH m.hdr).length ≤ b.length := by omega
  have hml := length_encH m.hdr
  refine ⟨_, _, hmm, rfl, rfl, rfl, ?_, ?_⟩
  · rw [length_encH]; omega
  · intro hok
    have hw' : Wf (done m).hdr := by
      apply wf_setLength
      · have := hwf.fits
        have e : ({ m.hdr with payload := Msg.body renc m.schema m.fields } : Header).marshalLen = (done m).hdr.marshalLen := rfl
        show ({ m.hdr with payload := Msg.body renc m.schema m.fields } : Header).marshalLen < 65536
        rw [e]; omega
      · exact hwf.seq
      · exact hwf.npdu
      · exact hwf.noext
      · exact hwf.ext
    have hcore := round_trip_core hdrLaws ieLaws m (encH (done m).hdr) hl hc hok (Or.inl hr) hcl
      (mto_done _ (fun h2 e he => (hext e he h2).1)) (parse_done _ hw')
    have htd : (done m).hdr.typ = t := htyp
    rw [parseMsg_encH _ (by rw [htd]; exact ht255), htd, ← hsch, hcore.2, bind_ok]; rfl

/-- **C24** fails for the nine types: a parsed message cannot be serialised; with at least one IE it is an error (or,
when an IE was ignored or replaced by the parser, a panic). -/
theorem C24_forward_fails (b : Bytes) (m : Message) (h : parseMsg b = ok (.msg m)) (hr : m.schema.reset = false)
    (hne : emit m.schema.order m.fields ≠ []) :
    marshalMsg m = err .tooShortMarshal ∨ marshalMsg m = .panic := by
  obtain ⟨t, ht, ht255, hum⟩ := parseMsg_msg h
  have hs : schemaOf t ∈ Tab.all ∨ ∃ t', schemaOf t = genericSchema t' := by
    rcases schemaOf_cases t with ⟨h, _⟩ | ⟨h, _⟩
    · exact Or.inl h
    · exact Or.inr ⟨t, h⟩
  obtain ⟨hl, hu, _, _, _⟩ := schema_facts _ hs
  obtain ⟨hsz, hsc, hle, hcl⟩ := unmarshal_fields ieLaws hu hl hum
  obtain ⟨_, hsch, _⟩ := unmarshal_ok hum
  rw [← hsch] at hle
  have key := stale_payload hdrLaws .tooShortMarshal mto_nil m hr
  rcases Nat.lt_or_eq_of_le hle with h | h
  · exact Or.inr (key.1 h)
  · exact Or.inl (key.2 h hne)

/-- a received Error Indication with two TEIDs cannot be forwarded: the program crashes -/
theorem C24_forward_panics :
    ∃ b m, parseMsg b = ok (.msg m) ∧ m.schema = Tab.errorIndication ∧ marshalMsg m = .panic := by
  refine ⟨[0x30, 26, 0, 10, 0, 0, 0, 0, 16, 1, 2, 3, 4, 16, 5, 6, 7, 8],
    ⟨Tab.errorIndication, ⟨0x30, 26, 10, 0, 0, 0, 0, [], [16, 1, 2, 3, 4, 16, 5, 6, 7, 8]⟩,
      classify ieOps Tab.errorIndication.unRules Tab.errorIndication.unDefault [⟨16, 0, [1, 2, 3, 4]⟩, ⟨16, 0, [5, 6, 7, 8]⟩]⟩,
    rfl, rfl, ?_⟩
  refine (stale_payload hdrLaws .tooShortMarshal mto_nil _ rfl).1 ?_
  decide +kernel

/-! ### C25 -/

theorem tpduMarshal_eq (h : Header) : tpduMarshal h = (h.setLength.marshal >>= fun b => ok (h.setLength, b)) := by
  unfold tpduMarshal tpduMarshalTo Header.marshal
  rw [if_neg (by simp)]
  rfl

/-- serialising and decapsulating any T-PDU header that fits -/
theorem tpdu_core (h : Header) (ht : h.typ = 255) (hfit : h.marshalLen < 65536)
    (hseq : bit h.flags 1 = false → h.seq = 0) (hnp : bit h.flags 0 = false → h.npdu = 0)
    (hno : bit h.flags 2 = false → h.next = 0 ∧ h.exts = [])
    (hext : bit h.flags 2 = true → chain h.next h.exts = true ∧ ∀ e ∈ h.exts, extOK e = true) :
    ∃ b, tpduMarshal h = ok (h.setLength, b) ∧ b.length = h.marshalLen ∧
      (∀ rest, decapsulate (b ++ rest) = ok (h.teid, h.payload) ∧
        decapsulateExts (b ++ rest) = ok (h.teid, h.payload, h.exts.map padded)) ∧
      parseMsg b = ok (.tpdu { h.setLength with exts := h.exts.map padded }) := by
  obtain ⟨b, h1, h2, h3, h4⟩ := C21_setLength h (by rw [length_encH]; exact hfit) hseq hnp hno hext
  have hb : b.length = h.marshalLen := by rw [h2, length_encH]
  refine ⟨b, ?_, hb, ?_, ?_⟩
  · rw [tpduMarshal_eq, h1, bind_ok]
  · intro rest
    constructor
    · rw [decapsulate, h4 rest, bind_ok, if_neg (by simpa [Header.setLength] using ht)]; rfl
    · rw [decapsulateExts, h4 rest, bind_ok, if_neg (by simpa [Header.setLength] using ht)]; rfl
  · have h8 : 8 ≤ b.length := by rw [hb]; unfold Header.marshalLen; omega
    have hp := h4 []
    rw [List.append_nil] at hp
    obtain ⟨_, _, _, _, _, _, _, _, f9, _⟩ := C22_header_faithful b _ hp
    have hi : idx b 1 = ok 255 := by
      unfold idx; rw [f9]
      simp only [Header.setLength, ht]
    rw [parseMsg, if_neg (by omega), hi, bind_ok, if_pos (by rfl), hp, bind_ok]

/-- **C25** every TEID and payload of up to 65527 octets: the T-PDU serialises, and decapsulating returns both, also if
octets follow. -/
theorem C25_partial (teid : UInt32) (p : Bytes) (hp : p.length ≤ 65527) :
    ∃ h' b, tpduMarshal (newTPDU teid p) = ok (h', b) ∧ b.length = 8 + p.length ∧
      (∀ rest, decapsulate (b ++ rest) = ok (teid, p) ∧ decapsulateExts (b ++ rest) = ok (teid, p, [])) ∧
      parseMsg b = ok (.tpdu h') ∧ h'.teid = teid ∧ h'.payload = p := by
  have hml : (newTPDU teid p).marshalLen = p.length + 8 := by
    rw [Header.marshalLen, hasSeq_eq, hasNPDU_eq, hasExt_eq, show (newTPDU teid p).flags = 0x30 from rfl,
      bits30.1, bits30.2.1, bits30.2.2]
    rfl
  obtain ⟨b, h1, h2, h3, h4⟩ := tpdu_core (newTPDU teid p) rfl (by omega) (fun _ => rfl) (fun _ => rfl)
    (fun _ => ⟨rfl, rfl⟩) (fun h => by
      have h : bit 0x30 2 = true := h
      rw [bits30.1] at h; cases h)
  exact ⟨_, b, h1, by omega, h3, h4, rfl, rfl⟩

/-- **C25** with a sequence number -/
theorem C25_seq_partial (teid : UInt32) (seq : UInt16) (p : Bytes) (hp : p.length ≤ 65523) :
    ∃ h' b, tpduMarshal (newTPDUSeq teid seq p) = ok (h', b) ∧ b.length = 12 + p.length ∧
      (∀ rest, decapsulate (b ++ rest) = ok (teid, p)) ∧
      parseMsg b = ok (.tpdu h') ∧ h'.teid = teid ∧ h'.payload = p ∧ h'.seq = seq := by
  have hml : (newTPDUSeq teid seq p).marshalLen = p.length + 8 + 4 := by
    rw [Header.marshalLen, hasSeq_eq, hasNPDU_eq, hasExt_eq, show (newTPDUSeq teid seq p).flags = 0x32 from rfl,
      bits32.1, bits32.2.1, bits32.2.2]
    rfl
  obtain ⟨b, h1, h2, h3, h4⟩ := tpdu_core (newTPDUSeq teid seq p) rfl (by omega) (fun h => by
      have h : bit 0x32 1 = false := h
      rw [bits32.2.1] at h; cases h) (fun _ => rfl)
    (fun _ => ⟨rfl, rfl⟩) (fun h => by
      have h : bit 0x32 2 = true := h
      rw [bits32.1] at h; cases h)
  exact ⟨_, b, h1, by omega, fun r => (h3 r).1, h4, rfl, rfl, rfl⟩

/-- **C25** with extension headers that form a chain and say how long they are: they come back with their content
padded to a multiple of four octets. -/
theorem C25_ext (teid : UInt32) (p : Bytes) (es : List Ext) (t : UInt8) (hc : chain t es = true)
    (hok : ∀ e ∈ es, extOK e = true) (hfit : 12 + (es.map (fun e => 4 * units e)).sum + p.length < 65536) :
    ∃ h' b, tpduMarshal (newTPDUExts teid p es) = ok (h', b) ∧
      b.length = 12 + (es.map (fun e => 4 * units e)).sum + p.length ∧
      ∀ rest, decapsulate (b ++ rest) = ok (teid, p) ∧
        decapsulateExts (b ++ rest) = ok (teid, p, es.map padded) := by
  have hne : es ≠ [] := by rintro rfl; simp [chain] at hc
  have hd : ∀ (l : List Ext) (t : UInt8), chain t l = true → ∀ e ∈ l.dropLast, e.next ≠ 0 := by
    intro l
    induction l with
    | nil => intro t h; simp
    | cons e l ih =>
      intro t h
      cases l with
      | nil => simp
      | cons e2 l =>
        simp only [chain, Bool.and_eq_true, bne_iff_ne] at h
        intro x hx
        rw [List.dropLast_cons_cons, List.mem_cons] at hx
        rcases hx with rfl | hx
        · exact h.1.2
        · exact ih _ h.2 x hx
  obtain ⟨a1, a2⟩ := C21_add (Header.new 0x34 255 teid 0 p) rfl es hne (hd es t hc)
  obtain ⟨x1, x2, x3, x4, x5, x6, x7⟩ := a2 (a1.mpr ⟨t, hc⟩)
  obtain ⟨H, hH⟩ : ∃ H, H = ((Header.new 0x34 255 teid 0 p).addExts es).1 := ⟨_, rfl⟩
  have hT : newTPDUExts teid p es = H.setLength := by rw [hH]; rfl
  rw [← hH] at x1 x2 x3 x4 x5 x6 x7
  have htyp : H.typ = 255 := by
    rw [hH]
    cases es with
    | nil => rfl
    | cons e es => unfold Header.addExts; simp only []; split <;> rfl
  have e1 : H.setLength.exts = es := x1
  have hml : H.setLength.marshalLen = 12 + (es.map (fun e => 4 * units e)).sum + p.length := by
    have : H.setLength.marshalLen = H.marshalLen := rfl
    rw [this, Header.marshalLen, hasExt_eq, x3, x4, x1]
    simp only [Bool.or_true, if_true]
    have : es.map Ext.marshalLen = es.map (fun e => 4 * units e) := List.map_congr_left (fun e _ => Ext.marshalLen_eq e)
    rw [this]
    have : (Header.new 0x34 255 teid 0 p).payload = p := rfl
    rw [this]; omega
  obtain ⟨b, h1, h2, h3, _⟩ := tpdu_core H.setLength htyp (by omega) (fun _ => x6) (fun _ => x7)
    (fun h => by have h : bit H.flags 2 = false := h; rw [x3] at h; cases h)
    (fun _ => ⟨by rw [e1]; exact x2, by rw [e1]; exact hok⟩)
  rw [hT]
  refine ⟨_, b, h1, by omega, ?_⟩
  intro rest
  have := h3 rest
  rw [e1] at this
  have hte : H.setLength.teid = teid := x5
  have hpa : H.setLength.payload = p := x4
  rw [hte, hpa] at this
  exact this

example : (do let r ← tpduMarshal (newTPDUExts 0x11223344 [0xaa] [Ext.new 0x85 [0x10, 9] 0xc0, Ext.new 0xc0 [1] 0])
              ok r.2) = ok [0x34, 255, 0, 13, 0x11, 0x22, 0x33, 0x44, 0, 0, 0, 0x85, 1, 0x10, 9, 0xc0, 1, 1, 0, 0, 0xaa] ∧
    decapsulateExts [0x34, 255, 0, 13, 0x11, 0x22, 0x33, 0x44, 0, 0, 0, 0x85, 1, 0x10, 9, 0xc0, 1, 1, 0, 0, 0xaa]
      = ok (0x11223344, [0xaa], [⟨0x85, 1, [0x10, 9], 0xc0⟩, ⟨0xc0, 1, [1, 0], 0⟩]) := by decide +kernel

/-- **C25** fails for payloads of 65528 to 65535 octets, whose T-PDU is a valid one (the Length field holds 16 bits):
decapsulating it panics. -/
theorem C25_large_panics (teid : UInt32) (p : Bytes) (h1 : 65528 ≤ p.length) (h2 : p.length ≤ 65535) :
    ∃ h' b, tpduMarshal (newTPDU teid p) = ok (h', b) ∧ b.length = 8 + p.length ∧ decapsulate b = .panic := by
  have hml : (newTPDU teid p).setLength.marshalLen = p.length + 8 := by
    rw [Header.marshalLen, hasSeq_eq, hasNPDU_eq, hasExt_eq, show (newTPDU teid p).setLength.flags = 0x30 from rfl,
      bits30.1, bits30.2.1, bits30.2.2]
    rfl
  have hm : (newTPDU teid p).setLength.marshal = ok (encH (newTPDU teid p).setLength) :=
    Header.marshal_eq _ (fun h => by have h : bit 0x30 2 = true := h; rw [bits30.1] at h; cases h)
  refine ⟨_, _, by rw [tpduMarshal_eq, hm, bind_ok], ?_, ?_⟩
  · rw [length_encH]
    rw [hml]; omega
  · obtain ⟨a0, a1, a2, a3, ha, _⟩ := V2.be32_cases teid
    have hlen : (newTPDU teid p).setLength.length = UInt16.ofNat p.length := by
      have : (newTPDU teid p).setLength.length = UInt16.ofNat ((newTPDU teid p).setLength.marshalLen - 8) := rfl
      rw [this, hml]; rfl
    obtain ⟨l0, l1, hl, hl'⟩ := V2.be16_cases (UInt16.ofNat p.length)
    have he : encH (newTPDU teid p).setLength = 0x30 :: 255 :: l0 :: l1 :: a0 :: a1 :: a2 :: a3 :: p := by
      have hfl : (newTPDU teid p).setLength.flags = 0x30 := rfl
      have hx : encExts (newTPDU teid p).setLength = [] := by simp only [encExts, hfl, bits30.1, Bool.false_eq_true, if_false]
      have ho : encOpt (newTPDU teid p).setLength = [] := by
        simp only [encOpt, hfl, bits30.1, bits30.2.1, bits30.2.2, Bool.or_false, Bool.false_eq_true, if_false]
      have hte : (newTPDU teid p).setLength.teid = teid := rfl
      rw [encH, hx, ho, hlen, hl, hte, ha]
      rfl
    rw [he, decapsulate]
    have hval : l0.toNat * 256 + l1.toNat = p.length := by
      rw [hl', toNat_ofNat16 (by omega)]
    rw [C22_header_panics 0x30 255 l0 l1 a0 a1 a2 a3 p (by decide) (by omega) (by omega)]
    rfl

end Verif.V1

namespace Verif.V1
open Res Spec Msg
/-! ### cases that meet the hypotheses -/

example := C22_message_partial [0x32, 2, 0, 6, 0, 0, 0, 0, 0xab, 0xcd, 0, 0, 14, 7] (by decide)
example := C22_message_panics 0x30 255 0xff 0xff 0 0 0 1 (List.replicate 65535 0) (by decide) (by decide) (by rw [List.length_replicate]; decide)
example := C23_generic 240 (by decide) (by decide) 7 1 [some exOther, none, some exIMSI] (by intro x hx; simp at hx; rcases hx with rfl | rfl <;> decide)
  (by decide)
example := C23_sehn_loses_seq 7 1 (by decide) [some ⟨141, 2, [0x85, 0xc0]⟩] (by intro x hx; simp at hx; subst hx; decide)
example := C52_v1_no_loss Tab.createPDPContextRequest (by simp [Tab.all]) 7 1 [exIMSI, exNSAPI 5, exOther, exNSAPI 6, exOther, exNSAPI 7]
  (by decide) (by unfold Distinct; decide +kernel)
example := C24_serialise_twice_partial (newMessage Tab.echoResponse 0 1 [some exRecovery]) _ _ (.inr (.inl rfl)) rfl
example := C24_tpdu_twice (newTPDU 7 [1, 2, 3]) _ _ rfl
example := C24_second_fails Tab.deletePDPContextResponse (by simp [Tab.all]) rfl 7 1 [⟨1, 0, [128]⟩] (by decide) (by decide) (by unfold Distinct; decide +kernel)
example := C24_forward_partial [0x32, 2, 0, 6, 0, 0, 0, 0, 0xab, 0xcd, 0, 0, 14, 7] _ rfl rfl
example := C24_forward_fails [0x32, 21, 0, 6, 0, 0, 0, 7, 0, 1, 0, 0, 1, 128] _ rfl rfl (by decide +kernel)
example := C25_partial 7 [1, 2, 3] (by decide)
example := C25_seq_partial 7 5 [1, 2, 3] (by decide)
example := C25_ext 0x11223344 [0xaa] [Ext.new 0x85 [0x10, 9] 0xc0, Ext.new 0xc0 [1] 0] 0x85 (by decide) (by decide) (by decide)
example := C25_large_panics 7 (List.replicate 65528 9) (by rw [List.length_replicate]; decide) (by rw [List.length_replicate]; decide)
end Verif.V1
