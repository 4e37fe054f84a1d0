import Verif.Proofs.V0Msg
import Verif.Props.V1IE
/-
Property theorems on the GTPv0 header and messages: C26, C27, C52, and C24 for GTPv0.
`Tab.all` are the 8 message types with a struct, `genericSchema t` the struct for other types.
-/
namespace Verif.V0
open Res Spec Msg

/-! ### C26 -/

/-- **C26** every header with a payload of up to 65515 octets (a message below 64 KiB), whose SNDCP N-PDU number is
0xff: it serialises in the TS 09.60 format and is read back.
Missing: other SNDCP N-PDU numbers (`C26_sndcp_lost`), longer payloads (`C26_large_panics`). -/
theorem C26_partial (h : Header) (hs : h.sndcp = 0xff) (hp : h.payload.length ≤ 65515) :
    h.marshal = ok (encH h) ∧ (encH h).length = h.marshalLen ∧ Header.parse (encH h) = ok h :=
  ⟨Header.marshal_eq h, length_encH h, parse_done h hs hp⟩

/-- headers made by the constructor have that number, so the constructor's arguments come back; Length counts the
payload -/
theorem C26_new (flags mtype : UInt8) (seq label : UInt16) (tid : UInt64) (payload : Bytes) (hp : payload.length ≤ 65515) :
    ∃ b h, (Header.new flags mtype seq label tid payload).marshal = ok b ∧ b.length = 20 + payload.length ∧
      Header.parse b = ok h ∧ h.flags = flags ∧ h.typ = mtype ∧ h.seq = seq ∧ h.label = label ∧ h.tid = tid ∧
      h.payload = payload ∧ h.length.toNat = payload.length := by
  refine ⟨_, _, Header.marshal_eq _, ?_, parse_done _ rfl hp, rfl, rfl, rfl, rfl, rfl, rfl, ?_⟩
  · rw [length_encH]; rfl
  · simp only [Header.new, Header.setLength]
    rw [toNat_ofNat16 (by omega)]

/-- **C26** fails: the SNDCP N-PDU number is written to octet 9 and read from octet 10, it always becomes 0xff. -/
theorem C26_sndcp_lost (h : Header) (hs : h.sndcp ≠ 0xff) (hp : h.payload.length ≤ 65515) :
    ∃ b h', h.marshal = ok b ∧ Header.parse b = ok h' ∧ h'.sndcp = 0xff ∧ h' ≠ h := by
  refine ⟨_, _, Header.marshal_eq h, Header.parse_encH h hp, rfl, ?_⟩
  intro e
  exact hs (congrArg Header.sndcp e).symm

/-- **C26** fails: a header with a payload of 65516 to 65535 octets, which its Length field can count, serialises but
crashes the parser. -/
theorem C26_large_panics (flags mtype : UInt8) (seq label : UInt16) (tid : UInt64) (payload : Bytes)
    (h1 : 65516 ≤ payload.length) (h2 : payload.length ≤ 65535) :
    ∃ b, (Header.new flags mtype seq label tid payload).marshal = ok b ∧ Header.parse b = .panic := by
  refine ⟨_, Header.marshal_eq _, ?_⟩
  obtain ⟨h, hh⟩ : ∃ h, h = Header.new flags mtype seq label tid payload := ⟨_, rfl⟩
  rw [← hh]
  have hl : h.length.toNat = payload.length := by
    rw [hh]; simp only [Header.new, Header.setLength]; rw [toNat_ofNat16 (by omega)]
  have hp : h.payload = payload := by rw [hh]; rfl
  obtain ⟨l0, l1, e1, hl'⟩ := V2.be16_cases h.length
  obtain ⟨s0, s1, e2, _⟩ := V2.be16_cases h.seq
  obtain ⟨f0, f1, e3, _⟩ := V2.be16_cases h.label
  obtain ⟨t0, t1, t2, t3, t4, t5, t6, t7, e4, _⟩ := be64_cases h.tid
  simp only [encH, e1, e2, e3, e4, List.cons_append, List.nil_append]
  rw [Header.parse_cons, if_pos (by rw [hp]; omega)]

/-- the parser does not use the Length field to find the end of the payload: every octet after the header is payload -/
theorem C26_faithful (b : Bytes) (h : Header) (hp : Header.parse b = ok h) :
    20 ≤ b.length ∧ h.payload = b.drop 20 ∧ b[0]? = some h.flags ∧ b[1]? = some h.typ ∧
    (b.drop 2).take 2 = be16 h.length ∧ (b.drop 4).take 2 = be16 h.seq ∧ (b.drop 6).take 2 = be16 h.label ∧
    (b.drop 12).take 8 = be64 h.tid := by
  obtain ⟨h1, h2, h3, h4, h5, h6, h7, _, h9⟩ := Header.parse_faithful b h hp
  exact ⟨h1, h2, h3, h4, h5, h6, h7, h9⟩

example : (Header.new 0x1e 1 0x0102 0x0304 0x2143658709214305 [0xaa, 0xbb]).marshal
    = ok [0x1e, 1, 0, 2, 1, 2, 3, 4, 0xff, 0xff, 0xff, 0xff, 0x21, 0x43, 0x65, 0x87, 0x09, 0x21, 0x43, 0x05, 0xaa, 0xbb] := by
  decide

example : Header.parse [0x1e, 1, 0, 2, 1, 2, 3, 4, 7, 0xff, 0xff, 0xff, 0x21, 0x43, 0x65, 0x87, 0x09, 0x21, 0x43, 0x05, 0xaa, 0xbb, 0xcc]
    = ok ⟨0x1e, 1, 2, 0x0102, 0xff, 0x0304, 0x2143658709214305, [0xaa, 0xbb, 0xcc]⟩ := by decide

/-! ### C27 -/

theorem header_returns (b : Bytes) (hb : b.length < 65536) : Returns (Header.parse b) := by
  by_cases h : b.length < 20
  · rw [Header.parse_short b h]; simp
  obtain ⟨x0, x1, x2, x3, x4, x5, x6, x7, x8, x9, x10, x11, x12, x13, x14, x15, x16, x17, x18, x19, r, rfl⟩ := cases20 b (by omega)
  rw [Header.parse_cons, if_neg (by simp only [List.length_cons] at hb; omega)]
  exact returns_bind (by simp [rd64]) (fun _ _ => by simp)

/-- **C27** below 64 KiB header parser and message parser return a value or an error. -/
theorem C27_total_partial (b : Bytes) (hb : b.length < 65536) : Returns (Header.parse b) ∧ Returns (parseMsg b) := by
  refine ⟨header_returns b hb, ?_⟩
  unfold parseMsg
  split
  · simp
  · rename_i h
    match b, h with
    | x :: y :: r, _ =>
      simp only [idx, List.getElem?_cons_succ, List.getElem?_cons_zero, bind_ok]
      split
      · exact returns_bind (header_returns _ hb) (fun _ _ => by simp)
      · exact returns_bind (unmarshal_returns ieLaws _ _ (header_returns _ hb)) (fun _ _ => by simp)
    | [_], h => simp at h
    | [], h => simp at h

example : parseMsg [] = err .tooShortParse ∧ parseMsg [0x1e] = err .tooShortParse ∧
    parseMsg [0x1e, 1, 0, 0] = err .tooShortParse ∧ parseMsg [0x1e, 255, 0, 0] = err .tooShortParse :=
  ⟨rfl, rfl, rfl, rfl⟩

/-- **C27** fails above: a T-PDU that the library itself builds from 65516 to 65535 octets crashes its message parser. -/
theorem C27_large_panics (seq label : UInt16) (tid : UInt64) (payload : Bytes)
    (h1 : 65516 ≤ payload.length) (h2 : payload.length ≤ 65535) :
    ∃ h b, tpduMarshal (newTPDU seq label tid payload) = ok (h, b) ∧ parseMsg b = .panic := by
  obtain ⟨b, hb1, hb2⟩ := C26_large_panics 0x1e 255 seq label tid payload h1 h2
  refine ⟨newTPDU seq label tid payload, b, ?_, ?_⟩
  · have e : tpduMarshal (newTPDU seq label tid payload)
        = ((Header.new 0x1e 255 seq label tid payload).marshal >>= fun b => ok (newTPDU seq label tid payload, b)) := rfl
    rw [e, hb1, bind_ok]
  · rw [Header.marshal_eq] at hb1
    simp only [ok.injEq] at hb1
    rw [← hb1, parseMsg_tpdu _ rfl, hb1, hb2]
    rfl

/-- building, serialising and parsing: the bytes have the announced length and Length field, the parsed message is of
the type built and has its fields and header values -/
def RoundTrips (s : Schema) (seq label : UInt16) (tid : UInt64) (ies : List (Option TLV.IE)) : Prop :=
  ∃ m' b, marshalMsg (newMessage s seq label tid ies) = ok (m', b) ∧
    (b.length : Int) = Msg.marshalLen hdrOps ieOps (newMessage s seq label tid ies) ∧
    (newMessage s seq label tid ies).hdr.length.toNat + 20 = b.length ∧
    parseMsg b = ok (.msg m') ∧ m'.schema = s ∧ m'.fields = (newMessage s seq label tid ies).fields ∧
    m'.hdr.typ = s.typ ∧ m'.hdr.seq = seq ∧ m'.hdr.label = label ∧ m'.hdr.tid = tid

theorem roundTrips_of (s : Schema) (hs : s ∈ Tab.all ∨ ∃ t, s = genericSchema t) (hty : schemaOf s.typ = s)
    (h255 : s.typ ≠ 255) (seq label : UInt16) (tid : UInt64) (ies : List (Option TLV.IE)) (hw : ∀ x, some x ∈ ies → okIE x)
    (hmax : 20 + ((ies.filterMap id).map (TLV.IE.marshalLen TLV.v0)).sum < 65536) : RoundTrips s seq label tid ies := by
  obtain ⟨d1, d2, d3⟩ := done_newMessage s hs seq label tid ies (fun x hx => ieLaws.wf_sz x (hw x hx))
  refine ⟨_, _, marshalMsg_new s hs seq label tid ies hw, ?_, ?_, round_trip s hs hty h255 seq label tid ies hw hmax,
    rfl, rfl, rfl, rfl, rfl, rfl⟩
  · rw [d3, length_encH]
  · rw [length_encH]
    have e : (newMessage s seq label tid ies).hdr.length
        = UInt16.ofNat (Msg.marshalLen hdrOps ieOps (newMessage s seq label tid ies) - 20).toNat := rfl
    rw [e, d3, toNat_ofNat16 (by omega)]
    omega

/-- **C27** every GTPv0 message type round trips with every list of representable IEs that fits. -/
theorem C27_round_trip (s : Schema) (hs : s ∈ Tab.all) (seq label : UInt16) (tid : UInt64)
    (ies : List (Option TLV.IE)) (hw : ∀ x, some x ∈ ies → okIE x)
    (hmax : 20 + ((ies.filterMap id).map (TLV.IE.marshalLen TLV.v0)).sum < 65536) : RoundTrips s seq label tid ies :=
  roundTrips_of s (Or.inl hs) (schemaOf_all s hs) (all_typ s hs) seq label tid ies hw hmax

/-- **C27** messages of any other type, as a list of IEs -/
theorem C27_generic (t : UInt8) (ht : t ≠ 255) (hn : ∀ s ∈ Tab.all, s.typ ≠ t) (seq label : UInt16) (tid : UInt64)
    (ies : List (Option TLV.IE)) (hw : ∀ x, some x ∈ ies → okIE x)
    (hmax : 20 + ((ies.filterMap id).map (TLV.IE.marshalLen TLV.v0)).sum < 65536) :
    RoundTrips (genericSchema t) seq label tid ies ∧
    (newMessage (genericSchema t) seq label tid ies).fields 0 = ies.filterMap id := by
  constructor
  · apply roundTrips_of _ (Or.inr ⟨t, rfl⟩) _ ht seq label tid ies hw hmax
    rcases schemaOf_cases t with ⟨h1, h2⟩ | ⟨h1, _⟩
    · exact absurd h2 (hn _ h1)
    · exact h1
  · have : ∀ (l : List TLV.IE) (F : Fields TLV.IE), (l.foldl (fun F x => (Act.app 0).apply F x) F) 0 = F 0 ++ l := by
      intro l
      induction l with
      | nil => intro F; simp
      | cons x l ih => intro F; rw [List.foldl_cons, ih]; simp [Act.apply]
    exact this _ Fields.empty

/-- **C27** T-PDUs -/
theorem C27_tpdu_partial (seq label : UInt16) (tid : UInt64) (p : Bytes) (hp : p.length ≤ 65515) :
    ∃ h' b, tpduMarshal (newTPDU seq label tid p) = ok (h', b) ∧ b.length = 20 + p.length ∧
      parseMsg b = ok (.tpdu h') ∧ h'.seq = seq ∧ h'.label = label ∧ h'.tid = tid ∧ h'.payload = p := by
  have e : tpduMarshal (newTPDU seq label tid p)
      = ((newTPDU seq label tid p).marshal >>= fun b => ok (newTPDU seq label tid p, b)) := rfl
  refine ⟨newTPDU seq label tid p, encH (newTPDU seq label tid p), ?_, ?_, ?_, rfl, rfl, rfl, rfl⟩
  · rw [e, Header.marshal_eq, bind_ok]
  · rw [length_encH]; rfl
  · have h := parse_done (newTPDU seq label tid p) rfl hp
    rw [parseMsg_tpdu _ rfl]
    have h : Header.parse (encH (newTPDU seq label tid p)) = ok (newTPDU seq label tid p) := h
    rw [h, bind_ok]

/-- examples: QoS profile (TV, 3 octets), cause, an end user address (TLV), an unknown TLV type -/
def exQoS : TLV.IE := ⟨6, 0, [1, 2, 3]⟩
def exCause : TLV.IE := ⟨1, 0, [128]⟩
def exAddr : TLV.IE := ⟨128, 2, [0xf1, 0x21]⟩
def exOther : TLV.IE := ⟨240, 1, [9]⟩

def bytesOf (m : Message) : Res Bytes := do
  let r ← marshalMsg m
  ok r.2

example : RoundTrips Tab.createPDPContextRequest 1 2 3 [some exOther, none, some exAddr, some exQoS] :=
  C27_round_trip _ (by simp [Tab.all]) 1 2 3 _
    (by
      intro x hx
      simp only [List.mem_cons, Option.some.injEq, reduceCtorEq, List.not_mem_nil, or_false, false_or] at hx
      rcases hx with rfl | rfl | rfl <;> decide) (by decide)

example : bytesOf (newMessage Tab.createPDPContextRequest 1 2 3 [some exOther, none, some exAddr, some exQoS])
    = ok [0x1e, 16, 0, 13, 0, 1, 0, 2, 0xff, 0xff, 0xff, 0xff, 0, 0, 0, 0, 0, 0, 0, 3,
      6, 1, 2, 3, 128, 0, 2, 0xf1, 0x21, 240, 0, 1, 9] := by decide +kernel

/-! ### C52 -/

/-- **C52** no IE of a constructed GTPv0 message is lost: if no two IEs have the same type, except for types the message
has several places for, the IEs after the 20 octet header are the given ones in some order. -/
theorem C52_v0_no_loss (s : Schema) (hs : s ∈ Tab.all) (seq label : UInt16) (tid : UInt64) (xs : List TLV.IE)
    (hw : ∀ x ∈ xs, okIE x) (hx : Distinct ieOps s xs) :
    ∃ ys m' b, ys.Perm xs ∧ marshalMsg (newMessage s seq label tid (xs.map some)) = ok (m', b) ∧
      b.drop 20 = TLV.Spec.encs TLV.Spec.v0 ys := by
  obtain ⟨hl, hu, hn, ha⟩ := schema_facts s (Or.inl hs)
  have hgood : ∀ s ∈ Tab.all, s.newGood = true ∧ s.keepsFirst = true ∧ s.separate = true := by decide +kernel
  obtain ⟨hg, hk, hsep⟩ := hgood s hs
  have hu' := hu
  simp only [Schema.unGood, Bool.and_eq_true, decide_eq_true_eq] at hu'
  have hperm := distinct_perm ieOps s hu'.1 hg hk hsep xs hx
  have hmem : ∀ x, some x ∈ xs.map some → okIE x := by
    intro x h; simp only [List.mem_map, Option.some.injEq, exists_eq_right] at h; exact hw x h
  refine ⟨_, _, _, hperm, marshalMsg_new s (Or.inl hs) seq label tid _ hmem, ?_⟩
  have e : TLV.Spec.encs TLV.Spec.v0 (emit s.order (newFields ieOps s (xs.map some)))
      = (done (newMessage s seq label tid (xs.map some))).hdr.payload := by
    rw [payload_done, Msg.body, TLV.flatMap_rawEnc]
    · rfl
    · intro x hx'; exact (hw x (hperm.subset hx')).1
  rw [e]
  rfl

example : Distinct ieOps Tab.createPDPContextRequest [exOther, exAddr, exQoS] := by
  unfold Distinct
  decide +kernel

/-! ### C24 for GTPv0 -/

/-- **C24** every GTPv0 message except Delete PDP Context Response can be serialised any number of times -/
theorem C24_v0_twice_partial (m m' : Message) (b : Bytes)
    (hs : (m.schema ∈ Tab.all ∧ m.schema.typ ≠ 21) ∨ ∃ t, m.schema = genericSchema t)
    (h : marshalMsg m = ok (m', b)) : marshalMsg m' = ok (m', b) := by
  apply marshal_again hdrLaws ieOps m m' b _ h
  rcases hs with ⟨h1, h2⟩ | ⟨t, h⟩
  · have : ∀ s ∈ Tab.all, s.typ ≠ 21 → s.reset = true := by decide +kernel
    exact this _ h1 h2
  · rw [h]; rfl

/-- **C24** fails for Delete PDP Context Response -/
theorem C24_v0_second_fails (seq label : UInt16) (tid : UInt64) (xs : List TLV.IE) (hne : xs ≠ []) (hw : ∀ x ∈ xs, okIE x)
    (hx : Distinct ieOps Tab.deletePDPContextResponse xs) :
    ∃ m' b, marshalMsg (newMessage Tab.deletePDPContextResponse seq label tid (xs.map some)) = ok (m', b) ∧
      marshalMsg m' = err .tooShortMarshal := by
  obtain ⟨s, hsd⟩ : ∃ s, s = Tab.deletePDPContextResponse := ⟨_, rfl⟩
  rw [← hsd] at hx ⊢
  have hs : s ∈ Tab.all := by rw [hsd]; simp [Tab.all]
  have hr : s.reset = false := by rw [hsd]; rfl
  obtain ⟨hl, hu, hn, ha⟩ := schema_facts s (Or.inl hs)
  have hgood : ∀ s ∈ Tab.all, s.newGood = true ∧ s.keepsFirst = true ∧ s.separate = true := by decide +kernel
  obtain ⟨hg, hk, hsep⟩ := hgood s hs
  have hu' := hu
  simp only [Schema.unGood, Bool.and_eq_true, decide_eq_true_eq] at hu'
  have hperm := distinct_perm ieOps s hu'.1 hg hk hsep xs hx
  have hmem : ∀ x, some x ∈ xs.map some → okIE x := by
    intro x h; simp only [List.mem_map, Option.some.injEq, exists_eq_right] at h; exact hw x h
  have hsz := classify_mem ieOps s.newRules s.newDefault (TLV.sized TLV.Spec.v0) ((xs.map some).filterMap id)
    (fun x h => ieLaws.wf_sz x (hmem x (by simpa using h)))
  refine ⟨_, _, marshalMsg_new s (Or.inl hs) seq label tid _ hmem, ?_⟩
  refine (stale_payload hdrLaws .tooShortMarshal mto_nil (done (newMessage s seq label tid (xs.map some))) hr).2 ?_ ?_
  · have e := length_body ieLaws s hl (newFields ieOps s (xs.map some)) hsz
    exact e.symm
  · intro h
    have h : emit s.order (newFields ieOps s (xs.map some)) = [] := h
    rw [h] at hperm
    exact hne (List.nil_perm.mp hperm)

example : (do let r ← marshalMsg (newMessage Tab.deletePDPContextResponse 1 2 3 [some exCause])
              let r2 ← marshalMsg r.1
              ok r2.2) = err .tooShortMarshal := by decide +kernel

end Verif.V0

namespace Verif.V0
open Res Spec Msg
/-! ### cases that meet the hypotheses -/

example := C26_partial ⟨0x1e, 1, 2, 0x0102, 0xff, 0x0304, 0x2143658709214305, [0xaa, 0xbb]⟩ rfl (by decide)
example := C26_new 0x1e 1 0x0102 0x0304 0x2143658709214305 [0xaa, 0xbb] (by decide)
example := C26_sndcp_lost ⟨0x1e, 1, 2, 0x0102, 5, 0x0304, 0x2143658709214305, [0xaa, 0xbb]⟩ (by decide) (by decide)
example := C26_large_panics 0x1e 255 1 2 3 (List.replicate 65516 9) (by rw [List.length_replicate]; decide) (by rw [List.length_replicate]; decide)
example := C26_faithful [0x1e, 1, 0, 2, 1, 2, 3, 4, 7, 0xff, 0xff, 0xff, 0x21, 0x43, 0x65, 0x87, 0x09, 0x21, 0x43, 0x05, 0xaa, 0xbb, 0xcc] _ rfl
example := C27_total_partial [0x1e, 1, 0, 2, 1, 2, 3, 4, 7, 0xff, 0xff, 0xff, 0x21, 0x43, 0x65, 0x87, 0x09, 0x21, 0x43, 0x05, 0xaa, 0xbb, 0xcc] (by decide)
example := C27_large_panics 1 2 3 (List.replicate 65516 9) (by rw [List.length_replicate]; decide) (by rw [List.length_replicate]; decide)
example := C27_generic 240 (by decide) (by decide) 1 2 3 [some exOther, none, some exQoS] (by intro x hx; simp at hx; rcases hx with rfl | rfl <;> decide)
  (by decide)
example := C27_tpdu_partial 1 2 3 [1, 2, 3] (by decide)
example := C52_v0_no_loss Tab.createPDPContextRequest (by simp [Tab.all]) 1 2 3 [exOther, exAddr, exQoS] (by decide) (by unfold Distinct; decide +kernel)
example := C24_v0_twice_partial (newMessage Tab.createPDPContextRequest 1 2 3 [some exOther, none, some exAddr, some exQoS]) _ _
  (.inl ⟨by show Tab.createPDPContextRequest ∈ Tab.all; simp [Tab.all], by decide⟩) rfl
example := C24_v0_second_fails 1 2 3 [exCause] (by decide) (by decide) (by unfold Distinct; decide +kernel)
end Verif.V0
