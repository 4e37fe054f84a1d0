import Verif.Props.Edit
/-
C80: the Length field of a message object, once SetLength was called (constructors end with it), is the one that is sent,
and says how many octets will be sent.
-/
namespace Verif.V2
open Res Spec Msg

variable (g : UInt8 → Bool)

/-- serialising succeeds; the Length field the message shows already before is the one in the octets, counts all octets but the
first four, and stays -/
def LengthRight (m : Message) : Prop :=
  ∃ m' b, marshalMsg g m = ok (m', b) ∧ b.length = m.hdr.length.toNat + 4 ∧ (b.drop 2).take 2 = be16 m.hdr.length ∧
    m'.hdr.length = m.hdr.length

theorem lengthRight_of (m : Message) (hl : m.schema.lensOK = true) (hc : Clobberless m.fields m.schema.order)
    (hr : m.schema.reset = true) (hmax : Msg.marshalLen hdrOps (ieOps g) m < 65540) : LengthRight g (setLength g m) := by
  have e0 : done g (setLength g m) = done g m := rfl
  have e1 : (setLength g m).hdr.length = UInt16.ofNat (Msg.marshalLen hdrOps (ieOps g) m - 4).toNat := rfl
  have e2 := marshalLen_done g m hl
  have e3 := marshalLen_done_hdr g m
  have e4 : (done g m).hdr.length = (setLength g m).hdr.length := by
    rw [e1, e2, e3]
    show UInt16.ofNat (4 + (Msg.body (rawEnc g) m.schema m.fields).length) + (if m.hdr.hasTEID = true then 4 else 0) = _
    rw [hasTEID_iff]
    by_cases hT : m.hdr.flags.toNat / 8 % 2 = 1
    · simp only [hT, decide_true, if_true]
      apply UInt16.toNat.inj
      rw [UInt16.toNat_add]
      simp only [UInt16.toNat_ofNat', UInt16.reduceToNat]
      omega
    · simp only [hT, decide_false, if_false, Bool.false_eq_true]
      apply UInt16.toNat.inj
      rw [UInt16.toNat_add]
      simp only [UInt16.toNat_ofNat', UInt16.reduceToNat]
      omega
  refine ⟨_, _, marshalMsg_eq g (setLength g m) hl hc hr, ?_, ?_, ?_⟩
  · rw [e0, length_encH, e1, UInt16.toNat_ofNat', e2]
    have : 8 ≤ (done g m).hdr.marshalLen := by rw [e3]; omega
    omega
  · rw [e0, ← e4]
    obtain ⟨l0, l1, hl⟩ := be16_cases (done g m).hdr.length
    simp [encH, hl]
  · rw [e0, e4]

/-- **C80** GTPv2: after SetLength on any message of a supported type, whatever its fields.
Partial: Create Session Request only without private extension or without additional IEs (`C16_createSessionRequest_wrong`). -/
theorem C80_v2_partial (m : Message) (hs : m.schema ∈ Tab.all) (hk : ∀ f, f ∉ m.schema.multi → (m.fields f).length ≤ 1)
    (hcsr : m.schema = Tab.createSessionRequest → m.fields 64 = [] ∨ m.fields 65 = [])
    (hmax : Msg.marshalLen hdrOps (ieOps g) m < 65540) : LengthRight g (setLength g m) := by
  refine lengthRight_of g m (all_lensOK _ hs) ?_ (all_reset _ hs) hmax
  by_cases h3 : m.schema = Tab.createSessionRequest
  · rw [h3]; exact clobberless_csr _ (hk 64 (by rw [h3]; decide +kernel)) (hcsr h3)
  · exact clobberless_of_advOK _ (advOK_of_ne _ hs h3) _ hk

/-- **C80** GTPv2: as constructed, whatever the arguments. -/
theorem C80_v2_new_partial (s : Schema) (hs : s ∈ Tab.all) (teid seq : UInt32) (ies : List (Option IE))
    (hcsr : s = Tab.createSessionRequest → newFields (ieOps g) s ies 64 = [] ∨ newFields (ieOps g) s ies 65 = [])
    (hmax : Msg.marshalLen hdrOps (ieOps g) (newMessage g s teid seq ies) < 65540) :
    LengthRight g (newMessage g s teid seq ies) :=
  C80_v2_partial g { schema := s, hdr := Header.new s.flags s.typ (if s.hasTEIDArg then teid else 0) seq []
                     fields := newFields (ieOps g) s ies } hs (kinds_new g s hs ies) hcsr hmax

/-- **C80** GTPv2: generic messages of any type. -/
theorem C80_v2_generic (t : UInt8) (teid seq : UInt32) (ies : List (Option IE)) (m : Message)
    (h : newGeneric g t teid seq ies = ok m) (hmax : Msg.marshalLen hdrOps (ieOps g) m < 65540) : LengthRight g m := by
  unfold newGeneric at h
  split at h
  · simp only [ok.injEq] at h
    subst h
    refine lengthRight_of g _ rfl ?_ rfl hmax
    refine clobberless_of_advOK (genericSchema t) rfl _ ?_
    exact classify_kinds (ieOps g) _ _ _ rfl _
  · cases h

/-- a Delete Session Response with cause and recovery has 12 + 6 + 5 octets, so its Length is 19 from the start -/
example : (newMessage (fun _ => false) Tab.deleteSessionResponse 1 2 [some (newIE 2 0 [16, 0]), none, some (newIE 3 0 [7])]).hdr.length = 19 ∧
    Msg.marshalLen hdrOps (ieOps fun _ => false)
      (newMessage (fun _ => false) Tab.deleteSessionResponse 1 2 [some (newIE 2 0 [16, 0]), none, some (newIE 3 0 [7])]) = 23 := by
  decide +kernel

end Verif.V2

namespace Verif.V1
open Res Spec Msg

/-- serialising succeeds; the Length field the message shows already before is the one in the octets, counts all octets but the
first eight, and stays -/
def LengthRight (m : Message) : Prop :=
  ∃ m' b, marshalMsg m = ok (m', b) ∧ b.length = m.hdr.length.toNat + 8 ∧ (b.drop 2).take 2 = be16 m.hdr.length ∧
    m'.hdr.length = m.hdr.length

theorem lengthRight_of (m : Message) (hs : m.schema ∈ Tab.all ∨ ∃ t, m.schema = genericSchema t)
    (hk : ∀ f, f ∉ m.schema.multi → (m.fields f).length ≤ 1) (hr : m.schema.reset = true ∨ m.hdr.payload = [])
    (hx : bit m.hdr.flags 2 = true → ∀ e ∈ m.hdr.exts, extOK e = true)
    (hw : ∀ f, ∀ x ∈ m.fields f, TLV.sized TLV.Spec.v1 x)
    (hmax : Msg.marshalLen hdrOps ieOps m < 65544) : LengthRight (setLength m) := by
  obtain ⟨hl, _, _, ha, _⟩ := schema_facts _ hs
  have e0 : done (setLength m) = done m := rfl
  have e1 : (setLength m).hdr.length = UInt16.ofNat (Msg.marshalLen hdrOps ieOps m - 8).toNat := rfl
  have e2 : Msg.marshalLen hdrOps ieOps m = ((done m).hdr.marshalLen : Int) := Msg.marshalLen_eq hdrLaws ieLaws m hl hw
  have e3 : 8 ≤ (done m).hdr.marshalLen := by unfold Header.marshalLen; omega
  have e4 : (done m).hdr.length = (setLength m).hdr.length := by
    rw [e1, e2]
    show UInt16.ofNat ((done m).hdr.marshalLen - 8) = _
    congr 1
    omega
  have hm : marshalMsg (setLength m) = ok (done (setLength m), encH (done (setLength m)).hdr) :=
    Msg.marshal_eq hdrLaws ieLaws (setLength m) (encH (done m).hdr) hl
      (clobberless_of_advOK _ ha _ hk) hw hr (mto_done _ hx)
  refine ⟨_, _, hm, ?_, ?_, ?_⟩
  · rw [e0, length_encH, e1, UInt16.toNat_ofNat', e2]
    omega
  · rw [e0, ← e4]
    simp [encH, be16]
  · rw [e0, e4]

/-- **C80** GTPv1: after SetLength on a message with any history of building, receiving, assigning and serialising (for the types
that can be serialised after that, C24), whatever fields it has now. -/
theorem C80_v1_partial (m : Message) (h : Made m) (hw : ∀ f, ∀ x ∈ m.fields f, TLV.sized TLV.Spec.v1 x)
    (hk : ∀ f, f ∉ m.schema.multi → (m.fields f).length ≤ 1)
    (hmax : Msg.marshalLen hdrOps ieOps m < 65544) : LengthRight (setLength m) := by
  obtain ⟨hs, _, _, hi, hr⟩ := made_inv h
  exact lengthRight_of m hs hk hr (fun h2 e he => ((hi.ext h2).2 e he).1) hw hmax

/-- **C80** GTPv1: as constructed, whatever the arguments. -/
theorem C80_v1_new (s : Schema) (hs : s ∈ Tab.all ∨ ∃ t, s = genericSchema t) (teid : UInt32) (seq : UInt16)
    (ies : List (Option TLV.IE)) (hw : ∀ x, some x ∈ ies → TLV.sized TLV.Spec.v1 x)
    (hmax : Msg.marshalLen hdrOps ieOps (newMessage s teid seq ies) < 65544) : LengthRight (newMessage s teid seq ies) := by
  obtain ⟨_, hu, hn, _, hf⟩ := schema_facts s hs
  refine lengthRight_of { schema := s, hdr := Header.new s.flags s.typ (if s.hasTEIDArg then teid else 0) seq []
                          fields := newFields ieOps s ies } hs
    (stable_new ieOps s hu (ies.filterMap id) (fun x _ => newSub_sound ieOps s hn x)).scalar (Or.inr rfl) ?_ ?_ hmax
  · intro h2
    have h2 : bit s.flags 2 = true := h2
    rcases hf with h | h <;> (rw [h] at h2; exact absurd h2 (by decide))
  · exact classify_mem ieOps s.newRules s.newDefault _ _ (fun x hx => hw x (by simpa using hx))

/-- an Echo Response with its recovery counter has 12 + 2 octets -/
example : (newMessage Tab.echoResponse 0 5 [some ⟨14, 0, [3]⟩]).hdr.length = 6 ∧
    Msg.marshalLen hdrOps ieOps (newMessage Tab.echoResponse 0 5 [some ⟨14, 0, [3]⟩]) = 14 := by decide +kernel

end Verif.V1

namespace Verif.V0
open Res Spec Msg

/-- serialising succeeds; the Length field the message shows already before is the one in the octets, counts all octets but the
first twenty, and stays -/
def LengthRight (m : Message) : Prop :=
  ∃ m' b, marshalMsg m = ok (m', b) ∧ b.length = m.hdr.length.toNat + 20 ∧ (b.drop 2).take 2 = be16 m.hdr.length ∧
    m'.hdr.length = m.hdr.length

theorem lengthRight_of (m : Message) (hs : m.schema ∈ Tab.all ∨ ∃ t, m.schema = genericSchema t)
    (hk : ∀ f, f ∉ m.schema.multi → (m.fields f).length ≤ 1) (hr : m.schema.reset = true ∨ m.hdr.payload = [])
    (hw : ∀ f, ∀ x ∈ m.fields f, TLV.sized TLV.Spec.v0 x)
    (hmax : Msg.marshalLen hdrOps ieOps m < 65556) : LengthRight (setLength m) := by
  obtain ⟨hl, _, _, ha⟩ := schema_facts _ hs
  have e0 : done (setLength m) = done m := rfl
  have e1 : (setLength m).hdr.length = UInt16.ofNat (Msg.marshalLen hdrOps ieOps m - 20).toNat := rfl
  have e2 : Msg.marshalLen hdrOps ieOps m = ((done m).hdr.marshalLen : Int) := Msg.marshalLen_eq hdrLaws ieLaws m hl hw
  have e3 : (done m).hdr.marshalLen = 20 + (done m).hdr.payload.length := rfl
  have e4 : (done m).hdr.length = (setLength m).hdr.length := by
    rw [e1, e2]
    show UInt16.ofNat ((done m).hdr.payload.length) = _
    congr 1
    omega
  have hm : marshalMsg (setLength m) = ok (done (setLength m), encH (done (setLength m)).hdr) :=
    Msg.marshal_eq hdrLaws ieLaws (setLength m) (encH (done m).hdr) hl
      (clobberless_of_advOK _ ha _ hk) hw hr (mto_done _)
  refine ⟨_, _, hm, ?_, ?_, ?_⟩
  · rw [e0, length_encH, e1, UInt16.toNat_ofNat', e2]
    omega
  · rw [e0, ← e4]
    simp [encH, be16]
  · rw [e0, e4]

/-- **C80** GTPv0: after SetLength on a message with any history (as for GTPv1). -/
theorem C80_v0_partial (m : Message) (h : Made m) (hw : ∀ f, ∀ x ∈ m.fields f, TLV.sized TLV.Spec.v0 x)
    (hk : ∀ f, f ∉ m.schema.multi → (m.fields f).length ≤ 1)
    (hmax : Msg.marshalLen hdrOps ieOps m < 65556) : LengthRight (setLength m) := by
  obtain ⟨hs, _, _, hr⟩ := made_inv h
  exact lengthRight_of m hs hk hr hw hmax

/-- **C80** GTPv0: as constructed, whatever the arguments. -/
theorem C80_v0_new (s : Schema) (hs : s ∈ Tab.all ∨ ∃ t, s = genericSchema t) (seq label : UInt16) (tid : UInt64)
    (ies : List (Option TLV.IE)) (hw : ∀ x, some x ∈ ies → TLV.sized TLV.Spec.v0 x)
    (hmax : Msg.marshalLen hdrOps ieOps (newMessage s seq label tid ies) < 65556) : LengthRight (newMessage s seq label tid ies) := by
  obtain ⟨_, hu, hn, _⟩ := schema_facts s hs
  refine lengthRight_of { schema := s, hdr := Header.new s.flags s.typ seq label tid []
                          fields := newFields ieOps s ies } hs
    (stable_new ieOps s hu (ies.filterMap id) (fun x _ => newSub_sound ieOps s hn x)).scalar (Or.inr rfl) ?_ hmax
  exact classify_mem ieOps s.newRules s.newDefault _ _ (fun x hx => hw x (by simpa using hx))

/-- an Echo Response with its recovery counter has 20 + 2 octets -/
example : (newMessage Tab.echoResponse 5 0 0 [some ⟨14, 0, [3]⟩]).hdr.length = 2 ∧
    Msg.marshalLen hdrOps ieOps (newMessage Tab.echoResponse 5 0 0 [some ⟨14, 0, [3]⟩]) = 22 := by decide +kernel

end Verif.V0

namespace Verif.V2
open Res Spec Msg
/-! ### cases that meet the hypotheses -/

example := C80_v2_partial (g := defaultGrouped) ⟨Tab.deleteSessionRequest, Header.new 0x48 36 7 1 [], fun f => if f = 1 then [exEBI] else []⟩
  (by simp [Tab.all]) (by intro f _; dsimp only; split <;> simp) (by intro h; exact absurd (congrArg Schema.typ h) (by decide)) (by decide +kernel)
example := C80_v2_new_partial (g := defaultGrouped) Tab.deleteSessionResponse (by simp [Tab.all]) 1 2 [some (newIE 2 0 [16, 0]), none, some (newIE 3 0 [7])]
  (by intro h; exact absurd (congrArg Schema.typ h) (by decide)) (by decide +kernel)
example := C80_v2_generic (g := defaultGrouped) 240 1 2 [some (newIE 2 0 [16, 0])] _ rfl (by decide +kernel)
end Verif.V2

namespace Verif.V1
open Res Spec Msg

example := C80_v1_partial { newMessage Tab.echoResponse 0 5 [] with fields := upd (newMessage Tab.echoResponse 0 5 []).fields 0 [⟨14, 0, [3]⟩] }
  (.assigned _ (.built _ _ _ _ (.inl (by simp [Tab.all])) (by intro h; rcases h with h | h <;> exact absurd (congrArg Schema.typ h) (by decide))) _ _)
  (by intro f x hx
      by_cases h : f = 0
      · subst h; simp [upd] at hx; subst hx; unfold TLV.sized; decide
      · simp [upd, h, newMessage, newFields, classify, setLength, Fields.empty] at hx)
  (by intro f _; by_cases h : f = 0 <;> simp [upd, h, newMessage, newFields, classify, setLength, Fields.empty]) (by decide +kernel)

example := C80_v1_new Tab.echoResponse (.inl (by simp [Tab.all])) 0 5 [some ⟨14, 0, [3]⟩, none]
  (by intro x hx; simp at hx; subst hx; unfold TLV.sized; decide) (by decide +kernel)
end Verif.V1

namespace Verif.V0
open Res Spec Msg

example := C80_v0_partial { newMessage Tab.echoResponse 5 0 0 [] with fields := upd (newMessage Tab.echoResponse 5 0 0 []).fields 0 [⟨14, 0, [3]⟩] }
  (.assigned _ (.built _ _ _ _ _ (.inl (by simp [Tab.all]))) _ _)
  (by intro f x hx
      by_cases h : f = 0
      · subst h; simp [upd] at hx; subst hx; unfold TLV.sized; decide
      · simp [upd, h, newMessage, newFields, classify, setLength, Fields.empty] at hx)
  (by intro f _; by_cases h : f = 0 <;> simp [upd, h, newMessage, newFields, classify, setLength, Fields.empty]) (by decide +kernel)

example := C80_v0_new Tab.echoResponse (.inl (by simp [Tab.all])) 5 0 0 [some ⟨14, 0, [3]⟩, none]
  (by intro x hx; simp at hx; subst hx; unfold TLV.sized; decide) (by decide +kernel)
end Verif.V0
