import Verif.Model.V1Msg
import Verif.Proofs.MsgGen
import Verif.Proofs.V1IE
import Verif.Proofs.V1Header
import Verif.Props.V1Header
/-
Helper lemmas on GTPv1 messages.
-/
namespace Verif.V1
open Res Msg Spec

abbrev renc : TLV.IE → Bytes := TLV.rawEnc TLV.Spec.v1
/-- an IE that is represented faithfully (TLV/Spec) and carries a value -/
abbrev okIE (x : TLV.IE) : Prop := TLV.Spec.wf TLV.Spec.v1 x = true ∧ TLV.Spec.hasValue x = true

theorem ieLaws : IELaws ieOps renc (TLV.sized TLV.Spec.v1) okIE := TLV.ieLaws TLV.agree_v1

theorem hdrLaws : HdrLaws hdrOps where
  pay _ _ := rfl
  len h p := by
    have h1 : ({ h with payload := p } : Header).hasSeq = h.hasSeq := rfl
    have h2 : ({ h with payload := p } : Header).hasNPDU = h.hasNPDU := rfl
    have h3 : ({ h with payload := p } : Header).hasExt = h.hasExt := rfl
    simp only [hdrOps, Header.marshalLen, h1, h2, h3]
    omega
  setset _ _ _ := rfl
  lenL _ := rfl
  payL _ := rfl
  setL _ _ := rfl
  payLe h := by simp only [hdrOps, Header.marshalLen]; omega

/-- writing an IE into no space -/
theorem mto_nil (x : TLV.IE) : ieOps.mto x [] = err .tooShortMarshal := by
  have h : 1 ≤ x.marshalLen TLV.v1 := by
    unfold TLV.IE.marshalLen
    repeat (first | omega | split)
  show TLV.IE.marshalTo TLV.v1 x [] = _
  unfold TLV.IE.marshalTo
  rw [if_pos (by simp only [List.length_nil]; omega)]

/-- the message object left by a successful Marshal -/
abbrev done (m : Message) : Message := doneM hdrOps renc m

theorem payload_done (m : Message) : (done m).hdr.payload = Msg.body renc m.schema m.fields := rfl

/-- the header of a finished message can be represented -/
theorem wf_setLength (h : Header) (hfit : h.marshalLen < 65536)
    (hseq : bit h.flags 1 = false → h.seq = 0) (hnp : bit h.flags 0 = false → h.npdu = 0)
    (hno : bit h.flags 2 = false → h.next = 0 ∧ h.exts = [])
    (hext : bit h.flags 2 = true → chain h.next h.exts = true ∧
      ∀ e ∈ h.exts, extOK e = true ∧ (e.content.length + 2) % 4 = 0) : Wf h.setLength := by
  have hm : (encH h.setLength).length = h.marshalLen := length_encH h.setLength
  have h8 : 8 ≤ h.marshalLen := by unfold Header.marshalLen; omega
  refine ⟨?_, by omega, hseq, hnp, hno, hext⟩
  rw [hm]
  simp only [Header.setLength]
  rw [toNat_ofNat16 (by omega)]; omega

theorem mto_done (h : Header) (hok : bit h.flags 2 = true → ∀ e ∈ h.exts, extOK e = true) :
    hdrOps.mto h (List.replicate (hdrOps.mlen h) 0) = ok (encH h) := Header.marshal_eq h hok

theorem parse_done (h : Header) (hw : Wf h) : hdrOps.parse (encH h) = ok h := by
  have := Header.parse_encH h hw []
  rwa [List.append_nil] at this

theorem idx_one_encH (h : Header) : idx (encH h) 1 = ok h.typ := rfl

theorem two_le_encH (h : Header) : 2 ≤ (encH h).length := by
  rw [length_encH]; unfold Header.marshalLen; omega

theorem parseMsg_encH (h : Header) (ht : h.typ ≠ 255) :
    parseMsg (encH h) = (unmarshal hdrOps ieOps (schemaOf h.typ) (encH h) >>= fun m => ok (.msg m)) := by
  have := two_le_encH h
  rw [parseMsg, if_neg (by omega), idx_one_encH, bind_ok, if_neg (by simpa using ht)]

theorem parseMsg_tpdu (h : Header) (ht : h.typ = 255) :
    parseMsg (encH h) = (Header.parse (encH h) >>= fun h => ok (.tpdu h)) := by
  have := two_le_encH h
  rw [parseMsg, if_neg (by omega), idx_one_encH, bind_ok, if_pos (by simpa using ht)]

theorem schemaOf_all : ∀ s ∈ Tab.all, schemaOf s.typ = s := by
  intro s hs
  simp only [Tab.all, List.mem_cons, List.not_mem_nil, or_false] at hs
  rcases hs with rfl|rfl|rfl|rfl|rfl|rfl|rfl|rfl|rfl|rfl|rfl|rfl <;> rfl

theorem all_lensOK : ∀ s ∈ Tab.all, s.lensOK = true := by decide +kernel
theorem all_unGood : ∀ s ∈ Tab.all, s.unGood = true := by decide +kernel
theorem all_newSub : ∀ s ∈ Tab.all, s.newSub = true := by decide +kernel
theorem all_advOK : ∀ s ∈ Tab.all, s.advOK = true := by decide +kernel
theorem all_typ : ∀ s ∈ Tab.all, s.typ ≠ 255 := by decide +kernel
theorem all_flags : ∀ s ∈ Tab.all, s.flags = 0x32 ∨ s.flags = 0x30 := by decide +kernel
theorem dispatch_all : ∀ p ∈ Tab.dispatch, p.2 ∈ Tab.all ∧ p.2.typ = p.1 := by
  intro p hp
  simp only [Tab.dispatch, List.mem_cons, List.not_mem_nil, or_false] at hp
  rcases hp with rfl|rfl|rfl|rfl|rfl|rfl|rfl|rfl|rfl|rfl|rfl|rfl <;> exact ⟨by simp [Tab.all], rfl⟩

/-- the struct chosen for a type: one of the table, or Generic for a type not in the table -/
theorem schemaOf_cases (t : UInt8) : (schemaOf t ∈ Tab.all ∧ (schemaOf t).typ = t) ∨
    (schemaOf t = genericSchema t ∧ ∀ s ∈ Tab.all, s.typ ≠ t) := by
  cases hf : Tab.dispatch.find? (fun p => p.1 == t) with
  | some p =>
    left
    have h1 := List.mem_of_find?_eq_some hf
    have h2 := List.find?_some hf
    simp only [beq_iff_eq] at h2
    have h3 := dispatch_all p h1
    simp only [schemaOf, hf]
    exact ⟨h3.1, h3.2.trans h2⟩
  | none =>
    right
    refine ⟨by simp only [schemaOf, hf], ?_⟩
    intro s hs ht
    subst ht
    have : schemaOf s.typ = genericSchema s.typ := by simp only [schemaOf, hf]
    rw [schemaOf_all s hs] at this
    have hm : s.multi = [0] := by rw [this]; rfl
    have hfd : s.fields = ["IEs"] := by rw [this]; rfl
    revert s
    have : ∀ s ∈ Tab.all, s.fields ≠ ["IEs"] := by decide +kernel
    intro s hs _ _ _ h
    exact this s hs h

/-- facts shared by the table and Generic -/
theorem schema_facts (s : Schema) (h : s ∈ Tab.all ∨ ∃ t, s = genericSchema t) :
    s.lensOK = true ∧ s.unGood = true ∧ s.newSub = true ∧ s.advOK = true ∧ (s.flags = 0x32 ∨ s.flags = 0x30) := by
  rcases h with h | ⟨t, rfl⟩
  · exact ⟨all_lensOK s h, all_unGood s h, all_newSub s h, all_advOK s h, all_flags s h⟩
  · exact ⟨rfl, rfl, rfl, rfl, Or.inl rfl⟩

theorem bits32 : bit 0x32 2 = false ∧ bit 0x32 1 = true ∧ bit 0x32 0 = false := by decide
theorem bits30 : bit 0x30 2 = false ∧ bit 0x30 1 = false ∧ bit 0x30 0 = false := by decide

theorem hdr_newMessage (s : Schema) (teid : UInt32) (seq : UInt16) (ies : List (Option TLV.IE)) :
    ∃ l, (newMessage s teid seq ies).hdr = ⟨s.flags, s.typ, l, if s.hasTEIDArg then teid else 0, seq, 0, 0, [], []⟩ :=
  ⟨_, rfl⟩

/-- the header of a finished constructed message -/
theorem done_newMessage (s : Schema) (hs : s ∈ Tab.all ∨ ∃ t, s = genericSchema t) (teid : UInt32) (seq : UInt16)
    (ies : List (Option TLV.IE)) (hw : ∀ x, some x ∈ ies → TLV.sized TLV.Spec.v1 x) :
    (done (newMessage s teid seq ies)).hdr.marshalLen
        = (if s.flags = 0x32 then 12 else 8) + (Msg.body renc s (newFields ieOps s ies)).length ∧
    (Msg.body renc s (newFields ieOps s ies)).length ≤ ((ies.filterMap id).map (TLV.IE.marshalLen TLV.v1)).sum ∧
    Msg.marshalLen hdrOps ieOps (newMessage s teid seq ies) = ((done (newMessage s teid seq ies)).hdr.marshalLen : Int) := by
  obtain ⟨hl, hu, _, _, hf⟩ := schema_facts s hs
  refine ⟨?_, length_newBody ieLaws s hl hu ies hw, ?_⟩
  · have hq : (done (newMessage s teid seq ies)).hdr.flags = s.flags := rfl
    have hx : (done (newMessage s teid seq ies)).hdr.exts = [] := rfl
    rw [Header.marshalLen, hasSeq_eq, hasNPDU_eq, hasExt_eq, hq, payload_done, hx]
    have e : (Msg.body renc (newMessage s teid seq ies).schema (newMessage s teid seq ies).fields)
        = Msg.body renc s (newFields ieOps s ies) := rfl
    rw [e]
    rcases hf with hf | hf
    · rw [hf, bits32.1, bits32.2.1, bits32.2.2]; simp only [Bool.or_false, if_true]
      simp; omega
    · rw [hf, bits30.1, bits30.2.1, bits30.2.2]; simp; omega
  · exact Msg.marshalLen_eq hdrLaws ieLaws _ hl
      (classify_mem ieOps s.newRules s.newDefault _ _ (fun x hx => hw x (by simpa using hx)))

/-- round trip of constructed messages, table and Generic -/
theorem round_trip (s : Schema) (hs : s ∈ Tab.all ∨ ∃ t, s = genericSchema t) (hty : schemaOf s.typ = s) (h255 : s.typ ≠ 255)
    (teid : UInt32) (seq : UInt16) (ies : List (Option TLV.IE)) (hw : ∀ x, some x ∈ ies → okIE x)
    (hseq : s.flags = 0x30 → seq = 0)
    (hmax : 12 + ((ies.filterMap id).map (TLV.IE.marshalLen TLV.v1)).sum < 65536) :
    marshalMsg (newMessage s teid seq ies) = ok (done (newMessage s teid seq ies), encH (done (newMessage s teid seq ies)).hdr) ∧
    parseMsg (encH (done (newMessage s teid seq ies)).hdr) = ok (.msg (done (newMessage s teid seq ies))) := by
  obtain ⟨hl, hu, hn, ha, hf⟩ := schema_facts s hs
  have hsz : ∀ x, some x ∈ ies → TLV.sized TLV.Spec.v1 x := fun x hx => ieLaws.wf_sz x (hw x hx)
  obtain ⟨d1, d2, d3⟩ := done_newMessage s hs teid seq ies hsz
  have hmem : ∀ x ∈ ies.filterMap id, some x ∈ ies := fun x hx => by simpa using hx
  have hfit : (done (newMessage s teid seq ies)).hdr.marshalLen < 65536 := by rw [d1]; split <;> omega
  have hfl : (done (newMessage s teid seq ies)).hdr.flags = s.flags := rfl
  have hb2 : bit s.flags 2 = false := by rcases hf with h | h <;> rw [h] <;> decide
  have hwf : Wf (done (newMessage s teid seq ies)).hdr := by
    apply wf_setLength
    · exact hfit
    · intro h
      have : s.flags = 0x30 := by
        rcases hf with h' | h'
        · have h : bit s.flags 1 = false := h
          rw [h', bits32.2.1] at h; cases h
        · exact h'
      exact hseq this
    · intro _; rfl
    · intro _; exact ⟨rfl, rfl⟩
    · intro h
      have h : bit s.flags 2 = true := h
      rw [hb2] at h; cases h
  have hsub := newSub_sound ieOps s hn
  have hstab := stable_new ieOps s hu (ies.filterMap id) (fun x _ => hsub x)
  have hcore := round_trip_core hdrLaws ieLaws (newMessage s teid seq ies) (encH (done (newMessage s teid seq ies)).hdr)
    hl (clobberless_of_advOK s ha _ hstab.scalar)
    (classify_mem ieOps s.newRules s.newDefault _ _ (fun x hx => hw x (hmem x hx))) (Or.inr rfl)
    (classify_new ieOps s hu _ (fun x _ => hsub x))
    (mto_done _ (by
      intro h
      have h : bit s.flags 2 = true := h
      rw [hb2] at h; cases h)) (parse_done _ hwf)
  refine ⟨hcore.1, ?_⟩
  rw [parseMsg_encH _ h255]
  have e : schemaOf (done (newMessage s teid seq ies)).hdr.typ = (newMessage s teid seq ies).schema := hty
  rw [e, hcore.2, bind_ok]

end Verif.V1
