import Verif.Model.Generic
import Verif.Props.MsgLen
/-
C81: elements can be added to a Generic message at any time.
-/
namespace Verif.Msg

/-- a message type with one list field: every content of that field fits -/
theorem fits_list {ι : Type} (io : IEOps ι) (s : Schema) (hr : s.unRules = []) (hd : s.unDefault = .app 0) (hm : s.multi = [0])
    (F : Fields ι) (hF : ∀ f, f ≠ 0 → F f = []) : Fits io s F := by
  refine ⟨?_, ?_⟩
  · intro f x hx
    by_cases h : f = 0
    · subst h
      show (unAct io s x).apply (upd F 0 []) x 0 = [x]
      simp [unAct, hr, hd, sel, Act.apply]
    · rw [hF f h] at hx; cases hx
  · intro f hf
    have : f ≠ 0 := by rintro rfl; exact hf (by rw [hm]; simp)
    rw [hF f this]; simp

theorem foldl_app {ι : Type} (l : List ι) (F : Fields ι) :
    l.foldl (fun F x => (Act.app 0).apply F x) F = upd F 0 (F 0 ++ l) := by
  induction l generalizing F with
  | nil => funext k; by_cases h : k = 0 <;> simp [upd, h]
  | cons x l ih =>
    rw [List.foldl_cons, ih]
    funext k
    by_cases h : k = 0 <;> simp [upd, h, Act.apply]

end Verif.Msg

namespace Verif.V2
open Res Spec Msg

variable (g : UInt8 → Bool)

theorem generic_fields (t : UInt8) (ies : List (Option IE)) :
    newFields (ieOps g) (genericSchema t) ies = upd Fields.empty 0 (ies.filterMap id) := by
  have := foldl_app (ies.filterMap id) (Fields.empty (ι := IE))
  simpa [newFields, classify, genericSchema, sel, Fields.empty] using this

/-- **C81** GTPv2: adding elements later is the same as giving them to the constructor (incl. the panic for nil). -/
theorem C81_v2_build (t : UInt8) (teid seq : UInt32) (xs ys : List (Option IE)) :
    (newGeneric g t teid seq xs >>= fun m => addIE g m ys) = newGeneric g t teid seq (xs ++ ys) := by
  by_cases hx : xs.all Option.isSome = true
  · by_cases hy : ys.all Option.isSome = true
    · have hxy : (xs ++ ys).all Option.isSome = true := by rw [List.all_append, hx, hy]; rfl
      simp only [newGeneric, addIE, hx, hy, hxy, if_true, bind_ok, ok.injEq]
      unfold newMessage
      rw [generic_fields, generic_fields, List.filterMap_append]
      have e : upd (upd Fields.empty 0 (xs.filterMap id)) 0 (upd Fields.empty 0 (xs.filterMap id) 0 ++ ys.filterMap id) =
          upd (Fields.empty (ι := IE)) 0 (xs.filterMap id ++ ys.filterMap id) := by
        funext k; by_cases h : k = 0 <;> simp [upd, h]
      simp only [setLength, e]
      congr 1
    · have hxy : ¬ (xs ++ ys).all Option.isSome = true := by rw [List.all_append]; simp [hy]
      simp only [newGeneric, addIE, hx, hy, hxy, if_true, if_false, bind_ok, Bool.false_eq_true]
  · have hxy : ¬ (xs ++ ys).all Option.isSome = true := by rw [List.all_append]; simp [hx]
    simp only [newGeneric, hx, hxy, if_false, Bool.false_eq_true]
    rfl

/-- **C81** GTPv2: a received message of a type without a struct of its own, elements added, is sent on with its former elements
followed by the new ones, and nothing else changed. -/
theorem C81_v2_received (b : Bytes) (m : Message) (h : parseMsg g b = ok m) (ht : m.hdr.typ ∉ codes.map Prod.fst) (xs : List IE)
    (hw : ∀ x ∈ xs, wf g x = true) (hmin : 12 ≤ Msg.marshalLen hdrOps (ieOps g) m + ((xs.map (IE.marshalLen g)).sum : Nat))
    (hmax : Msg.marshalLen hdrOps (ieOps g) m + ((xs.map (IE.marshalLen g)).sum : Nat) < 65536) :
    ∃ m', addIE g m (xs.map some) = ok m' ∧ m'.fields 0 = m.fields 0 ++ xs ∧ LengthRight g m' ∧
      Delivers g m' (upd m.fields 0 (m.fields 0 ++ xs)) := by
  have hm := Made.received (g := g) b m h
  obtain ⟨⟨hl, hu, hr, hadv, _⟩, hty, _⟩ := made_inv g hm
  have hsch : m.schema = genericSchema m.hdr.typ := by
    obtain ⟨t', _, he, ⟨_, _, hc⟩ | ⟨hg, _⟩⟩ := (C12_dispatch_faithful g b m h).1
    · exact absurd (List.mem_map.2 ⟨_, hc, rfl⟩) (he ▸ ht)
    · rw [he]; exact hg
  have hother : ∀ f, f ≠ 0 → m.fields f = [] := by
    intro f hf
    obtain ⟨t, _, _, _, ⟨_, _, hF⟩ | ⟨ys, _, hF⟩⟩ := parseMsg_ok g h
    · rw [hF]; rfl
    · rw [hF, hsch]
      have := foldl_app ys (Fields.empty (ι := IE))
      have e : classify (ieOps g) (genericSchema m.hdr.typ).unRules (genericSchema m.hdr.typ).unDefault ys =
          upd Fields.empty 0 (Fields.empty 0 ++ ys) := this
      rw [e, upd_ne _ _ hf]; rfl
  have hall : (xs.map some).all Option.isSome = true := by simp
  have hlen : Msg.marshalLen hdrOps (ieOps g) { m with fields := upd m.fields 0 (m.fields 0 ++ xs) } =
      Msg.marshalLen hdrOps (ieOps g) m + ((xs.map (IE.marshalLen g)).sum : Nat) := by
    unfold Msg.marshalLen bodyLen
    have e1 : m.schema.lens = [0] := by rw [hsch]; rfl
    simp only [e1, List.map_cons, List.map_nil, List.sum_cons, List.sum_nil, upd_same, List.map_append, List.sum_append]
    show _ + ((((m.fields 0).map (ieOps g).mlen).sum + (xs.map (IE.marshalLen g)).sum + 0 : Nat) : Int) = _
    omega
  have hfit : Fits (ieOps g) m.schema (upd m.fields 0 (m.fields 0 ++ xs)) := by
    apply fits_list
    · rw [hsch]; rfl
    · rw [hsch]; rfl
    · rw [hsch]; rfl
    · intro f hf
      rw [upd_ne _ _ hf, hother f hf]
  refine ⟨setLength g { m with fields := upd m.fields 0 (m.fields 0 ++ xs) }, ?_, ?_, ?_, ?_⟩
  · rw [addIE, if_pos hall, filterMap_some]
  · show upd m.fields 0 (m.fields 0 ++ xs) 0 = _
    rw [upd_same]
  · refine lengthRight_of g _ hl ?_ hr (by rw [hlen]; omega)
    apply clobberless_of_advOK
    · show m.schema.advOK = true
      rw [hsch]; rfl
    · exact hfit.one
  · refine C77_v2_partial g _ (.resized _ (.assigned m hm 0 _)) ?_ hfit ?_ ?_ ?_
    · intro f x hx
      have hx : x ∈ upd m.fields 0 (m.fields 0 ++ xs) f := hx
      by_cases hf : f = 0
      · subst hf
        rw [upd_same, List.mem_append] at hx
        rcases hx with hx | hx
        · exact received_wf g b m h 0 x hx
        · exact hw x hx
      · rw [upd_ne _ _ hf, hother f hf] at hx; cases hx
    · show 12 ≤ Msg.marshalLen hdrOps (ieOps g) { m with fields := upd m.fields 0 (m.fields 0 ++ xs) }
      rw [hlen]; exact hmin
    · show Msg.marshalLen hdrOps (ieOps g) { m with fields := upd m.fields 0 (m.fields 0 ++ xs) } < 65536
      rw [hlen]; exact hmax
    · intro hc
      have hc : m.schema = Tab.createSessionRequest := hc
      exfalso
      rw [hc] at hsch
      have : Tab.createSessionRequest.name = "Generic" := by rw [hsch]; rfl
      exact absurd this (by decide)

/-- **C80** fails for NewGenericWithoutTEID, which does not call SetLength: the message shows Length 4 whatever its elements. -/
theorem C80_v2_no_teid_wrong (t : UInt8) (teid seq : UInt32) (xs : List IE) : (newGenericNoTEID t teid seq xs).hdr.length = 4 := by
  have h : (Header.new (Header.newFlags 2 0 0) t teid seq []).hasTEID = false := by
    rw [hasTEID_iff]
    show decide ((Header.newFlags 2 0 0).toNat / 8 % 2 = 1) = false
    decide
  show UInt16.ofNat (4 + 0) + (if (Header.new (Header.newFlags 2 0 0) t teid seq []).hasTEID = true then 4 else 0) = 4
  rw [h]
  decide

theorem schemaOf_other (t : UInt8) (ht : t ∉ codes.map Prod.fst) : schemaOf t = genericSchema t := by
  unfold schemaOf
  have hc2 : ∀ p ∈ Tab.dispatch, p.1 ∈ codes.map Prod.fst := by decide +kernel
  cases hf : Tab.dispatch.find? (fun p => p.1 == t) with
  | some p =>
    have hm := List.mem_of_find?_eq_some hf
    have he := List.find?_some hf
    simp only [beq_iff_eq] at he
    exact absurd (he ▸ hc2 p hm) ht
  | none => rfl

/-- **C81** GTPv2 messages without TEID: they are serialised with the right length and read by the receiver as a message of that
type, sequence number and elements.
Partial: the TEID argument is not sent, so TEID reads 0; messages below 12 octets are not accepted by the receiver (C18). -/
theorem C81_v2_no_teid_partial (t : UInt8) (ht : t ∉ codes.map Prod.fst) (teid seq : UInt32) (hseq : seq.toNat < 2 ^ 24)
    (xs : List IE) (hw : ∀ x ∈ xs, wf g x = true) (hmin : 4 ≤ (encs g xs).length) (hmax : 8 + (encs g xs).length < 65536) :
    ∃ m' b r, marshalMsg g (newGenericNoTEID t teid seq xs) = ok (m', b) ∧ b.length = 8 + (encs g xs).length ∧
      parseMsg g b = ok r ∧ r.schema = genericSchema t ∧ r.hdr.typ = t ∧ r.hdr.hasTEID = false ∧ r.hdr.teidAcc = 0 ∧
      r.hdr.sequence = seq ∧ r.hdr.length.toNat + 4 = b.length ∧ r.fields 0 = xs := by
  have hcl : ∀ te, Clobberless (newGenericNoTEID t te seq xs).fields (newGenericNoTEID t te seq xs).schema.order := by
    intro te
    refine clobberless_of_advOK (genericSchema t) rfl _ ?_
    intro f hf
    have : f ≠ 0 := by rintro rfl; exact hf (by simp [genericSchema])
    show (upd Fields.empty 0 xs f).length ≤ 1
    rw [upd_ne _ _ this]; simp [Fields.empty]
  have hfl : ∀ te, (done g (newGenericNoTEID t te seq xs)).hdr.flags = 0x40 := fun te => by
    show Header.newFlags 2 0 0 = 0x40
    decide
  have hbody : Msg.body (rawEnc g) (genericSchema t) (upd Fields.empty 0 xs) = encs g xs := by
    rw [← flatMap_rawEnc g xs hw]
    simp [Msg.body, emit, genericSchema]
  have hlen : ∀ te, (done g (newGenericNoTEID t te seq xs)).hdr.marshalLen = 8 + (encs g xs).length := by
    intro te
    rw [Header.marshalLen, hasTEID_iff, hfl te]
    have : (done g (newGenericNoTEID t te seq xs)).hdr.payload = encs g xs := hbody
    rw [this]; simp
  have henc : encH (done g (newGenericNoTEID t teid seq xs)).hdr = encH (done g (newGenericNoTEID t 0 seq xs)).hdr := by
    unfold encH
    rw [hfl, hfl]
    rfl
  have hun := unmarshal_done g (newGenericNoTEID t 0 seq xs)
    (by intro f x hx
        have hx : x ∈ upd Fields.empty 0 xs f := hx
        by_cases hf : f = 0
        · subst hf; rw [upd_same] at hx; exact hw x hx
        · rw [upd_ne _ _ hf] at hx; cases hx)
    hseq (fun _ => rfl) (by rw [hlen]; omega) (by rw [hlen]; omega)
    (by have := foldl_app xs (Fields.empty (ι := IE))
        have e : emit (genericSchema t).order (upd Fields.empty 0 xs) = xs := by simp [emit, genericSchema]
        show classify _ _ _ (emit (genericSchema t).order (upd Fields.empty 0 xs)) = upd Fields.empty 0 xs
        rw [e]
        exact this)
  have hn : (done g (newGenericNoTEID t 0 seq xs)).hdr.hasTEID = false := by rw [hasTEID_iff, hfl]; decide
  refine ⟨_, _, done g (newGenericNoTEID t 0 seq xs), marshalMsg_eq g _ rfl (hcl teid) rfl, ?_, ?_, rfl, rfl, hn, ?_, rfl, ?_, ?_⟩
  · rw [length_encH, hlen]
  · rw [henc, parseMsg_encH g _ (by rw [length_encH, hlen]; omega)]
    have : schemaOf (done g (newGenericNoTEID t 0 seq xs)).hdr.typ = (newGenericNoTEID t 0 seq xs).schema := schemaOf_other t ht
    rw [this, hun]
  · rw [Header.teidAcc, hn]; rfl
  · rw [length_encH, hlen]
    have hwf : (done g (newGenericNoTEID t 0 seq xs)).hdr.Wf := setLength_wf _ hseq (fun _ => rfl) (by
      show (done g (newGenericNoTEID t 0 seq xs)).hdr.marshalLen < 65536
      rw [hlen]; omega)
    have := hwf.len
    rw [hlen] at this
    omega
  · show upd Fields.empty 0 xs 0 = xs
    rw [upd_same]

/-- type 240 without TEID, with one recovery element: 13 octets, while the message shows Length 4 -/
example : (newGenericNoTEID 240 7 1 [newIE 3 0 [5]]).hdr.length = 4 ∧
    (match marshalMsg defaultGrouped (newGenericNoTEID 240 7 1 [newIE 3 0 [5]]) with | ok r => some r.2 | _ => none) =
      some [0x40, 240, 0, 9, 0, 0, 1, 0, 3, 0, 1, 0, 5] := by decide +kernel

/-- the same with a nil argument added: panic -/
example : (match addIE defaultGrouped (newGenericNoTEID 240 7 1 []) [some (newIE 3 0 [5]), none] with | .panic => true | _ => false) = true := by
  decide +kernel

end Verif.V2

namespace Verif.V1
open Res Spec Msg

theorem generic_fields (t : UInt8) (ies : List (Option TLV.IE)) :
    newFields ieOps (genericSchema t) ies = upd Fields.empty 0 (ies.filterMap id) := by
  have := foldl_app (ies.filterMap id) (Fields.empty (ι := TLV.IE))
  simpa [newFields, classify, genericSchema, sel, Fields.empty] using this

/-- **C81** GTPv1: adding elements later is the same as giving them to the constructor. -/
theorem C81_v1_build (t : UInt8) (teid : UInt32) (seq : UInt16) (xs ys : List (Option TLV.IE)) :
    addIE (newMessage (genericSchema t) teid seq xs) ys = newMessage (genericSchema t) teid seq (xs ++ ys) := by
  unfold addIE newMessage
  rw [generic_fields, generic_fields, List.filterMap_append]
  have e : upd (upd Fields.empty 0 (xs.filterMap id)) 0 (upd Fields.empty 0 (xs.filterMap id) 0 ++ ys.filterMap id) =
      upd (Fields.empty (ι := TLV.IE)) 0 (xs.filterMap id ++ ys.filterMap id) := by
    funext k; by_cases h : k = 0 <;> simp [upd, h]
  simp only [setLength, e]
  rfl

/-- **C81** GTPv1: a received message of a type without a struct of its own, elements added, is sent on with its former elements
followed by the new ones, and nothing else changed. -/
theorem C81_v1_received (b : Bytes) (m : Message) (h : parseMsg b = ok (.msg m)) (ht : ∀ s ∈ Tab.all, s.typ ≠ m.hdr.typ)
    (xs : List (Option TLV.IE)) (hw : ∀ x ∈ m.fields 0 ++ xs.filterMap id, okIE x)
    (hmax : Msg.marshalLen hdrOps ieOps (addIE m xs) < 65536) :
    (addIE m xs).fields 0 = m.fields 0 ++ xs.filterMap id ∧ LengthRight (addIE m xs) ∧
      Delivers (addIE m xs) (upd m.fields 0 (m.fields 0 ++ xs.filterMap id)) := by
  obtain ⟨t, ht', ht255, hum⟩ := parseMsg_msg h
  obtain ⟨hp, hs, hf⟩ := unmarshal_ok hum
  have htyp : m.hdr.typ = t := by
    obtain ⟨f1, _, _, f4, _, _, _, _, f9, _⟩ := C22_header_faithful b m.hdr hp
    unfold idx at ht'
    rw [f9] at ht'
    simpa using ht'
  have hsch : m.schema = genericSchema t := by
    rcases schemaOf_cases t with ⟨h1, h2⟩ | ⟨h1, _⟩
    · exact absurd (h2.trans htyp.symm) (ht _ h1)
    · rw [hs, h1]
  have hm := Made.received b m h (by rw [hsch]; rfl)
  have hother : ∀ f, f ≠ 0 → m.fields f = [] := by
    intro f hf'
    rcases hf with ⟨_, _, hF⟩ | ⟨ys, _, hF⟩
    · rw [hF]; rfl
    · rw [hF, ← hs, hsch]
      have := foldl_app ys (Fields.empty (ι := TLV.IE))
      have e : classify ieOps (genericSchema t).unRules (genericSchema t).unDefault ys =
          upd Fields.empty 0 (Fields.empty 0 ++ ys) := this
      rw [e, upd_ne _ _ hf']; rfl
  have hfit : Fits ieOps m.schema (upd m.fields 0 (m.fields 0 ++ xs.filterMap id)) := by
    apply fits_list
    · rw [hsch]; rfl
    · rw [hsch]; rfl
    · rw [hsch]; rfl
    · intro f hf
      rw [upd_ne _ _ hf, hother f hf]
  have hok : ∀ f, ∀ x ∈ upd m.fields 0 (m.fields 0 ++ xs.filterMap id) f, okIE x := by
    intro f x hx
    by_cases hf : f = 0
    · subst hf; rw [upd_same] at hx; exact hw x hx
    · rw [upd_ne _ _ hf, hother f hf] at hx; cases hx
  refine ⟨?_, ?_, ?_⟩
  · show upd m.fields 0 (m.fields 0 ++ xs.filterMap id) 0 = _
    rw [upd_same]
  · refine C80_v1_partial { m with fields := upd m.fields 0 (m.fields 0 ++ xs.filterMap id) } (.assigned m hm 0 _)
      (fun f x hx => ieLaws.wf_sz x (hok f x hx)) hfit.one ?_
    have : Msg.marshalLen hdrOps ieOps { m with fields := upd m.fields 0 (m.fields 0 ++ xs.filterMap id) } =
      Msg.marshalLen hdrOps ieOps (addIE m xs) := rfl
    omega
  · exact C77_v1_partial _ (.resized _ (.assigned m hm 0 _)) hok hfit hmax

end Verif.V1

namespace Verif.V0
open Res Spec Msg

theorem generic_fields (t : UInt8) (ies : List (Option TLV.IE)) :
    newFields ieOps (genericSchema t) ies = upd Fields.empty 0 (ies.filterMap id) := by
  have := foldl_app (ies.filterMap id) (Fields.empty (ι := TLV.IE))
  simpa [newFields, classify, genericSchema, sel, Fields.empty] using this

/-- **C81** GTPv0: adding elements later is the same as giving them to the constructor. -/
theorem C81_v0_build (t : UInt8) (seq label : UInt16) (tid : UInt64) (xs ys : List (Option TLV.IE)) :
    addIE (newMessage (genericSchema t) seq label tid xs) ys = newMessage (genericSchema t) seq label tid (xs ++ ys) := by
  unfold addIE newMessage
  rw [generic_fields, generic_fields, List.filterMap_append]
  have e : upd (upd Fields.empty 0 (xs.filterMap id)) 0 (upd Fields.empty 0 (xs.filterMap id) 0 ++ ys.filterMap id) =
      upd (Fields.empty (ι := TLV.IE)) 0 (xs.filterMap id ++ ys.filterMap id) := by
    funext k; by_cases h : k = 0 <;> simp [upd, h]
  simp only [setLength, e]
  rfl

/-- **C81** GTPv0: a received message of a type without a struct of its own, elements added, is sent on with its former elements
followed by the new ones, and nothing else changed. -/
theorem C81_v0_received (b : Bytes) (m : Message) (h : parseMsg b = ok (.msg m)) (ht : ∀ s ∈ Tab.all, s.typ ≠ m.hdr.typ)
    (xs : List (Option TLV.IE)) (hw : ∀ x ∈ m.fields 0 ++ xs.filterMap id, okIE x)
    (hmax : Msg.marshalLen hdrOps ieOps (addIE m xs) < 65536) :
    (addIE m xs).fields 0 = m.fields 0 ++ xs.filterMap id ∧ LengthRight (addIE m xs) ∧
      Delivers (addIE m xs) (upd m.fields 0 (m.fields 0 ++ xs.filterMap id)) := by
  obtain ⟨t, ht', ht255, hum⟩ := parseMsg_msg h
  obtain ⟨hp, hs, hf⟩ := unmarshal_ok hum
  have htyp : m.hdr.typ = t := by
    obtain ⟨_, _, _, h4, _⟩ := C26_faithful b m.hdr hp
    unfold idx at ht'
    rw [h4] at ht'
    simpa using ht'
  have hsch : m.schema = genericSchema t := by
    rcases schemaOf_cases t with ⟨h1, h2⟩ | ⟨h1, _⟩
    · exact absurd (h2.trans htyp.symm) (ht _ h1)
    · rw [hs, h1]
  have hm := Made.received b m h (by rw [hsch]; rfl)
  have hother : ∀ f, f ≠ 0 → m.fields f = [] := by
    intro f hf'
    rcases hf with ⟨_, _, hF⟩ | ⟨ys, _, hF⟩
    · rw [hF]; rfl
    · rw [hF, ← hs, hsch]
      have := foldl_app ys (Fields.empty (ι := TLV.IE))
      have e : classify ieOps (genericSchema t).unRules (genericSchema t).unDefault ys =
          upd Fields.empty 0 (Fields.empty 0 ++ ys) := this
      rw [e, upd_ne _ _ hf']; rfl
  have hfit : Fits ieOps m.schema (upd m.fields 0 (m.fields 0 ++ xs.filterMap id)) := by
    apply fits_list
    · rw [hsch]; rfl
    · rw [hsch]; rfl
    · rw [hsch]; rfl
    · intro f hf
      rw [upd_ne _ _ hf, hother f hf]
  have hok : ∀ f, ∀ x ∈ upd m.fields 0 (m.fields 0 ++ xs.filterMap id) f, okIE x := by
    intro f x hx
    by_cases hf : f = 0
    · subst hf; rw [upd_same] at hx; exact hw x hx
    · rw [upd_ne _ _ hf, hother f hf] at hx; cases hx
  refine ⟨?_, ?_, ?_⟩
  · show upd m.fields 0 (m.fields 0 ++ xs.filterMap id) 0 = _
    rw [upd_same]
  · refine C80_v0_partial { m with fields := upd m.fields 0 (m.fields 0 ++ xs.filterMap id) } (.assigned m hm 0 _)
      (fun f x hx => ieLaws.wf_sz x (hok f x hx)) hfit.one ?_
    have : Msg.marshalLen hdrOps ieOps { m with fields := upd m.fields 0 (m.fields 0 ++ xs.filterMap id) } =
      Msg.marshalLen hdrOps ieOps (addIE m xs) := rfl
    omega
  · exact C77_v0_partial _ (.resized _ (.assigned m hm 0 _)) hok hfit hmax

/-- **C27** Decapsulate agrees with reading the header: the payload for a T-PDU, nothing (and no error) for messages of other types. -/
theorem C27_decapsulate_faithful (b : Bytes) (r : Option Bytes) (h : decapsulate b = ok r) :
    (b[1]? = some 255 ∧ r = some (b.drop 20)) ∨ (b[1]? ≠ some 255 ∧ 20 ≤ b.length ∧ r = none) := by
  unfold decapsulate at h
  rw [bind_eq_ok] at h
  obtain ⟨h0, hp, h⟩ := h
  obtain ⟨h20, hpay, _, ht, _⟩ := C26_faithful b h0 hp
  split at h
  · rename_i hne
    simp only [ok.injEq] at h
    exact Or.inr ⟨by rw [ht]; simpa using hne, h20, h.symm⟩
  · rename_i he
    simp only [ok.injEq] at h
    exact Or.inl ⟨by rw [ht]; simpa using he, by rw [← h, hpay]⟩

/-- **C27** Decapsulate of what a T-PDU is serialised to is its payload.
Partial: like parsing, up to 65515 octets. -/
theorem C27_decapsulate_partial (seq label : UInt16) (tid : UInt64) (p : Bytes) (hp : p.length ≤ 65515) :
    ∃ h' b, tpduMarshal (newTPDU seq label tid p) = ok (h', b) ∧ decapsulate b = ok (some p) := by
  have e : tpduMarshal (newTPDU seq label tid p)
      = ((newTPDU seq label tid p).marshal >>= fun b => ok (newTPDU seq label tid p, b)) := rfl
  refine ⟨newTPDU seq label tid p, encH (newTPDU seq label tid p), ?_, ?_⟩
  · rw [e, Header.marshal_eq, bind_ok]
  · have h : Header.parse (encH (newTPDU seq label tid p)) = ok (newTPDU seq label tid p) := parse_done (newTPDU seq label tid p) rfl hp
    unfold decapsulate
    rw [h, bind_ok]
    rfl

/-- **C27** Decapsulate returns for all octets a datagram can hold. -/
theorem C27_decapsulate_total_partial (b : Bytes) (hb : b.length < 65536) : Returns (decapsulate b) := by
  have := (C27_total_partial b hb).1
  unfold decapsulate
  cases h : Header.parse b with
  | ok h0 => rw [bind_ok]; split <;> simp [Returns]
  | err e => simp [Returns]
  | panic => rw [h] at this; simp [Returns] at this
  | diverge => rw [h] at this; simp [Returns] at this

example : decapsulate [0x1e, 255, 0, 2, 0, 1, 0, 0, 0xff, 0xff, 0xff, 0xff, 0, 0, 0, 0, 0, 0, 0, 9, 0xca, 0xfe] = ok (some [0xca, 0xfe]) ∧
    decapsulate [0x1e, 1, 0, 2, 0, 1, 0, 0, 0xff, 0xff, 0xff, 0xff, 0, 0, 0, 0, 0, 0, 0, 9, 0xca, 0xfe] = ok none := by
  decide +kernel

/-- a received message of the unassigned type 99 with a cause gets an address -/
example : (addIE { schema := genericSchema 99, hdr := Header.new 0x1e 99 1 2 3 [1, 128], fields := upd Fields.empty 0 [exCause] }
    [some exAddr, none]).hdr.length = 7 ∧
    (bytesOf (addIE { schema := genericSchema 99, hdr := Header.new 0x1e 99 1 2 3 [1, 128], fields := upd Fields.empty 0 [exCause] }
    [some exAddr, none])) = ok [0x1e, 99, 0, 7, 0, 1, 0, 2, 0xff, 0xff, 0xff, 0xff, 0, 0, 0, 0, 0, 0, 0, 3, 1, 128, 128, 0, 2, 0xf1, 0x21] := by
  decide +kernel

end Verif.V0

namespace Verif.V2
open Res Spec Msg
/-! ### cases that meet the hypotheses -/

example := C81_v2_received (g := defaultGrouped) [0x48, 240, 0, 13, 0, 0, 0, 7, 0, 0, 1, 0, 73, 0, 1, 0, 5] _ rfl (by decide) [newIE 3 0 [5]]
  (by decide) (by decide +kernel) (by decide +kernel)
example := C81_v2_no_teid_partial (g := defaultGrouped) 240 (by decide) 7 1 (by decide) [newIE 3 0 [5]] (by decide) (by decide) (by decide)
end Verif.V2

namespace Verif.V1
open Res Spec Msg

example := C81_v1_received [0x32, 99, 0, 6, 0, 0, 0, 7, 0, 1, 0, 0, 14, 5] _ rfl (by decide +kernel) [some ⟨133, 4, [10, 0, 0, 1]⟩, none]
  (by decide) (by decide +kernel)
end Verif.V1

namespace Verif.V0
open Res Spec Msg

example := C81_v0_received [0x1e, 99, 0, 2, 0, 1, 0, 0, 0xff, 0xff, 0xff, 0xff, 0, 0, 0, 0, 0, 0, 0, 9, 14, 5] _ rfl (by decide +kernel)
  [some ⟨133, 4, [10, 0, 0, 1]⟩, none] (by decide) (by decide +kernel)
example := C27_decapsulate_faithful [0x1e, 255, 0, 2, 0, 1, 0, 0, 0xff, 0xff, 0xff, 0xff, 0, 0, 0, 0, 0, 0, 0, 9, 0xca, 0xfe] _ rfl
example := C27_decapsulate_partial 1 2 3 [0xca, 0xfe] (by decide)
example := C27_decapsulate_total_partial [0x1e, 255, 0, 2, 0, 1, 0, 0, 0xff, 0xff] (by decide)
end Verif.V0
