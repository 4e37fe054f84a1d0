import Verif.Props.Departures
import Verif.Props.V2Msg2
import Verif.Proofs.V1Msg
import Verif.Proofs.V0Msg
/-
C67: serialising into a buffer of the caller that is too small.  Length and capacity of the buffer are the same here.
-/
namespace Verif.Msg
open Res
variable {ι η : Type} {io : IEOps ι} {enc : ι → Bytes} {sz wf : ι → Prop} {ho : HdrOps η}

/-- MarshalTo of a message, for any buffer: the body is put together, then the header is written -/
theorem marshalTo_any (H : HdrLaws ho) (L : IELaws io enc sz wf) (m : Message η ι) (b : Bytes)
    (hl : m.schema.lensOK = true) (hc : Clobberless m.fields m.schema.order) (hs : ∀ f, ∀ x ∈ m.fields f, sz x)
    (hr : m.schema.reset = true ∨ ho.payload m.hdr = []) :
    marshalTo ho io m b =
      if m.schema.lenCheck = true ∧ b.length < ho.mlen (doneHdr ho m.hdr (body enc m.schema m.fields)) then
        err .tooShortMarshal
      else ho.mto (doneHdr ho m.hdr (body enc m.schema m.fields)) b >>= fun out =>
        ok ({ m with hdr := doneHdr ho m.hdr (body enc m.schema m.fields) }, out) := by
  unfold marshalTo
  have hlen := marshalLen_eq H L m hl hs
  have hcnd : (m.schema.lenCheck && decide ((b.length : Int) < marshalLen ho io m)) = true ↔
      m.schema.lenCheck = true ∧ b.length < ho.mlen (doneHdr ho m.hdr (body enc m.schema m.fields)) := by
    rw [hlen]; simp
  by_cases hcd : m.schema.lenCheck = true ∧ b.length < ho.mlen (doneHdr ho m.hdr (body enc m.schema m.fields))
  · rw [if_pos (hcnd.2 hcd), if_pos hcd]
  rw [if_neg (fun h => hcd (hcnd.1 h)), if_neg hcd]
  have hN : ∀ h : η, ho.payload h = [] → marshalLen ho io { m with hdr := h } - ho.mlen h = (bodyLen io m.schema m.fields : Int) := by
    intro h hp
    simp only [marshalLen, hp, List.length_nil]; omega
  have hw : writeFields io m.fields m.schema.order 0 (List.replicate (bodyLen io m.schema m.fields) 0)
      = ok (body enc m.schema m.fields) := by
    have := writeFields_eq L m.fields m.schema.order [] (List.replicate (bodyLen io m.schema m.fields) 0) hs hc
      (by rw [sum_emit _ hl]; simp)
    rw [sum_emit _ hl] at this
    simpa [body] using this
  by_cases hreset : m.schema.reset = true
  · simp only [hreset, if_true]
    rw [hN _ (H.pay _ _), if_neg (by omega)]
    simp only [Int.toNat_natCast]
    rw [hw]; simp only [bind_ok, H.setset]
    rfl
  · have hp : ho.payload m.hdr = [] := by rcases hr with h | h; exact absurd h hreset; exact h
    simp only [hreset, Bool.false_eq_true, if_false]
    have := hN m.hdr hp
    rw [show ({ m with hdr := m.hdr } : Message η ι) = m from rfl] at this
    rw [this, if_neg (by omega)]
    simp only [Int.toNat_natCast]
    rw [hw]; simp only [bind_ok]
    rfl

end Verif.Msg

namespace Verif.V2
open Res Msg
variable (g : UInt8 → Bool)

/-- outcome of a step that writes inside the buffer or panics -/
def Kept (n : Nat) (r : Res Bytes) : Prop := r = .panic ∨ ∃ b, r = ok b ∧ b.length = n

theorem kept_setAt (b : Bytes) (i : Nat) (x : UInt8) : Kept b.length (setAt b i x) := by
  unfold setAt; split
  · exact .inr ⟨_, rfl, by simp⟩
  · exact .inl rfl

theorem kept_copyAt (b : Bytes) (lo hi : Nat) (src : Bytes) : Kept b.length (copyAt b lo hi src) := by
  unfold copyAt; split
  · refine .inr ⟨_, rfl, ?_⟩
    simp only [List.length_append, List.length_take, List.length_drop]
    omega
  · exact .inl rfl

theorem panic_bind {n : Nat} {r : Res Bytes} (h : Kept n r) {f : Bytes → Res Bytes}
    (hf : ∀ b, b.length = n → f b = .panic) : (r >>= f) = .panic := by
  rcases h with rfl | ⟨b, rfl, hb⟩
  · rfl
  · exact hf b hb

/-- C67 fails for every GTPv2 header: a buffer that is too small makes the program panic. -/
theorem C67_v2_header_wrong (h : Header) (b : Bytes) (hb : b.length < h.marshalLen) : h.marshalTo b = .panic := by
  unfold Header.marshalTo
  refine panic_bind (kept_setAt _ _ _) fun b1 e1 => ?_
  refine panic_bind (e1 ▸ kept_setAt _ _ _) fun b2 e2 => ?_
  refine panic_bind (e2 ▸ kept_copyAt _ _ _ _) fun b3 e3 => ?_
  have last : ∀ (c : Bytes) (o : Nat), c.length = b.length →
      (copyAt c o (o + 3) (Utils.uint32To24 h.seq) >>= fun c => setAt c (o + 3) h.spare >>= fun c =>
        copyAt c (o + 4) h.marshalLen h.payload) = .panic := by
    intro c o hc
    refine panic_bind (hc ▸ kept_copyAt _ _ _ _) fun c1 e => ?_
    refine panic_bind (e ▸ kept_setAt _ _ _) fun c2 e' => ?_
    unfold copyAt
    rw [if_neg (by omega)]
  by_cases ht : h.hasTEID = true
  · rw [if_pos ht]
    rcases (e3 ▸ kept_copyAt b3 4 8 (be32 h.teid) : Kept b.length _) with e | ⟨c, e, hc⟩
    · rw [e]; rfl
    · rw [e]; simp only [bind_ok]; exact last c 8 hc
  · rw [if_neg ht]; simp only [bind_ok]; exact last b3 4 e3

theorem all_noCheck : ∀ s ∈ Tab.all, s.lenCheck = false := by decide +kernel

/-- C67 fails for every GTPv2 message, whatever its elements (single-valued fields holding at most one): a buffer smaller than
`MarshalLen` makes the program panic.  Create Session Request with both a private extension and additional elements is
left out, as in C16. -/
theorem C67_v2_message_wrong (m : Message) (hs : m.schema ∈ Tab.all)
    (hk : ∀ f, f ∉ m.schema.multi → (m.fields f).length ≤ 1)
    (hcsr : m.schema = Tab.createSessionRequest → m.fields 64 = [] ∨ m.fields 65 = []) (b : Bytes)
    (hb : (b.length : Int) < marshalLen hdrOps (ieOps g) m) : Msg.marshalTo hdrOps (ieOps g) m b = .panic := by
  have hc : Clobberless m.fields m.schema.order := by
    by_cases h3 : m.schema = Tab.createSessionRequest
    · rw [h3]; exact clobberless_csr _ (hk 64 (by rw [h3]; decide +kernel)) (hcsr h3)
    · exact clobberless_of_advOK _ (advOK_of_ne _ hs h3) _ hk
  have hl := all_lensOK _ hs
  rw [marshalTo_any hdrLaws (ieLaws g) m b hl hc (fun _ _ _ => trivial) (.inl (all_reset _ hs)),
    if_neg (by simp [all_noCheck _ hs])]
  rw [marshalLen_done g m hl] at hb
  have : hdrOps.mto (doneHdr hdrOps m.hdr (Msg.body (rawEnc g) m.schema m.fields)) b = .panic :=
    C67_v2_header_wrong _ b (by exact_mod_cast hb)
  rw [this]; rfl

example : Header.marshalTo (Header.new 0x48 1 0 1 []) (List.replicate 11 0) = .panic := by decide

end Verif.V2

namespace Verif.TLV
open Res

/-- C67: GTPv1 and GTPv0 elements are refused -/
theorem C67_v1_ie (c : Cfg) (i : IE) (b : Bytes) (h : b.length < i.marshalLen c) : i.marshalTo c b = err .tooShortMarshal := by
  unfold IE.marshalTo; rw [if_pos h]

/-- C67: what an element writes: the octets before the buffer's end are its own, except that a fixed-size element with a
value that is too short leaves what the buffer held -/
theorem C67_v1_ie_stale : (newIE v1 16 [1, 2]).marshalTo v1 [9, 9, 9, 9, 9, 9] = ok [16, 1, 2, 9, 9, 9] := by decide

end Verif.TLV

namespace Verif.V1
open Res Msg

/-- C67: GTPv1 extension headers, headers and T-PDUs are refused -/
theorem C67_v1_header :
    (∀ (e : Ext) (b : Bytes), b.length < e.marshalLen → e.marshalTo b = err .tooShortMarshal) ∧
    (∀ (h : Header) (b : Bytes), b.length < h.marshalLen → h.marshalTo b = err .tooShortMarshal) ∧
    (∀ (h : Header) (b : Bytes), b.length < h.marshalLen → tpduMarshalTo h b = err .tooShortMarshal) := by
  have hh : ∀ (h : Header) (b : Bytes), b.length < h.marshalLen → h.marshalTo b = err .tooShortMarshal :=
    fun h b hb => by unfold Header.marshalTo; rw [if_pos hb]
  refine ⟨fun e b h => by unfold Ext.marshalTo; rw [if_pos h], hh, fun h b hb => ?_⟩
  unfold tpduMarshalTo
  rw [if_pos hb]

/-- C67: every GTPv1 message a constructor returns is refused -/
theorem C67_v1_message (s : Schema) (hs : s ∈ Tab.all ∨ ∃ t, s = genericSchema t) (teid : UInt32) (seq : UInt16)
    (ies : List (Option TLV.IE)) (hw : ∀ x, some x ∈ ies → okIE x) (b : Bytes)
    (hb : (b.length : Int) < marshalLen hdrOps ieOps (newMessage s teid seq ies)) :
    Msg.marshalTo hdrOps ieOps (newMessage s teid seq ies) b = err .tooShortMarshal := by
  obtain ⟨hl, hu, hn, ha, _⟩ := schema_facts s hs
  have hsz : ∀ x, some x ∈ ies → TLV.sized TLV.Spec.v1 x := fun x hx => ieLaws.wf_sz x (hw x hx)
  have hstab := stable_new ieOps s hu (ies.filterMap id) (fun x _ => newSub_sound ieOps s hn x)
  rw [marshalTo_any hdrLaws ieLaws (newMessage s teid seq ies) b hl (clobberless_of_advOK s ha _ hstab.scalar)
    (classify_mem ieOps s.newRules s.newDefault _ _ (fun x hx => hsz x (by simpa using hx))) (.inr rfl)]
  rw [(done_newMessage s hs teid seq ies hsz).2.2] at hb
  have hb' : b.length < (done (newMessage s teid seq ies)).hdr.marshalLen := by exact_mod_cast hb
  split
  · rfl
  · have : hdrOps.mto (doneHdr hdrOps (newMessage s teid seq ies).hdr
        (body renc (newMessage s teid seq ies).schema (newMessage s teid seq ies).fields)) b = err .tooShortMarshal :=
      C67_v1_header.2.1 _ b hb'
    rw [this]; rfl

/-- C67: with only the S flag, the N-PDU number and next extension header octets are not written: a buffer used before keeps
two of its octets in the message (they have no meaning there). -/
theorem C67_v1_stale (x y : UInt8) :
    (Header.new 0x32 1 0 5 []).marshalTo [9, 9, 9, 9, 9, 9, 9, 9, 9, 9, x, y] = ok [0x32, 1, 0, 4, 0, 0, 0, 0, 0, 5, x, y] := by
  rfl

/-- an Echo Request into eleven octets -/
example : (match Msg.marshalTo hdrOps ieOps (newMessage Tab.echoRequest 0 5 []) (List.replicate 11 0) with
    | err .tooShortMarshal => true | _ => false) = true := by decide +kernel

end Verif.V1

namespace Verif.V0
open Res Msg

/-- C67: GTPv0 headers are refused -/
theorem C67_v0_header (h : Header) (b : Bytes) (hb : b.length < h.marshalLen) : h.marshalTo b = err .tooShortMarshal := by
  unfold Header.marshalTo; rw [if_pos hb]

/-- C67: every GTPv0 message a constructor returns is refused -/
theorem C67_v0_message (s : Schema) (hs : s ∈ Tab.all ∨ ∃ t, s = genericSchema t) (seq label : UInt16) (tid : UInt64)
    (ies : List (Option TLV.IE)) (hw : ∀ x, some x ∈ ies → okIE x) (b : Bytes)
    (hb : (b.length : Int) < marshalLen hdrOps ieOps (newMessage s seq label tid ies)) :
    Msg.marshalTo hdrOps ieOps (newMessage s seq label tid ies) b = err .tooShortMarshal := by
  obtain ⟨hl, hu, hn, ha⟩ := schema_facts s hs
  have hsz : ∀ x, some x ∈ ies → TLV.sized TLV.Spec.v0 x := fun x hx => ieLaws.wf_sz x (hw x hx)
  have hstab := stable_new ieOps s hu (ies.filterMap id) (fun x _ => newSub_sound ieOps s hn x)
  rw [marshalTo_any hdrLaws ieLaws (newMessage s seq label tid ies) b hl (clobberless_of_advOK s ha _ hstab.scalar)
    (classify_mem ieOps s.newRules s.newDefault _ _ (fun x hx => hsz x (by simpa using hx))) (.inr rfl)]
  rw [(done_newMessage s hs seq label tid ies hsz).2.2] at hb
  have hb' : b.length < (done (newMessage s seq label tid ies)).hdr.marshalLen := by exact_mod_cast hb
  split
  · rfl
  · have : hdrOps.mto (doneHdr hdrOps (newMessage s seq label tid ies).hdr
        (body renc (newMessage s seq label tid ies).schema (newMessage s seq label tid ies).fields)) b =
        err .tooShortMarshal := C67_v0_header _ b hb'
    rw [this]; rfl

end Verif.V0

/-! ### cases that meet the hypotheses -/
namespace Verif.V2

example := C67_v2_header_wrong (Header.new 0x48 1 0 1 []) (List.replicate 11 0) (by decide)
example := C67_v2_message_wrong (g := defaultGrouped) ⟨Tab.echoRequest, Header.new 0x40 1 0 0 [], fun f => if f = 0 then [.mk 3 1 0 [7] []] else []⟩
  (by simp [Tab.all]) (by intro f _; dsimp only; split <;> simp)
  (by intro h; exact absurd (congrArg Msg.Schema.typ h) (by decide)) (List.replicate 12 0) (by decide +kernel)

end Verif.V2
namespace Verif.TLV
example := C67_v1_ie v1 ⟨131, 3, [1, 2, 3]⟩ (List.replicate 5 0) (by decide)
end Verif.TLV
namespace Verif.V1
example := C67_v1_message Tab.echoResponse (.inl (by simp [Tab.all])) 0 5 [none, some ⟨14, 0, [7]⟩]
  (by intro x hx; simp at hx; subst hx; decide) (List.replicate 13 0) (by decide +kernel)
end Verif.V1
namespace Verif.V0
example := C67_v0_header (Header.new 0x1e 1 0x0102 0x0304 0x2143658709214305 [0xaa, 0xbb]) (List.replicate 21 0) (by decide)
example := C67_v0_message Tab.echoResponse (.inl (by simp [Tab.all])) 1 2 0x2143658709214305 [none, some ⟨14, 0, [7]⟩]
  (by intro x hx; simp at hx; subst hx; decide) (List.replicate 21 0) (by decide +kernel)
end Verif.V0
