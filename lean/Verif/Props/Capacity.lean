import Verif.Proofs.Capacity
import Verif.Props.Buffer
/-
C89: serialising writes nowhere but in the buffer it is given, also when the array goes on behind the buffer.
-/
namespace Verif.Cap
open Res Msg

/-- the call behaves as if the buffer had no spare capacity, `q` being what it does then: nothing outside the buffer changes,
whatever the outcome, the outcome is the same, and after a success the buffer holds the same octets -/
structure AsIf (s : Sl) (mem : Bytes) (r : Res Unit × Bytes) (q : Res Bytes) : Prop where
  size : r.2.length = mem.length
  outside : ∀ i, i < s.off ∨ s.off + s.len ≤ i → r.2[i]? = mem[i]?
  outcome : r.1 = fate q
  inside : ∀ b, q = ok b → s.view r.2 = b

theorem asIf_of_sim {s : Sl} {f : W Unit} {p : Bytes → Res Bytes} (h : Sim s f (fun b => lift (p b))) (mem : Bytes)
    (hm : s.off + s.len ≤ mem.length) : AsIf s mem (f mem) (p (s.view mem)) := by
  obtain ⟨h1, h2, h3, h4, h5, h6⟩ := h mem hm
  refine ⟨h1, h2, ?_, fun b e => (h3 () b (by simp [e, lift])).2⟩
  cases hp : p (s.view mem) with
  | ok b => exact (h3 () b (by simp [hp, lift])).1
  | err e => exact h4 e (by simp [hp, lift])
  | panic => exact h5 (by simp [hp, lift])
  | diverge => exact h6 (by simp [hp, lift])

/-- C89 for GTPv1: elements, extension headers, headers and T-PDUs, whatever they hold -/
theorem C89_v1 (s : Sl) (mem : Bytes) (hm : s.off + s.len ≤ mem.length) :
    (∀ i : TLV.IE, AsIf s mem (tlvIE TLV.v1 i s mem) (i.marshalTo TLV.v1 (s.view mem))) ∧
    (∀ e : V1.Ext, AsIf s mem (v1Ext e s mem) (e.marshalTo (s.view mem))) ∧
    (∀ h : V1.Header, AsIf s mem (v1Header h s mem) (h.marshalTo (s.view mem))) ∧
    (∀ h : V1.Header, AsIf s mem (v1TPDU h s mem) (V1.tpduMarshalTo h (s.view mem) >>= fun r => ok r.2)) := by
  refine ⟨fun i => asIf_of_sim (sim_tlvIE _ sound_v1 i s) mem hm, fun e => asIf_of_sim (sim_v1Ext e s) mem hm,
    fun h => asIf_of_sim (sim_v1Header h s) mem hm, fun h => ?_⟩
  refine asIf_of_sim (p := fun b => V1.tpduMarshalTo h b >>= fun r => ok r.2) ?_ mem hm
  unfold v1TPDU V1.tpduMarshalTo
  by_cases hl : s.len < h.marshalLen
  · rw [if_pos hl]
    exact sim_congr (sim_fail s .tooShortMarshal) fun b hb => by rw [if_pos (by omega)]; rfl
  rw [if_neg hl]
  refine sim_congr (sim_v1Header h.setLength s) fun b hb => ?_
  rw [if_neg (by omega)]
  unfold lift
  cases h.setLength.marshalTo b <;> rfl

/-- C89 for GTPv0: elements, headers and T-PDUs, whatever they hold -/
theorem C89_v0 (s : Sl) (mem : Bytes) (hm : s.off + s.len ≤ mem.length) :
    (∀ i : TLV.IE, AsIf s mem (tlvIE TLV.v0 i s mem) (i.marshalTo TLV.v0 (s.view mem))) ∧
    (∀ h : V0.Header, AsIf s mem (v0Header h s mem) (h.marshalTo (s.view mem))) ∧
    (∀ h : V0.Header, AsIf s mem (v0TPDU h s mem) (h.setLength.marshalTo (s.view mem))) := by
  refine ⟨fun i => asIf_of_sim (sim_tlvIE _ sound_v0 i s) mem hm, fun h => asIf_of_sim (sim_v0Header h s) mem hm, fun h => ?_⟩
  refine asIf_of_sim (p := fun b => h.setLength.marshalTo b) ?_ mem hm
  unfold v0TPDU
  by_cases hl : s.len < h.marshalLen
  · rw [if_pos hl]
    refine sim_congr (sim_fail s .tooShortMarshal) fun b hb => ?_
    rw [V0.C67_v0_header _ _ (by rw [hb]; exact hl)]; rfl
  · rw [if_neg hl]; exact sim_v0Header _ s

/-- C89 for GTPv2 elements of any depth, whatever they hold and whichever types are grouped -/
theorem C89_v2_ie (g : UInt8 → Bool) (x : V2.IE) (s : Sl) (mem : Bytes) (hm : s.off + s.len ≤ mem.length) :
    AsIf s mem (v2IE g x s mem) (x.marshalTo g (s.view mem)) := asIf_of_sim (sim_v2IE g x s) mem hm

theorem sim_message {η ι : Type} (ho : HdrOps η) (io : IEOps ι) (hdr : η → Sl → W Unit) (m : Message η ι) (s : Sl)
    (hh : ∀ h, Sim s (hdr h s) (fun b => lift (ho.mto h b))) :
    Sim s (message ho io hdr m s) (fun b => lift (Msg.marshalTo ho io m b >>= fun r => ok r.2)) := by
  unfold message Msg.marshalTo
  by_cases hl : (m.schema.lenCheck && decide ((s.len : Int) < Msg.marshalLen ho io m)) = true
  · rw [if_pos hl]
    exact sim_congr (sim_fail s .tooShortMarshal) fun b hb => by rw [hb, if_pos hl]; rfl
  rw [if_neg hl]
  generalize hm' : (if m.schema.reset then { m with hdr := ho.setPayload m.hdr [] } else m : Message η ι) = m'
  refine sim_congr (p := fun b => lift ((if Msg.marshalLen ho io m' - ho.mlen m'.hdr < 0 then .panic else
    writeFields io m'.fields m'.schema.order 0 (List.replicate (Msg.marshalLen ho io m' - ho.mlen m'.hdr).toNat 0) >>= fun p =>
    ho.mto (ho.setLength (ho.setPayload m'.hdr p)) b >>= fun b =>
    ok (({ m' with hdr := ho.setLength (ho.setPayload m'.hdr p) } : Message η ι), b)) >>= fun r => ok r.2)) ?_
    fun b hb => by rw [hb, if_neg hl]
  dsimp only
  by_cases hn : Msg.marshalLen ho io m' - ho.mlen m'.hdr < 0
  · simp only [hn, if_true]; exact sim_crash s
  simp only [hn, if_false]
  cases hw : writeFields io m'.fields m'.schema.order 0 (List.replicate (Msg.marshalLen ho io m' - ho.mlen m'.hdr).toNat 0) with
  | ok p =>
    refine sim_of_eq (f' := hdr (ho.setLength (ho.setPayload m'.hdr p)) s) (fun _ _ => rfl) ?_
    refine sim_congr (hh _) fun b _ => ?_
    simp only [bind_ok, lift]
    cases ho.mto (ho.setLength (ho.setPayload m'.hdr p)) b <;> rfl
  | err e => exact sim_fail s e
  | panic => exact sim_crash s
  | diverge => exact fun mem _ => ⟨rfl, fun _ _ => rfl, by simp [lift], by simp [lift], by simp [lift], fun _ => rfl⟩

/-- C89 for the messages of GTPv1 and GTPv0, of every type and whatever they hold -/
theorem C89_message (s : Sl) (mem : Bytes) (hm : s.off + s.len ≤ mem.length) :
    (∀ m : V1.Message, AsIf s mem (message V1.hdrOps V1.ieOps v1Header m s mem)
      (Msg.marshalTo V1.hdrOps V1.ieOps m (s.view mem) >>= fun r => ok r.2)) ∧
    (∀ m : V0.Message, AsIf s mem (message V0.hdrOps V0.ieOps v0Header m s mem)
      (Msg.marshalTo V0.hdrOps V0.ieOps m (s.view mem) >>= fun r => ok r.2)) :=
  ⟨fun m => asIf_of_sim (sim_message _ _ _ m s fun h => sim_v1Header h s) mem hm,
   fun m => asIf_of_sim (sim_message _ _ _ m s fun h => sim_v0Header h s) mem hm⟩

/-- C89: where GTPv1 and GTPv0 refuse a buffer for its length, not even the buffer is touched, whatever lies behind it -/
theorem C89_untouched (s : Sl) (mem : Bytes) :
    (∀ (c : TLV.Cfg) (i : TLV.IE), s.len < i.marshalLen c → tlvIE c i s mem = (err .tooShortMarshal, mem)) ∧
    (∀ e : V1.Ext, s.len < e.marshalLen → v1Ext e s mem = (err .tooShortMarshal, mem)) ∧
    (∀ h : V1.Header, s.len < h.marshalLen → v1Header h s mem = (err .tooShortMarshal, mem)) ∧
    (∀ h : V1.Header, s.len < h.marshalLen → v1TPDU h s mem = (err .tooShortMarshal, mem)) ∧
    (∀ h : V0.Header, s.len < h.marshalLen → v0Header h s mem = (err .tooShortMarshal, mem)) ∧
    (∀ h : V0.Header, s.len < h.marshalLen → v0TPDU h s mem = (err .tooShortMarshal, mem)) := by
  refine ⟨fun c i h => ?_, fun e h => ?_, fun h hl => ?_, fun h hl => ?_, fun h hl => ?_, fun h hl => ?_⟩
  · unfold tlvIE; rw [if_pos h]; rfl
  · unfold v1Ext; rw [if_pos h]; rfl
  · unfold v1Header; rw [if_pos hl]; rfl
  · unfold v1TPDU; rw [if_pos hl]; rfl
  · unfold v0Header; rw [if_pos hl]; rfl
  · unfold v0TPDU; rw [if_pos hl]; rfl

/-! ### GTPv2 headers and messages -/

/-- octets of a GTPv2 header before its payload -/
def fixed (h : V2.Header) : Nat := if h.hasTEID then 12 else 8

/-- `f` succeeds if and only if `c`, and panics otherwise, on memories of `n` octets -/
def Step (n : Nat) (f : W Unit) (c : Prop) : Prop :=
  ∀ m, m.length = n → (f m).2.length = n ∧ (c → (f m).1 = ok ()) ∧ (¬ c → (f m).1 = .panic)

theorem step_put (n : Nat) (s : Sl) (i : Nat) (x : UInt8) : Step n (put s i x) (i < s.len) := by
  intro m hm
  unfold put
  by_cases h : i < s.len
  · rw [if_pos h]; exact ⟨by simp [hm], fun _ => rfl, fun h' => absurd h h'⟩
  · rw [if_neg h]; exact ⟨hm, fun h' => absurd h' h, fun _ => rfl⟩

theorem step_cp (n : Nat) (s : Sl) (lo hi : Nat) (src : Bytes) : Step n (cp s lo hi src) (lo ≤ hi ∧ s.off + hi ≤ n) := by
  intro m hm
  have e : cp s lo hi src m = if lo ≤ hi ∧ s.off + hi ≤ m.length then fill ⟨s.off + lo, hi - lo⟩ src m else (.panic, m) := by
    show W.bind (sub s lo hi) (fun d => fill d src) m = _
    unfold W.bind sub
    by_cases h : lo ≤ hi ∧ s.off + hi ≤ m.length
    · rw [if_pos h, if_pos h]
    · rw [if_neg h, if_neg h]
  rw [e, hm]
  by_cases h : lo ≤ hi ∧ s.off + hi ≤ n
  · rw [if_pos h]
    refine ⟨?_, fun _ => rfl, fun h' => absurd h h'⟩
    unfold fill; simp; omega
  · rw [if_neg h]; exact ⟨hm, fun h' => absurd h' h, fun _ => rfl⟩

theorem step_seq {n : Nat} {f k : W Unit} {c d : Prop} (hf : Step n f c) (hk : Step n k d) : Step n (f >>= fun _ => k) (c ∧ d) := by
  intro m hm
  obtain ⟨h1, h2, h3⟩ := hf m hm
  obtain ⟨h4, h5, h6⟩ := hk (f m).2 h1
  show (W.bind f (fun _ => k) m).2.length = n ∧ _ ∧ _
  by_cases hc : c
  · have e : W.bind f (fun _ => k) m = k (f m).2 := by
      unfold W.bind
      rw [show f m = (ok (), (f m).2) by rw [← h2 hc]]
    rw [show (f >>= fun _ => k) m = W.bind f (fun _ => k) m from rfl, e]
    exact ⟨h4, fun h => h5 h.2, fun h => h6 fun hd => h ⟨hc, hd⟩⟩
  · have e : W.bind f (fun _ => k) m = (.panic, (f m).2) := by
      unfold W.bind
      rw [show f m = (.panic, (f m).2) by rw [← h3 hc]]
    rw [show (f >>= fun _ => k) m = W.bind f (fun _ => k) m from rfl, e]
    exact ⟨h1, fun h => absurd h.1 hc, fun _ => rfl⟩

theorem assoc {α β γ : Type} (f : W α) (k : α → W β) (l : β → W γ) : (f >>= k >>= l) = (f >>= fun a => k a >>= l) := by
  funext m
  show W.bind (W.bind f k) l m = W.bind f (fun a => W.bind (k a) l) m
  unfold W.bind
  rcases f m with ⟨r, m'⟩
  cases r <;> rfl

/-- the statements of the header's `MarshalTo` in a row -/
theorem v2Header_teid (h : V2.Header) (s : Sl) (hd : h.hasTEID = true) : v2Header h s = (put s 0 h.flags >>= fun _ =>
    put s 1 h.typ >>= fun _ => cp s 2 4 (be16 h.length) >>= fun _ => cp s 4 8 (be32 h.teid) >>= fun _ =>
    cp s 8 11 (Utils.uint32To24 h.seq) >>= fun _ => put s 11 h.spare >>= fun _ => cp s 12 h.marshalLen h.payload) := by
  unfold v2Header
  rw [if_pos hd, assoc]
  rfl

theorem v2Header_plain (h : V2.Header) (s : Sl) (hd : ¬ h.hasTEID = true) : v2Header h s = (put s 0 h.flags >>= fun _ =>
    put s 1 h.typ >>= fun _ => cp s 2 4 (be16 h.length) >>= fun _ =>
    cp s 4 7 (Utils.uint32To24 h.seq) >>= fun _ => put s 7 h.spare >>= fun _ => cp s 8 h.marshalLen h.payload) := by
  unfold v2Header
  rw [if_neg hd]
  rfl

theorem fixed_le (h : V2.Header) : fixed h ≤ h.marshalLen := by
  unfold fixed V2.Header.marshalLen; split <;> omega

/-- C89 fails for every GTPv2 header.  Whether `MarshalTo` succeeds does not depend on the length of the buffer, apart from the
header's first eight or twelve octets, but on its capacity; otherwise it panics. -/
theorem C89_v2_header_outcome (h : V2.Header) (s : Sl) (mem : Bytes) :
    (fixed h ≤ s.len ∧ s.off + h.marshalLen ≤ mem.length → (v2Header h s mem).1 = ok ()) ∧
    (¬ (fixed h ≤ s.len ∧ s.off + h.marshalLen ≤ mem.length) → (v2Header h s mem).1 = .panic) := by
  have hfl := fixed_le h
  by_cases hd : h.hasTEID = true
  · have st := step_seq (step_put mem.length s 0 h.flags) <| step_seq (step_put _ s 1 h.typ) <| step_seq (step_cp _ s 2 4 (be16 h.length)) <|
      step_seq (step_cp _ s 4 8 (be32 h.teid)) <| step_seq (step_cp _ s 8 11 (Utils.uint32To24 h.seq)) <|
      step_seq (step_put _ s 11 h.spare) (step_cp _ s 12 h.marshalLen h.payload)
    obtain ⟨_, h1, h2⟩ := st mem rfl
    rw [v2Header_teid h s hd]
    simp only [fixed, hd, if_true] at hfl ⊢
    exact ⟨fun c => h1 (by omega), fun c => h2 (by omega)⟩
  · have st := step_seq (step_put mem.length s 0 h.flags) <| step_seq (step_put _ s 1 h.typ) <| step_seq (step_cp _ s 2 4 (be16 h.length)) <|
      step_seq (step_cp _ s 4 7 (Utils.uint32To24 h.seq)) <|
      step_seq (step_put _ s 7 h.spare) (step_cp _ s 8 h.marshalLen h.payload)
    obtain ⟨_, h1, h2⟩ := st mem rfl
    rw [v2Header_plain h s hd]
    simp only [fixed, hd, if_false] at hfl ⊢
    simp at hfl ⊢
    exact ⟨fun c d => h1 (by omega), fun c => h2 (by omega)⟩

theorem put_congr {s s' : Sl} (i : Nat) (x : UInt8) (ho : s.off = s'.off) (h : i < s.len) (h' : i < s'.len) : put s i x = put s' i x := by
  funext m; unfold put; rw [if_pos h, if_pos h', ho]

theorem cp_congr {s s' : Sl} (lo hi : Nat) (src : Bytes) (ho : s.off = s'.off) : cp s lo hi src = cp s' lo hi src := by
  have : sub s lo hi = sub s' lo hi := by funext m; unfold sub; rw [ho]
  unfold cp; rw [this]

/-- the length of the buffer is not looked at but for the first octets -/
theorem v2Header_congr (h : V2.Header) {s s' : Sl} (ho : s.off = s'.off) (hl : fixed h ≤ s.len) (hl' : fixed h ≤ s'.len) :
    v2Header h s = v2Header h s' := by
  unfold fixed at hl hl'
  by_cases hd : h.hasTEID = true
  · rw [if_pos hd] at hl hl'
    rw [v2Header_teid h s hd, v2Header_teid h s' hd, put_congr 0 _ ho (by omega) (by omega), put_congr 1 _ ho (by omega) (by omega),
      put_congr 11 _ ho (by omega) (by omega)]
    simp only [cp_congr _ _ _ ho]
  · rw [if_neg hd] at hl hl'
    rw [v2Header_plain h s hd, v2Header_plain h s' hd, put_congr 0 _ ho (by omega) (by omega), put_congr 1 _ ho (by omega) (by omega),
      put_congr 7 _ ho (by omega) (by omega)]
    simp only [cp_congr _ _ _ ho]

theorem sim_v2Header (h : V2.Header) (s : Sl) (hl : h.marshalLen ≤ s.len) : Sim s (v2Header h s) (fun b => lift (h.marshalTo b)) := by
  have hf := fixed_le h
  unfold fixed at hf
  by_cases hd : h.hasTEID = true
  · rw [if_pos hd] at hf
    rw [v2Header_teid h s hd]
    refine sim_congr (sim_seq (sim_put _ _ _) <| sim_seq (sim_put _ _ _) <| sim_seq (sim_cp _ _ _ _ (by omega)) <|
      sim_seq (sim_cp _ _ _ _ (by omega)) <| sim_seq (sim_cp _ _ _ _ (by omega)) <| sim_seq (sim_put _ _ _) (sim_cp _ _ _ _ hl))
      fun b _ => ?_
    unfold V2.Header.marshalTo
    simp only [hd, if_true]
    congr 1
    cases setAt b 0 h.flags <;> try rfl
    rename_i b1
    simp only [bind_ok]
    cases setAt b1 1 h.typ <;> try rfl
    rename_i b2
    simp only [bind_ok]
    cases copyAt b2 2 4 (be16 h.length) <;> try rfl
    rename_i b3
    simp only [bind_ok]
    cases copyAt b3 4 8 (be32 h.teid) <;> rfl
  · rw [if_neg hd] at hf
    rw [v2Header_plain h s hd]
    refine sim_congr (sim_seq (sim_put _ _ _) <| sim_seq (sim_put _ _ _) <| sim_seq (sim_cp _ _ _ _ (by omega)) <|
      sim_seq (sim_cp _ _ _ _ (by omega)) <| sim_seq (sim_put _ _ _) (sim_cp _ _ _ _ hl))
      fun b _ => ?_
    unfold V2.Header.marshalTo
    simp only [hd, Bool.false_eq_true, if_false, bind_ok]

/-- the memory after writing `o` through a slice at `off` -/
def over (mem : Bytes) (off : Nat) (o : Bytes) : Bytes := mem.take off ++ o ++ mem.drop (off + o.length)

/-- C89 fails for every GTPv2 header with a payload: given a buffer that is too small, in an array that is large enough,
`MarshalTo` reports success and puts the whole header at the buffer's place, over the octets behind the buffer. -/
theorem C89_v2_header (h : V2.Header) (s : Sl) (mem : Bytes) (hf : fixed h ≤ s.len) (hm : s.off + h.marshalLen ≤ mem.length) :
    v2Header h s mem = (ok (), over mem s.off (V2.Spec.encH h)) := by
  rw [v2Header_congr h (s := s) (s' := ⟨s.off, h.marshalLen⟩) rfl hf (fixed_le h)]
  have a := asIf_of_sim (sim_v2Header h ⟨s.off, h.marshalLen⟩ (Nat.le_refl _)) mem hm
  have hv : ((Sl.mk s.off h.marshalLen).view mem).length = h.marshalLen := view_length hm
  have e := V2.Header.marshalTo_eq h ((Sl.mk s.off h.marshalLen).view mem) (by rw [hv]; exact Nat.le_refl _)
  rw [List.drop_of_length_le (by rw [hv]; exact Nat.le_refl _), List.append_nil] at e
  rw [e] at a
  obtain ⟨h1, h2, h3, h4⟩ := a
  have h4 := h4 _ rfl
  have hle := V2.length_encH h
  refine Prod.ext h3 (List.ext_getElem? fun i => ?_)
  show (v2Header h ⟨s.off, h.marshalLen⟩ mem).2[i]? = (mem.take s.off ++ V2.Spec.encH h ++ mem.drop (s.off + (V2.Spec.encH h).length))[i]?
  have hto : (mem.take s.off).length = s.off := by simp; omega
  by_cases c1 : i < s.off
  · rw [h2 i (.inl c1), List.append_assoc, List.getElem?_append_left (by omega), List.getElem?_take, if_pos c1]
  · by_cases c2 : i < s.off + h.marshalLen
    · rw [List.append_assoc, List.getElem?_append_right (by omega), List.getElem?_append_left (by omega), hto, ← h4, view_get,
        if_pos (by show i - s.off < h.marshalLen; omega)]
      show _ = (v2Header h ⟨s.off, h.marshalLen⟩ mem).2[s.off + (i - s.off)]?
      congr 1; omega
    · rw [h2 i (.inr (by show s.off + h.marshalLen ≤ i; omega)), List.getElem?_append_right (by simp only [List.length_append, hto]; omega),
        List.getElem?_drop]
      congr 1
      simp only [List.length_append, hto]; omega

/-- C89 holds for GTPv2 headers if the buffer is large enough -/
theorem C89_v2_header_partial (h : V2.Header) (s : Sl) (mem : Bytes) (hm : s.off + s.len ≤ mem.length) (hl : h.marshalLen ≤ s.len) :
    AsIf s mem (v2Header h s mem) (h.marshalTo (s.view mem)) := asIf_of_sim (sim_v2Header h s hl) mem hm

variable (g : UInt8 → Bool)

/-- the body of a message is put together elsewhere, then the header is written -/
theorem v2_message_eq (m : V2.Message) (hs : m.schema ∈ V2.Tab.all)
    (hk : ∀ f, f ∉ m.schema.multi → (m.fields f).length ≤ 1)
    (hcsr : m.schema = V2.Tab.createSessionRequest → m.fields 64 = [] ∨ m.fields 65 = []) (s : Sl) (mem : Bytes) :
    message V2.hdrOps (V2.ieOps g) v2Header m s mem = v2Header (V2.done g m).hdr s mem := by
  have hc : Clobberless m.fields m.schema.order := by
    by_cases h3 : m.schema = V2.Tab.createSessionRequest
    · rw [h3]; exact V2.clobberless_csr _ (hk 64 (by rw [h3]; decide +kernel)) (hcsr h3)
    · exact clobberless_of_advOK _ (V2.advOK_of_ne _ hs h3) _ hk
  have hl := V2.all_lensOK _ hs
  have hw : writeFields (V2.ieOps g) m.fields m.schema.order 0 (List.replicate (bodyLen (V2.ieOps g) m.schema m.fields) 0)
      = ok (Msg.body (V2.rawEnc g) m.schema m.fields) := by
    have := writeFields_eq (V2.ieLaws g) m.fields m.schema.order [] (List.replicate (bodyLen (V2.ieOps g) m.schema m.fields) 0)
      (fun _ _ _ => trivial) hc (by rw [sum_emit _ hl]; simp)
    rw [sum_emit _ hl] at this
    simpa [Msg.body] using this
  unfold message
  rw [if_neg (by simp [V2.all_noCheck _ hs])]
  simp only [V2.all_reset _ hs, if_true]
  have hN : marshalLen V2.hdrOps (V2.ieOps g) { m with hdr := V2.hdrOps.setPayload m.hdr [] } - V2.hdrOps.mlen (V2.hdrOps.setPayload m.hdr [])
      = (bodyLen (V2.ieOps g) m.schema m.fields : Int) := by
    simp only [marshalLen, V2.hdrLaws.pay, List.length_nil]; omega
  rw [hN, if_neg (by omega)]
  simp only [Int.toNat_natCast]
  show W.bind _ _ mem = _
  unfold W.bind
  rw [hw]
  rfl

/-- C89 fails for every GTPv2 message (single-valued fields holding at most one element): a buffer smaller than `MarshalLen` makes
the program panic if the array ends before the message, and otherwise, from the header's first octets on, the message is reported
as written and lies over the octets behind the buffer.  Create Session Request with both a private extension and additional elements
is left out, as in C16. -/
theorem C89_v2_message (m : V2.Message) (hs : m.schema ∈ V2.Tab.all)
    (hk : ∀ f, f ∉ m.schema.multi → (m.fields f).length ≤ 1)
    (hcsr : m.schema = V2.Tab.createSessionRequest → m.fields 64 = [] ∨ m.fields 65 = []) (s : Sl) (mem : Bytes) :
    ∃ m' o, V2.marshalMsg g m = ok (m', o) ∧ (o.length : Int) = marshalLen V2.hdrOps (V2.ieOps g) m ∧
      (fixed m.hdr ≤ s.len ∧ s.off + o.length ≤ mem.length →
        message V2.hdrOps (V2.ieOps g) v2Header m s mem = (ok (), over mem s.off o)) ∧
      (¬ (fixed m.hdr ≤ s.len ∧ s.off + o.length ≤ mem.length) →
        (message V2.hdrOps (V2.ieOps g) v2Header m s mem).1 = .panic) := by
  have hc : Clobberless m.fields m.schema.order := by
    by_cases h3 : m.schema = V2.Tab.createSessionRequest
    · rw [h3]; exact V2.clobberless_csr _ (hk 64 (by rw [h3]; decide +kernel)) (hcsr h3)
    · exact clobberless_of_advOK _ (V2.advOK_of_ne _ hs h3) _ hk
  have hl := V2.all_lensOK _ hs
  have hx : fixed (V2.done g m).hdr = fixed m.hdr := rfl
  refine ⟨_, _, V2.marshalMsg_eq g m hl hc (V2.all_reset _ hs), ?_, fun h => ?_, fun h => ?_⟩
  · rw [V2.marshalLen_done g m hl, V2.length_encH]
  · rw [v2_message_eq g m hs hk hcsr]
    rw [V2.length_encH] at h
    exact C89_v2_header _ s mem (by rw [hx]; exact h.1) h.2
  · rw [v2_message_eq g m hs hk hcsr]
    rw [V2.length_encH] at h
    exact (C89_v2_header_outcome _ s mem).2 (by rw [hx]; exact h)

/-! ### examples -/

/-- a header with two octets of payload, in the first twelve octets of sixteen: success, and the octets 0xb0 and 0xb1 behind the
buffer are lost -/
example : v2Header (V2.Header.new 0x48 34 1 2 [0xa0, 0xa1]) ⟨0, 12⟩ [0, 0, 0, 0, 0, 0, 0, 0, 0, 0, 0, 0, 0xb0, 0xb1, 0xb2, 0xb3] =
    (ok (), [0x48, 34, 0, 10, 0, 0, 0, 1, 0, 0, 2, 0, 0xa0, 0xa1, 0xb2, 0xb3]) := by decide

/-- a buffer of two octets: a panic, after nine octets behind the buffer were overwritten -/
example : v2Header (V2.Header.new 0x48 34 1 2 []) ⟨0, 2⟩ (List.replicate 12 9) =
    (.panic, [0x48, 34, 0, 8, 0, 0, 0, 1, 0, 0, 2, 9]) := by decide

/-- a GTPv1 header in the same position -/
example : v1Header (V1.Header.new 0x30 255 1 0 [0xa0, 0xa1]) ⟨0, 8⟩ [0, 0, 0, 0, 0, 0, 0, 0, 0xb0, 0xb1] =
    (err .tooShortMarshal, [0, 0, 0, 0, 0, 0, 0, 0, 0xb0, 0xb1]) := by decide

/-- an element in the middle of an array -/
example : v2IE (fun _ => false) (.mk 73 1 0 [5] []) ⟨2, 5⟩ [1, 2, 0, 0, 0, 0, 0, 3, 4] = (ok (), [1, 2, 73, 0, 1, 0, 5, 3, 4]) := by decide

/-- a plain element that does not fit: an error, after the first four octets of the buffer were written -/
example : v2IE (fun _ => false) (.mk 73 1 0 [5] []) ⟨0, 4⟩ [0, 0, 0, 0, 7, 8] = (err .eof, [73, 0, 1, 0, 7, 8]) := by decide

/-- an Echo Request in the first eight octets of a larger array -/
example : (message V2.hdrOps (V2.ieOps V2.defaultGrouped) v2Header (V2.newMessage V2.defaultGrouped V2.Tab.echoRequest 0 1 [some (.mk 3 1 0 [7] [])])
    ⟨0, 8⟩ (List.replicate 15 9)) = (ok (), [0x40, 1, 0, 9, 0, 0, 1, 0, 3, 0, 1, 0, 7, 9, 9]) := by decide +kernel

end Verif.Cap

namespace Verif.Cap
open Res Msg
/-! ### cases that meet the hypotheses -/

example := C89_v1 ⟨2, 5⟩ [1, 2, 0, 0, 0, 0, 0, 3, 4] (by decide)
example := C89_v0 ⟨2, 5⟩ [1, 2, 0, 0, 0, 0, 0, 3, 4] (by decide)
example := C89_v2_ie (fun _ => false) (.mk 73 1 0 [5] []) ⟨2, 5⟩ [1, 2, 0, 0, 0, 0, 0, 3, 4] (by decide)
example := C89_message ⟨2, 5⟩ [1, 2, 0, 0, 0, 0, 0, 3, 4] (by decide)
example := C89_v2_header (V2.Header.new 0x48 34 1 2 [0xa0, 0xa1]) ⟨0, 12⟩ [0, 0, 0, 0, 0, 0, 0, 0, 0, 0, 0, 0, 0xb0, 0xb1, 0xb2, 0xb3]
  (by decide) (by decide)
example := C89_v2_header_partial (V2.Header.new 0x48 34 1 2 [0xa0, 0xa1]) ⟨1, 14⟩ (List.replicate 16 9) (by decide) (by decide)
example := C89_v2_message (g := V2.defaultGrouped) ⟨V2.Tab.deleteSessionRequest, V2.Header.new 0x48 36 7 1 [],
    fun f => if f = 1 then [.mk 73 1 0 [5] []] else []⟩
  (by simp [V2.Tab.all]) (by intro f _; dsimp only; split <;> simp) (by intro h; exact absurd (congrArg Schema.typ h) (by decide))
  ⟨0, 12⟩ (List.replicate 20 9)
end Verif.Cap
