import Verif.Props.Typed.Into
/-
Property theorem C79, second half: what the structures that do not refuse every buffer that is too small do with it.
-/
set_option linter.unusedSimpArgs false
namespace Verif
open Res

/-- `s` laid over the buffer `b`: the octets of `s` as far as there is room, behind them what the buffer held -/
def over (s b : Bytes) : Bytes := (s ++ b.drop s.length).take b.length

theorem over_length (s b : Bytes) : (over s b).length = b.length := by
  simp only [over, List.length_take, List.length_append, List.length_drop]; omega

theorem over_short {s b : Bytes} (h : b.length ≤ s.length) : over s b = s.take b.length := by
  rw [over, List.take_append_of_le_length h]

theorem over_fits {s b : Bytes} (h : s.length ≤ b.length) : over s b = s ++ b.drop s.length := by
  rw [over, List.take_of_length_le (by simp; omega)]

theorem over_append (h s b : Bytes) (hb : h.length ≤ b.length) : over (h ++ s) b = h ++ over s (b.drop h.length) := by
  simp only [over, List.append_assoc, List.length_append, List.drop_drop, List.length_drop]
  rw [List.take_append, List.take_of_length_le hb]

theorem copyFrom_over (pre z src : Bytes) : copyFrom (pre ++ z) pre.length src = ok (pre ++ over src z) := by
  rw [copyFrom, copyAt, if_pos (by simp)]
  simp only [List.length_append, Nat.add_sub_cancel_left, List.take_left, over, List.drop_append, ok.injEq, List.append_assoc,
    List.append_cancel_left_eq]
  by_cases h : src.length ≤ z.length
  · rw [Nat.min_eq_right h, List.take_of_length_le h, List.take_of_length_le (by simp; omega)]
    simp
  · rw [Nat.min_eq_left (by omega), List.take_append_of_le_length (by omega)]
    simp

end Verif

namespace Verif.V2
open Res Utils NetIP

/-! ### contents of any length at the end -/

/-- **C79** PPP: buffers of fewer than five octets are refused; any other gets the packet as far as there is room, without an
error. -/
theorem C79_ppp_short (p : PPP) (b : Bytes) :
    (b.length < 5 → Fails (p.marshalTo b)) ∧
    (5 ≤ b.length → p.marshalTo b = ok (over ([p.code, p.ident] ++ be16 p.len ++ p.payload) b)) := by
  constructor
  · intro hb
    simp only [PPP.marshalTo]; flr
  · intro hb
    rw [over_append _ _ _ (by simp; omega)]
    rw [← List.nil_append b]
    simp only [PPP.marshalTo]
    wr
    have := copyFrom_over ([] ++ [p.code] ++ [p.ident] ++ be16 p.len) (List.drop (be16 p.len).length (List.drop 1 (List.drop 1 b))) p.payload
    simp only [len16, List.length_append, List.length_cons, List.length_nil, List.drop_drop] at this ⊢
    exact this

/-- **C79** IPCP options: buffers of fewer than three octets are refused; any other gets the option as far as there is room. -/
theorem C79_ipcp_short (o : IPCP) (b : Bytes) :
    (b.length < 3 → Fails (o.marshalTo b)) ∧
    (3 ≤ b.length → o.marshalTo b = ok (over ([o.typ, o.len] ++ o.payload) b)) := by
  constructor
  · intro hb
    simp only [IPCP.marshalTo]; flr
  · intro hb
    rw [over_append _ _ _ (by simp; omega)]
    rw [← List.nil_append b]
    simp only [IPCP.marshalTo]
    wr
    have := copyFrom_over ([] ++ [o.typ] ++ [o.len]) (List.drop 1 (List.drop 1 b)) o.payload
    simp only [List.length_append, List.length_cons, List.length_nil, List.drop_drop] at this ⊢
    exact this

/-- **C79** CHAP: a buffer of one octet and one that ends within the value are refused; any other gets the value and the name as
far as there is room. -/
theorem C79_chap_short (c : CHAP) (h : c.value.length = c.size.toNat) (b : Bytes) :
    (b.length < 2 ∨ b.length < 1 + c.value.length → Fails (c.marshalTo b)) ∧
    (2 ≤ b.length → 1 + c.value.length ≤ b.length → c.marshalTo b = ok (over ([c.size] ++ c.value ++ c.name) b)) := by
  constructor
  · intro hb
    simp only [CHAP.marshalTo]; flr
  · intro hb hb2
    rw [over_append _ _ _ (by simp; omega)]
    rw [← List.nil_append b]
    simp only [CHAP.marshalTo]
    wr
    have := copyFrom_over ([] ++ [c.size] ++ c.value) (List.drop c.value.length (List.drop 1 b)) c.name
    simp only [List.length_append, List.length_cons, List.length_nil, List.drop_drop, Nat.zero_add, h] at this ⊢
    exact this

/-- **C79** one container: buffers of fewer than three octets make the code panic; any other gets the contents as far as there is
room. -/
theorem C79_container_short {c : Container} (h : ContainerOK c) (b : Bytes) :
    (b.length < 3 → c.marshalTo b = .panic) ∧
    (3 ≤ b.length → c.marshalTo b = ok (over (encContainer c) b)) := by
  constructor
  · intro hb
    match b, hb with
    | [], _ => rfl
    | [_], _ => rfl
    | [x, y], _ => rfl
  · intro hb
    obtain ⟨h1, h2⟩ := h
    unfold encContainer
    rw [over_append _ _ _ (by simp; omega)]
    rw [← List.nil_append b]
    simp only [Container.marshalTo]
    wr
    have := copyFrom_over ([] ++ be16 c.ident ++ [c.len]) (List.drop 1 (List.drop (be16 c.ident).length b)) c.contents
    simp only [List.length_append, List.length_cons, List.length_nil, List.drop_drop, Nat.zero_add, len16] at this ⊢
    rw [← h2]
    split
    · exact this
    · rename_i h0
      have hz : c.contents = [] := by
        have : c.len = 0 := by simpa using h0
        rw [h2] at this
        have := congrArg UInt8.toNat this
        simp only [UInt8.toNat_ofNat', UInt8.reduceToNat] at this
        exact List.eq_nil_of_length_eq_zero (by omega)
      simp only [hz, over, List.nil_append, List.length_nil, List.drop_zero, List.take_length]

/-! ### lists of containers -/

theorem onSub_rest (pre z : Bytes) (f : Bytes → Res Bytes) :
    onSub (pre ++ z) pre.length (pre ++ z).length f = f z >>= fun s => ok (pre ++ s) := by
  rw [onSub, slice_of_le (by simp) (by simp)]
  simp only [bind_ok, List.drop_left, List.length_append, Nat.add_sub_cancel_left, List.take_length]
  cases f z <;> simp

theorem onSub_past {b : Bytes} {lo : Nat} (h : b.length < lo) (f : Bytes → Res Bytes) : onSub b lo b.length f = .panic := by
  rw [onSub, slice, if_neg (by omega)]; rfl

/-- the end of the buffer is behind the header of the last container: exactly then it is filled without an error -/
def Within (opts : List Container) (n : Nat) : Prop :=
  ∃ init c, opts = init ++ [c] ∧ (encContainers init).length + 3 ≤ n

theorem encContainers_cons (c : Container) (cs : List Container) : encContainers (c :: cs) = encContainer c ++ encContainers cs := by
  simp [encContainers]

theorem container_ge (c : Container) : 3 ≤ (encContainer c).length := by simp [encContainer]; omega

theorem putContainers_short : ∀ (cs : List Container) (pre z : Bytes), (∀ p ∈ cs, ContainerOK p) →
    z.length < (encContainers cs).length →
    (Within cs z.length → putContainers cs pre.length (pre ++ z) = ok (pre ++ (encContainers cs).take z.length)) ∧
    (¬ Within cs z.length → putContainers cs pre.length (pre ++ z) = .panic)
  | [], pre, z, _, hz => by simp [encContainers] at hz
  | c :: cs, pre, z, hc, hz => by
    rw [encContainers_cons] at hz ⊢
    have hcc := C79_container_short (hc c (by simp)) z
    have h3 := container_ge c
    rw [putContainers, onSub_rest]
    by_cases hl : z.length < 3
    · rw [hcc.1 hl]
      constructor
      · rintro ⟨init, d, e, hn⟩; omega
      · intro _; rfl
    · rw [hcc.2 (by omega)]
      simp only [bind_ok]
      by_cases hm : z.length < (encContainer c).length
      · rw [over_short (by omega)]
        cases cs with
        | nil =>
          refine ⟨fun _ => ?_, fun h => absurd ⟨[], c, rfl, by simp [encContainers]; omega⟩ h⟩
          simp [putContainers, encContainers]
        | cons d ds =>
          constructor
          · rintro ⟨init, x, e, hn⟩
            cases init with
            | nil => simp at e
            | cons i is =>
              simp only [List.cons_append, List.cons.injEq] at e
              rw [← e.1, encContainers_cons] at hn
              simp at hn; omega
          · intro _
            rw [putContainers, onSub_past (by rw [container_marshalLen]; simp; omega)]
            rfl
      · rw [over_fits (by omega)]
        have ih := putContainers_short cs (pre ++ encContainer c) (z.drop (encContainer c).length)
          (fun p hp => hc p (by simp [hp])) (by simp at hz ⊢; omega)
        have hw : Within (c :: cs) z.length ↔ Within cs (z.drop (encContainer c).length).length := by
          constructor
          · rintro ⟨init, x, e, hn⟩
            cases init with
            | nil =>
              simp only [List.nil_append, List.cons.injEq] at e
              rw [e.2] at hz; simp [encContainers] at hz; omega
            | cons i is =>
              simp only [List.cons_append, List.cons.injEq] at e
              rw [← e.1, encContainers_cons] at hn
              exact ⟨is, x, e.2, by simp at hn ⊢; omega⟩
          · rintro ⟨init, x, e, hn⟩
            exact ⟨c :: init, x, by rw [e]; rfl, by rw [encContainers_cons]; simp at hn ⊢; omega⟩
        rw [hw]
        have e1 : pre.length + c.marshalLen = (pre ++ encContainer c).length := by rw [container_marshalLen]; simp
        rw [e1, ← List.append_assoc]
        refine ⟨fun h => ?_, ih.2⟩
        rw [ih.1 h, List.append_assoc, List.take_append, List.take_of_length_le (l := encContainer c) (by omega)]
        simp

theorem pco_short (proto : UInt8) {opts : List Container} (ho : ∀ c ∈ opts, ContainerOK c) (b : Bytes)
    (hb : b.length < 1 + (encContainers opts).length) :
    (Within opts (b.length - 1) → (do let b ← setAt b 0 ((proto &&& 7) ||| 0x80); putContainers opts 1 b : Res Bytes) =
      ok (([(proto &&& 7) ||| 0x80] ++ encContainers opts).take b.length)) ∧
    (¬ Within opts (b.length - 1) → (do let b ← setAt b 0 ((proto &&& 7) ||| 0x80); putContainers opts 1 b : Res Bytes) = .panic) := by
  cases b with
  | nil =>
    refine ⟨?_, fun _ => rfl⟩
    rintro ⟨_, _, _, h⟩
    simp at h
  | cons x z =>
    have := putContainers_short opts [(proto &&& 7) ||| 0x80] z ho (by simp at hb; omega)
    simp only [setAt, List.length_cons, Nat.zero_lt_succ, if_true, List.set_cons_zero, bind_ok, Nat.add_sub_cancel]
    simpa using this

/-- **C79** the options of GTPv2 and of GTPv1 in a buffer that is too small: if it ends behind the header of the last container, the
contents are cut without an error; otherwise the code panics.  It never refuses. -/
theorem C79_pco_short (f : PCO) (h : ∀ c ∈ f.opts, ContainerOK c) (b : Bytes) (hb : b.length < f.marshalLen) :
    (Within f.opts (b.length - 1) → ∃ s, f.marshal = ok s ∧ f.marshalTo b = ok (s.take b.length)) ∧
    (¬ Within f.opts (b.length - 1) → f.marshalTo b = .panic) := by
  rw [PCO.marshalLen, sum_containers] at hb
  have key := pco_short f.proto h b hb
  refine ⟨fun hw => ⟨_, (pco_writes f.proto h).marshal ?_, key.1 hw⟩, key.2⟩
  simp [PCO.marshalLen, sum_containers]; omega

theorem C79_pco_v1_short (f : TLV.PCOPayload) (h : ∀ c ∈ f.opts, ContainerOK c) (b : Bytes) (hb : b.length < f.marshalLen) :
    (Within f.opts (b.length - 1) →
      ∃ s, f.marshalTo (List.replicate f.marshalLen 0) = ok s ∧ f.marshalTo b = ok (s.take b.length)) ∧
    (¬ Within f.opts (b.length - 1) → f.marshalTo b = .panic) := by
  rw [TLV.PCOPayload.marshalLen, sum_containers] at hb
  have key := pco_short f.proto h b hb
  refine ⟨fun hw => ⟨_, (pco_writes f.proto h).marshal ?_, key.1 hw⟩, key.2⟩
  simp [TLV.PCOPayload.marshalLen, sum_containers]; omega

/-! ### connection set identifiers -/

theorem putCSIDs_short : ∀ (ids : List UInt16) (pre z : Bytes), z.length < ids.length * 2 →
    putCSIDs ids pre.length (pre ++ z) = ok (pre ++ over ((ids.take (z.length / 2)).flatMap be16) z)
  | [], pre, z, hz => by simp at hz
  | x :: xs, pre, z, hz => by
    simp only [List.length_cons] at hz
    rw [putCSIDs]
    by_cases h : z.length < 2
    · rw [if_pos (by simp; omega), show z.length / 2 = 0 by omega]
      simp [over]
    · rw [if_neg (by simp; omega), copyAt_append rfl (by simp) (by simp; omega)]
      simp only [bind_ok]
      have ih := putCSIDs_short xs (pre ++ be16 x) (z.drop 2) (by simp; omega)
      rw [show pre.length + 2 = (pre ++ be16 x).length by simp, len16, ih,
        show z.length / 2 = (z.drop 2).length / 2 + 1 by simp; omega, List.take_succ_cons, List.flatMap_cons,
        over_append _ _ _ (by simp; omega)]
      simp [len16]

/-- **C79** fully qualified CSID: buffers that end within the node identity are refused; any other that is too small gets as many
CSIDs as there is room for, without an error. -/
theorem C79_csid_short (f : CSID) (b : Bytes) :
    (b.length < 1 + f.node.length → Fails (f.marshalTo b)) ∧
    (1 + f.node.length ≤ b.length → b.length < 1 + f.node.length + f.ids.length * 2 →
      f.marshalTo b = ok (over ([((f.kind <<< 4) &&& (0xf0 : UInt8)) ||| (f.num &&& (0x0f : UInt8))] ++ f.node ++
        (f.ids.take ((b.length - 1 - f.node.length) / 2)).flatMap be16) b)) := by
  constructor
  · intro hb
    simp only [CSID.marshalTo]; flr
  · intro hb hb2
    rw [over_append _ _ _ (by simp; omega)]
    have := putCSIDs_short f.ids ([] ++ [((f.kind <<< 4) &&& (0xf0 : UInt8)) ||| (f.num &&& (0x0f : UInt8))] ++ f.node)
      (List.drop f.node.length (List.drop 1 b)) (by simp; omega)
    rw [← List.nil_append b]
    simp only [CSID.marshalTo]
    wr
    simp only [List.length_append, List.length_cons, List.length_nil, List.drop_drop, List.length_drop, Nat.zero_add] at this ⊢
    rw [this]
    simp [Nat.sub_sub]

/-! ### traffic flow templates -/

theorem fails_onSub {β : Type} {n : Nat} {mar : Res Bytes} {w : Bytes → Res Bytes} (h : Into n mar w) {b : Bytes} {lo : Nat}
    {k : Bytes → Res β} (ho : lo ≤ b.length)
    (hk : ∀ b' : Bytes, b'.length = b.length → lo + n ≤ b.length → Fails (k b')) : Fails (onSub b lo b.length w >>= k) := by
  obtain ⟨pre, z, rfl, hp⟩ : ∃ pre z : Bytes, b = pre ++ z ∧ lo = pre.length :=
    ⟨b.take lo, b.drop lo, (List.take_append_drop _ _).symm, by simp; omega⟩
  subst hp
  rw [onSub_rest]
  by_cases hl : z.length < n
  · obtain ⟨e, he⟩ := h.short z hl
    rw [he]; exact ⟨e, rfl⟩
  · obtain ⟨s, h1, _, h3⟩ := h.fits
    rw [h3 z (by omega)]
    exact hk _ (by simp; omega) (by simp; omega)

theorem putParams_short : ∀ (ps : List Param) (b : Bytes) (off : Nat), off ≤ b.length →
    b.length < off + (ps.map Param.marshalLen).sum → Fails (putParams ps off b)
  | [], b, off, ho, h => by simp at h; omega
  | p :: ps, b, off, ho, h => by
    simp only [List.map_cons, List.sum_cons] at h
    rw [putParams]
    exact fails_onSub (C79_tft_parameter p) ho (fun b' e hl => putParams_short ps b' _ (by omega) (by omega))

theorem putFilters_short : ∀ (ps : List Filter) (qs : List Param) (b : Bytes) (off : Nat), off ≤ b.length →
    b.length < off + (ps.map Filter.marshalLen).sum + (qs.map Param.marshalLen).sum →
    Fails (putFilters ps off b >>= fun x => putParams qs x.2 x.1)
  | [], qs, b, off, ho, h => by
    simp at h
    exact putParams_short qs b off ho (by omega)
  | p :: ps, qs, b, off, ho, h => by
    simp only [List.map_cons, List.sum_cons] at h
    rw [putFilters, bind_assoc']
    exact fails_onSub (C79_tft_filter p) ho (fun b' e hl => putFilters_short ps qs b' _ (by omega) (by omega))

/-- **C79** a template in a buffer that is too small: refused, unless it is a list of filters to delete and the buffer ends within
it; then, and only then, the code panics. -/
theorem C79_tft_short {f : TFT} (h : TFTOK f) (b : Bytes) (hb : b.length < f.marshalLen) :
    if f.op = 5 ∧ 1 ≤ b.length ∧ b.length < 1 + f.ids.length then f.marshalTo b = .panic else Fails (f.marshalTo b) := by
  rw [TFT.marshalLen] at hb
  unfold TFT.marshalTo
  by_cases h0 : b.length < 1
  · rw [if_neg (by omega), if_pos h0]; exact fails_err _
  · rw [if_neg h0]
    by_cases hop : opFilters f.op = true
    · have h5 : f.op ≠ 5 := by intro e; rw [e] at hop; exact absurd hop (by decide)
      rw [if_neg (by simp [h5])]
      refine fails_bind_setAt (by omega) (fun b0 e0 => ?_)
      rw [if_pos hop]
      have := h.r_noids h5
      rw [this] at hb
      exact putFilters_short _ _ _ _ (by omega) (by simp at hb; omega)
    · have hf : f.filters = [] := by
        apply h.r_nofilters <;> (intro e; apply hop; rw [e]; rfl)
      rw [hf] at hb
      by_cases h5 : f.op = 5
      · by_cases hl : b.length < 1 + f.ids.length
        · rw [if_pos ⟨h5, by omega, hl⟩]
          simp only []
          rw [setAt_of_lt (by omega)]
          simp only [bind_ok, hop, h5, if_true, Bool.false_eq_true, if_false]
          have key : ∀ b' : Bytes, b'.length = b.length → copyAt b' 1 (1 + f.ids.length) f.ids = .panic := by
            intro b' e
            rw [copyAt, if_neg (by omega)]
          rw [key _ (by simp)]
          rfl
        · rw [if_neg (by omega)]
          refine fails_bind_setAt (by omega) (fun b0 e0 => ?_)
          simp only [hop, h5, if_true, Bool.false_eq_true, if_false, bind_assoc']
          refine fails_bind_copyAt (by omega) (by omega) (fun b1 e1 => ?_)
          exact putParams_short f.params b1 (1 + f.ids.length) (by omega) (by simp at hb; omega)
      · rw [if_neg (by simp [h5])]
        refine fails_bind_setAt (by omega) (fun b0 e0 => ?_)
        simp only [hop, h5, Bool.false_eq_true, if_false]
        rw [h.r_noids h5] at hb
        exact putParams_short f.params b0 1 (by omega) (by simp at hb; omega)

/-! ### not vacuous -/

example : (newPPP 1 2 [7, 8, 9]).marshalTo (List.replicate 6 0) = ok [1, 2, 0, 7, 7, 8] := by decide
example : Within [newContainer 0x0d [8, 8, 8, 8], newContainer 1 [5, 6]] 11 := ⟨[newContainer 0x0d [8, 8, 8, 8]], newContainer 1 [5, 6], rfl, by decide⟩
example : PCO.marshalTo (newPCOFields 0 [newContainer 0x0d [8, 8, 8, 8], newContainer 1 [5, 6]]) (List.replicate 12 0) =
    ok [0x80, 0, 0x0d, 4, 8, 8, 8, 8, 0, 1, 2, 5] := by decide
example : PCO.marshalTo (newPCOFields 0 [newContainer 0x0d [8, 8, 8, 8], newContainer 1 [5, 6]]) (List.replicate 7 0) = .panic := by decide
example : TFT.marshalTo ⟨5, [], [1, 2, 3], []⟩ (List.replicate 3 0) = .panic := by decide
example : Fails (TFT.marshalTo ⟨5, [], [1, 2, 3], [newParam 1 [4]]⟩ (List.replicate 5 0)) := ⟨.eof, by decide⟩

end Verif.V2

/-! ### cases that meet the hypotheses -/

namespace Verif.V2
open Res Utils NetIP
example := C79_chap_short ⟨2, [65, 66], [67]⟩ rfl [0, 0]
example := C79_container_short (c := newContainer 0x0d [8, 8, 8, 8]) (by unfold ContainerOK; decide) [0, 0, 0, 0]
theorem exContainers : ∀ c ∈ [newContainer 0x0d [8, 8, 8, 8], newContainer 1 [5, 6]], ContainerOK c := by unfold ContainerOK; decide
example := C79_pco_short (newPCOFields 0 [newContainer 0x0d [8, 8, 8, 8], newContainer 1 [5, 6]]) exContainers (List.replicate 12 0) (by decide)
example := C79_pco_v1_short ⟨0, [newContainer 0x0d [8, 8, 8, 8], newContainer 1 [5, 6]]⟩ exContainers (List.replicate 12 0) (by decide)
example := C79_tft_short (f := ⟨5, [], [1, 2, 3], []⟩) ⟨(by decide), (fun p hp => by cases hp), (fun p hp => by cases hp), (by decide), (fun _ _ _ => rfl), (fun h => absurd rfl h)⟩ (List.replicate 3 0) (by decide)
end Verif.V2
