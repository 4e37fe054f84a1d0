import Verif.Proofs.Pgw
import Verif.Props.IPText
import Verif.Props.Edit
/-
Helper lemmas for Props/Pgw.lean: the answer of the P-GW and its handler for a complete request.
-/
namespace Verif.V2.Pgw
open Res Send Conn NetIP Spec IPSpec

theorem answer_fields (g : UInt8 → Bool) (p1 p2 p3 p4 p5 p6 : Bytes) (l : UInt16) (cs : List IE) (q : Bool) :
    let F := Msg.newFields (ieOps g) Tab.createSessionResponse
      ([some (newIE 2 0 p1), some (newIE 87 1 p2), some (newIE 79 0 p3), some (newIE 127 0 p4), some (.mk 93 l 0 p5 cs)] ++
        if q then [some (newIE 132 0 p6)] else [])
    F 0 = [newIE 2 0 p1] ∧ F 5 = [newIE 87 1 p2] ∧ F 6 = [newIE 79 0 p3] ∧ F 7 = [newIE 127 0 p4] ∧ F 11 = [.mk 93 l 0 p5 cs] ∧
      F 16 = (if q then [newIE 132 0 p6] else []) ∧
      F = Msg.upd (Msg.newFields (ieOps g) Tab.createSessionResponse
        [some (newIE 2 0 p1), some (newIE 87 1 p2), some (newIE 79 0 p3), some (newIE 127 0 p4), some (.mk 93 l 0 p5 cs)]) 16
          (if q then [newIE 132 0 p6] else []) := by
  have ht : ∀ t n p, (ieOps g).typ (newIE t n p) = t := fun _ _ _ => rfl
  have hi : ∀ t p, (ieOps g).inst (newIE t 0 p) = 0 := fun _ _ => (by decide : (0 : UInt8) &&& 0x0f = 0)
  have hi1 : ∀ t p, (ieOps g).inst (newIE t 1 p) = 1 := fun _ _ => (by decide : (1 : UInt8) &&& 0x0f = 1)
  have htb : (ieOps g).typ (.mk 93 l 0 p5 cs) = 93 := rfl
  have hib : (ieOps g).inst (.mk 93 l 0 p5 cs) = 0 := (by decide : (0 : UInt8) &&& 0x0f = 0)
  have e1 : Msg.sel Tab.createSessionResponse.newRules Tab.createSessionResponse.newDefault (2 : UInt8).toNat (0 : UInt8).toNat = .set 0 := by decide
  have e2 : Msg.sel Tab.createSessionResponse.newRules Tab.createSessionResponse.newDefault (87 : UInt8).toNat (1 : UInt8).toNat = .set 5 := by decide
  have e3 : Msg.sel Tab.createSessionResponse.newRules Tab.createSessionResponse.newDefault (79 : UInt8).toNat (0 : UInt8).toNat = .set 6 := by decide
  have e4 : Msg.sel Tab.createSessionResponse.newRules Tab.createSessionResponse.newDefault (127 : UInt8).toNat (0 : UInt8).toNat = .set 7 := by decide
  have e5 : Msg.sel Tab.createSessionResponse.newRules Tab.createSessionResponse.newDefault (93 : UInt8).toNat (0 : UInt8).toNat = .app 11 := by decide
  have e6 : Msg.sel Tab.createSessionResponse.newRules Tab.createSessionResponse.newDefault (132 : UInt8).toNat (0 : UInt8).toNat = .set 16 := by decide
  cases q <;> simp only [Msg.newFields, List.filterMap_cons, id, List.filterMap_nil, List.cons_append, List.nil_append, Bool.false_eq_true, if_false, if_true, Msg.classify, List.foldl_cons, List.foldl_nil, ht, hi, hi1,
    htb, hib, e1, e2, e3, e4, e5, e6, Msg.Act.apply, Msg.upd, Msg.Fields.empty]
  · refine ⟨by simp, by simp, by simp, by simp, by simp, by simp, ?_⟩
    funext k
    by_cases h : k = 16 <;> simp [h, Msg.upd, Msg.Fields.empty]
  · simp

theorem marshal_fields (g : UInt8 → Bool) (sc : Msg.Schema) (hs : sc ∈ Tab.all) (h1 : sc ≠ Tab.contextResponse)
    (h2 : sc ≠ Tab.createBearerResponse) (h3 : sc ≠ Tab.createSessionRequest) (t q : UInt32) (a b : List (Option IE)) (F : Msg.Fields IE)
    (h : Msg.newFields (ieOps g) sc b = F) :
    marshalMsg g (setSeq { newMessage g sc t 0 a with fields := F } q) = marshalMsg g (newMessage g sc t q b) := by
  subst h
  have hst := (C77_v2_start_built g sc t q b hs h1 h2).stable (all_unGood sc hs)
  have hc : Msg.Clobberless (newMessage g sc t q b).fields sc.order :=
    Msg.clobberless_of_advOK sc (advOK_of_ne sc hs h3) _ hst.scalar
  rw [marshalMsg_eq g (newMessage g sc t q b) (all_lensOK sc hs) hc (all_reset sc hs),
    marshalMsg_eq g (setSeq { newMessage g sc t 0 a with fields := Msg.newFields (ieOps g) sc b } q) (all_lensOK sc hs) hc (all_reset sc hs)]
  rfl

theorem imsi_ne {i : IE} {v : Bytes} (h : i.imsi = ok v) : v ≠ [] := by
  unfold IE.imsi at h
  split at h
  · cases h
  split at h
  · cases h
  rename_i hl
  unfold Utils.swappedToStr at h
  rw [if_neg (by omega)] at h
  simp only [if_true, slice] at h
  split at h
  · obtain rfl := ok.inj h
    have : 2 ≤ (Utils.hexEncode (Utils.swap i.payload)).length := by
      cases hp : i.payload with
      | nil => simp [hp] at hl
      | cons x r => simp [Utils.swap, Utils.hexEncode]
    intro e
    have := congrArg List.length e
    simp at this
    omega
  · cases h

theorem paa_ip {i : IE} {t : Bytes} (ht : i.typ = 79) (h : i.ipAddress = ok t) :
    ∃ x, (x.length = 4 ∨ x.length = 16) ∧ t = ipString x := by
  unfold IE.ipAddress at h
  obtain ⟨x, hx, h⟩ := bind_eq_ok.1 h
  refine ⟨x, ?_, (ok.inj h).symm⟩
  unfold IE.ip at hx
  split at hx
  · cases hx
  simp only [ht, (by decide : (79 : UInt8) ≠ 74), if_false] at hx
  split at hx
  · cases hx
  obtain ⟨f, hf, hx⟩ := bind_eq_ok.1 hx
  unfold parsePAA at hf
  split at hf
  · cases hf
  obtain ⟨b0, _, hf⟩ := bind_eq_ok.1 hf
  dsimp only at hf
  generalize ht' : b0 &&& 7 = t' at hf
  have sl : ∀ {b : Bytes} {i j : Nat} {y : Bytes}, slice b i j = ok y → y.length = j - i := by
    intro b i j y hy
    unfold slice at hy
    split at hy
    · obtain rfl := ok.inj hy; simp; omega
    · cases hy
  split at hf
  · rename_i e
    obtain ⟨v4, h4, hf⟩ := bind_eq_ok.1 hf
    obtain rfl := ok.inj hf
    simp only [e, true_or, if_true, ok.injEq] at hx
    subst hx
    exact Or.inl (sl h4)
  split at hf
  · rename_i e
    split at hf
    · cases hf
    obtain ⟨p, _, hf⟩ := bind_eq_ok.1 hf
    obtain ⟨v6, h6, hf⟩ := bind_eq_ok.1 hf
    obtain rfl := ok.inj hf
    simp only [e] at hx
    simp at hx
    subst hx
    exact Or.inr (sl h6)
  split at hf
  · rename_i e
    split at hf
    · cases hf
    obtain ⟨p, _, hf⟩ := bind_eq_ok.1 hf
    obtain ⟨v6, h6, hf⟩ := bind_eq_ok.1 hf
    obtain ⟨v4, h4, hf⟩ := bind_eq_ok.1 hf
    obtain rfl := ok.inj hf
    simp only [e, or_true, if_true, ok.injEq] at hx
    subst hx
    exact Or.inl (sl h4)
  · obtain rfl := ok.inj hf
    simp_all

theorem fteid_text (f : UInt8) (k : UInt32) (s : Bytes) (h : f < 64) :
    newFTEIDText f k s [] = ok (some (newIE 87 0 (encFTEID f k ((parseIP s).bind to4) none))) := by
  have e4 : to4 (ofOpt (parseIP s)) = (parseIP s).bind to4 := by
    cases parseIP s with
    | none => rfl
    | some a => rfl
  rw [newFTEIDText, newFTEID, fteid_marshal _ _ _ _ h, build, e4]
  rfl

theorem length_encFTEID' (f : UInt8) (k : UInt32) (s : Bytes) : (encFTEID f k ((parseIP s).bind to4) none).length ≤ 25 := by
  unfold encFTEID
  cases h : (parseIP s).bind to4 with
  | none => simp [be32]
  | some v =>
    obtain ⟨a, _, h⟩ := Option.bind_eq_some_iff.1 h
    simp [be32, Conn.to4_len h]

/-- the parts of the answer and what its receiver finds -/
theorem answer_ok (g : UInt8 → Bool) (hg : ∀ t ∈ [2, 87, 79, 127, 73, 94, 132], g t = false) (hgb : g 93 = true) (t : UInt32)
    (pc pu : Bytes) (hpc : pc.length ≤ 25) (hpu : pu.length ≤ 25) (ip a : Bytes) (hip : IsIP ip a) (ebi : UInt8) (q : Bool)
    (cIP va : Bytes) (hq : q = true → IsIP cIP va) :
    ∃ r rs, answer g t (newIE 87 1 pc) (newIE 87 2 pu) ip ebi q cIP = ok r ∧ Sendable g Tab.createSessionResponse rs ∧
      ((rs.filterMap id).map (IE.marshalLen g)).sum ≤ 188 ∧
      (∀ n, marshalMsg g (setSeq r n) = marshalMsg g (newMessage g Tab.createSessionResponse t n rs)) ∧
      let F := Msg.newFields (ieOps g) Tab.createSessionResponse rs
      (∃ x, F 0 = [x] ∧ x.cause g = ok 16) ∧ F 5 = [newIE 87 1 pc] ∧ (∃ x, F 6 = [x] ∧ x.ipAddress = ok (ipString a)) ∧
      (∃ x c e d, F 11 = [x] ∧ x.children = [c, e, newIE 87 2 pu, d] ∧ c.cause g = ok 16 ∧ e.ebi g = ok (ebi &&& 15) ∧
        d.chargingID g = ok 0 ∧ c.typ = 2 ∧ e.typ = 73 ∧ d.typ = 94 ∧ d.instance' = 0) ∧
      (q = true → ∃ x, F 16 = [x] ∧ x.nodeID = ok ((to4 va).getD va) ∧ x.csids = ok [1]) ∧ (q = false → F 16 = []) := by
  have hG : ∀ t, t ∈ [2, 87, 79, 127, 73, 94, 132] → g t = false := hg
  have g2 := hG 2 (by simp)
  have g87 := hG 87 (by simp)
  have g79 := hG 79 (by simp)
  have g127 := hG 127 (by simp)
  have g73 := hG 73 (by simp)
  have g94 := hG 94 (by simp)
  have g132 := hG 132 (by simp)
  have wp : ∀ t n p, g t = false → p.length < 65536 → wf g (newIE t n p) = true := fun t n p ht hl => C05_new_wf g t n p hl ht
  have mp : ∀ t n p, g t = false → (newIE t n p).marshalLen g = 4 + p.length := by
    intro t n p ht
    simp [newIE, IE.setLength, IE.marshalLen, ht]
  obtain ⟨pp, np, lp, kp⟩ : ∃ pp, newPAAText ip = ok (some (newIE 79 0 pp)) ∧ pp.length ≤ 25 ∧
      (newIE 79 0 pp).ipAddress = ok (ipString a) := by
    obtain ⟨e1, e2⟩ := text_of hip
    rw [newPAAText, e1]
    cases h4 : to4 a with
    | some w =>
      obtain ⟨i, h1, l1, h2⟩ := C50_paa_v4 g a w 0 h4 g79
      obtain ⟨p, rfl⟩ := build_new h1
      have h2 := (h2 0).2.1
      rw [withInstance_new] at h2
      refine ⟨p, h1, ?_, by rw [ip_text h2, ipString_to4 h4]⟩
      have : p = [1] ++ w := l1
      simp [this, Conn.to4_len h4]
    | none =>
      obtain ⟨i, h1, l1, h2⟩ := C50_paa_v6 g a a 0 h4 (to16_16 e2) g79
      obtain ⟨p, rfl⟩ := build_new h1
      have h2 := (h2 0).2.1
      rw [withInstance_new] at h2
      refine ⟨p, h1, ?_, ip_text h2⟩
      have : p = _ := l1
      simp [this, e2]
  obtain ⟨pf, nf, lf⟩ : ∃ pf, (q = true → newCSIDText cIP [1] = ok (some (newIE 132 0 pf)) ∧ 
      (newIE 132 0 pf).nodeID = ok ((to4 va).getD va) ∧ (newIE 132 0 pf).csids = ok [1]) ∧ pf.length ≤ 25 := by
    cases q with
    | false => exact ⟨[], by simp, by simp⟩
    | true =>
      have hv := hq rfl
      have hp := (parseIP_iff cIP va).mpr hv
      have hb : ∀ {i}, newCSID cIP (some va) [1] = ok (some i) → ∃ p, i = newIE 132 0 p := by
        intro i h
        unfold newCSID at h
        split at h
        · cases h
        · exact build_new h
      cases h4 : to4 va with
      | some v =>
        obtain ⟨i, h1, -, l1, h2, -, h3, h5, h6⟩ := C50_csid_partial g cIP (some va) 0 v [1] (by simp) (.inl ⟨rfl, va, rfl, h4⟩) 0 g132
        obtain ⟨p, rfl⟩ := hb h1
        rw [withInstance_new] at h5 h6
        refine ⟨p, fun _ => ⟨by rw [newCSIDText, hp]; exact h1, h6 (by simp), h5⟩, ?_⟩
        have : p = _ := l1
        simp [this, encCSID, Conn.to4_len h4, be16]
      | none =>
        obtain ⟨i, h1, -, l1, h2, -, h3, h5, h6⟩ := C50_csid_partial g cIP (some va) 1 va [1] (by simp) (.inr (.inl ⟨rfl, rfl, h4, isIP_len hv⟩)) 0 g132
        obtain ⟨p, rfl⟩ := hb h1
        rw [withInstance_new] at h5 h6
        refine ⟨p, fun _ => ⟨by rw [newCSIDText, hp]; exact h1, h6 (by simp), h5⟩, ?_⟩
        have : p = _ := l1
        simp [this, encCSID, isIP_len hv, be16]
  have hcz : newCause 16 0 0 0 none = newIE 2 0 [16, 0] := by decide
  have wcs : wfs g [newIE 2 0 [16, 0], newIE 73 0 [ebi &&& 15], newIE 87 2 pu, newIE 94 0 (be32 0)] = true := by
    rw [wfs_iff]
    intro x hx
    simp only [List.mem_cons, List.not_mem_nil, or_false] at hx
    rcases hx with rfl | rfl | rfl | rfl
    · exact wp _ _ _ g2 (by simp)
    · exact wp _ _ _ g73 (by simp)
    · exact wp _ _ _ g87 (by omega)
    · exact wp _ _ _ g94 (by simp [be32])
  have lcs : marshalLens g [newIE 2 0 [16, 0], newIE 73 0 [ebi &&& 15], newIE 87 2 pu, newIE 94 0 (be32 0)] ≤ 60 := by
    simp only [marshalLens, mp _ _ _ g2, mp _ _ _ g73, mp _ _ _ g87, mp _ _ _ g94, be32, List.length_cons, List.length_nil]
    omega
  have rcs := length_rawEncs g [newIE 2 0 [16, 0], newIE 73 0 [ebi &&& 15], newIE 87 2 pu, newIE 94 0 (be32 0)]
  have nb : newBearerContext g [some (newCause 16 0 0 0 none), some (newEBI ebi), some (newIE 87 2 pu), some (newChargingID 0)] =
      ok (some (.mk 93 (UInt16.ofNat (rawEncs g [newIE 2 0 [16, 0], newIE 73 0 [ebi &&& 15], newIE 87 2 pu, newIE 94 0 (be32 0)]).length) 0
        (rawEncs g [newIE 2 0 [16, 0], newIE 73 0 [ebi &&& 15], newIE 87 2 pu, newIE 94 0 (be32 0)])
        [newIE 2 0 [16, 0], newIE 73 0 [ebi &&& 15], newIE 87 2 pu, newIE 94 0 (be32 0)])) := by
    rw [newBearerContext, newGrouped_eq, hcz]
    rfl
  have kc : (newIE 2 0 [16, 0]).cause g = ok 16 := by
    simp [IE.cause, IE.valueAsUint8, g2]
  have ke : (newIE 73 0 [ebi &&& 15]).ebi g = ok (ebi &&& 15) := by
    simp [IE.ebi, IE.valueAsUint8, g73]
  have kd : (newIE 94 0 (be32 0)).chargingID g = ok 0 := by
    simp [IE.chargingID, IE.valueAsUint32, g94, be32]
    decide
  generalize hcs : [newIE 2 0 [16, 0], newIE 73 0 [ebi &&& 15], newIE 87 2 pu, newIE 94 0 (be32 0)] = cs at *
  have wb : wf g (.mk 93 (UInt16.ofNat (rawEncs g cs).length) 0 (rawEncs g cs) cs) = true := by
    rw [wf_grouped g hgb]
    exact ⟨toNat_ofNat16 (by omega), rawEncs_wf g _ wcs, wcs⟩
  have mb : (IE.mk 93 (UInt16.ofNat (rawEncs g cs).length) 0 (rawEncs g cs) cs).marshalLen g ≤ 64 := by
    simp only [IE.marshalLen, hgb, if_true]
    omega
  have hF := answer_fields g [16, 0] pc pp [2] (rawEncs g cs) pf (UInt16.ofNat (rawEncs g cs).length) cs q
  obtain ⟨F0, F5, F6, F7, F11, F16, FF⟩ := hF
  have hs : Tab.createSessionResponse ∈ Tab.all := by simp [Tab.all]
  have n1 : Tab.createSessionResponse ≠ Tab.contextResponse := fun e => absurd (congrArg Msg.Schema.typ e) (by decide)
  have n2 : Tab.createSessionResponse ≠ Tab.createBearerResponse := fun e => absurd (congrArg Msg.Schema.typ e) (by decide)
  have n3 : Tab.createSessionResponse ≠ Tab.createSessionRequest := fun e => absurd (congrArg Msg.Schema.typ e) (by decide)
  refine ⟨{ newMessage g Tab.createSessionResponse t 0
        [some (newIE 2 0 [16, 0]), some (newIE 87 1 pc), some (newIE 79 0 pp), some (newIE 127 0 [2]),
          some (.mk 93 (UInt16.ofNat (rawEncs g cs).length) 0 (rawEncs g cs) cs)] with
      fields := Msg.upd (Msg.newFields (ieOps g) Tab.createSessionResponse
        [some (newIE 2 0 [16, 0]), some (newIE 87 1 pc), some (newIE 79 0 pp), some (newIE 127 0 [2]),
          some (.mk 93 (UInt16.ofNat (rawEncs g cs).length) 0 (rawEncs g cs) cs)]) 16 (if q then [newIE 132 0 pf] else []) },
    [some (newIE 2 0 [16, 0]), some (newIE 87 1 pc), some (newIE 79 0 pp), some (newIE 127 0 [2]),
      some (.mk 93 (UInt16.ofNat (rawEncs g cs).length) 0 (rawEncs g cs) cs)] ++ (if q then [some (newIE 132 0 pf)] else []),
    ?_, ⟨hs, ⟨?_, ?_⟩, ⟨fun e => absurd e n1, fun e => absurd e n2, fun e => absurd e n3⟩, ?_⟩, ?_, fun n => ?_, ⟨_, F0, kc⟩, F5, ⟨_, F6, kp⟩,
    ⟨_, _, _, _, F11, hcs.symm, kc, ke, kd, rfl, rfl, rfl, (by decide : (0 : UInt8) &&& 0x0f = 0)⟩, ?_, ?_⟩
  · unfold answer
    rw [np, bind_ok, nb, bind_ok, hcz]
    cases q with
    | true => simp only [if_true]; rw [(nf rfl).1, bind_ok]; rfl
    | false =>
      have e : Plain.new8 ⟨"APNRestriction", 127, [127]⟩ 2 = newIE 127 0 [2] := rfl
      rw [if_neg (by simp), e]
      have FF' : (newMessage g Tab.createSessionResponse t 0
        [some (newIE 2 0 [16, 0]), some (newIE 87 1 pc), some (newIE 79 0 pp), some (newIE 127 0 [2]),
          some (.mk 93 (UInt16.ofNat (rawEncs g cs).length) 0 (rawEncs g cs) cs)]).fields = _ := FF
      rw [← FF']
  · intro x hx
    simp only [List.mem_append, List.mem_cons, List.not_mem_nil, or_false, Option.some.injEq] at hx
    rcases hx with (rfl | rfl | rfl | rfl | rfl) | hx
    · exact wp _ _ _ g2 (by simp)
    · exact wp _ _ _ g87 (by omega)
    · exact wp _ _ _ g79 (by omega)
    · exact wp _ _ _ g127 (by simp)
    · exact wb
    · cases q with
      | true =>
        simp only [if_true, List.mem_cons, List.not_mem_nil, or_false, Option.some.injEq] at hx
        subst hx
        exact wp _ _ _ g132 (by omega)
      | false => simp at hx
  · cases q <;> simp only [List.cons_append, List.nil_append, Bool.false_eq_true, if_false, if_true, List.filterMap_cons, id, List.filterMap_nil, List.map_cons, List.map_nil, List.sum_cons, List.sum_nil,
        mp _ _ _ g2, mp _ _ _ g87, mp _ _ _ g79, mp _ _ _ g127, mp _ _ _ g132, List.length_cons, List.length_nil] <;> omega
  · rintro (e | e) <;> exact absurd (congrArg Msg.Schema.typ e) (by decide)
  · cases q <;> simp only [List.cons_append, List.nil_append, Bool.false_eq_true, if_false, if_true, List.filterMap_cons, id, List.filterMap_nil, List.map_cons, List.map_nil, List.sum_cons, List.sum_nil,
        mp _ _ _ g2, mp _ _ _ g87, mp _ _ _ g79, mp _ _ _ g127, mp _ _ _ g132, List.length_cons, List.length_nil] <;> omega
  · exact marshal_fields g _ hs n1 n2 n3 t n _ _ _ FF
  · exact fun h => ⟨_, F16.trans (if_pos h), (nf h).2⟩
  · exact fun h => F16.trans (if_neg (by simp [h]))

/-- the F-TEID with number `k` and the address in the text `x` -/
def fteidOf (f n : UInt8) (k : UInt32) (x : Bytes) : IE := newIE 87 n (encFTEID f k ((parseIP x).bind to4) none)

theorem fteidOf_reads (f n : UInt8) (k : UInt32) (x : Bytes) (h : f < 64) :
    FTEIDReads (fteidOf f n k x) f k ((parseIP x).bind to4) none := by
  have e4 : to4 (ofOpt (parseIP x)) = (parseIP x).bind to4 := by
    cases parseIP x with
    | none => rfl
    | some a => rfl
  obtain ⟨i, h1, _, h2⟩ := C41_fteid_partial (fun _ => false) f k (ofOpt (parseIP x)) [] h rfl
  have h1' := fteid_text f k x h
  rw [newFTEIDText, show ofOpt (parseIP []) = [] from rfl, h1] at h1'
  simp only [ok.injEq, Option.some.injEq] at h1'
  subst h1'
  have h3 := (h2 n).2
  rw [withInstance_new, e4] at h3
  exact h3

theorem mustTEID_of {i : IE} {t : UInt32} (h : i.teid = ok t) : mustTEID i = t := by unfold mustTEID; rw [h]

theorem accept_put (g : UInt8 → Bool) (p : Cfg) (c : Conn) (s b : Nat) (x : Sess) (y : Bearer) (k ku t : UInt32) (a : Addr)
    (m : Message) (ip : Bytes) (w : Bool) (hif : c.localIf = 7) (ht : x.teids.load 6 = some t) (r : Message)
    (hr : answer g t (fteidOf 7 1 k (host p.laddr.string)) (fteidOf 5 2 ku (host p.s5u)) ip y.ebi (! (m.fields 23).isEmpty)
      (host p.laddr.string) = ok r) :
    accept g p s b (some k) (some ku) a m ip w (put c s b x y) =
      (put (reserve c k) s b { x with teids := (x.teids.store 7 k).store 5 ku } y, respondTo g a m r w) := by
  have h1 : ∀ cIP, senderFTEID (some k) cIP (put c s b x y) = (put (reserve c k) s b x y, [], ok (fteidOf 7 1 k cIP)) := by
    intro cIP
    unfold senderFTEID
    refine (set_to (h := fun c => reserve c k) (put_reserve _ _ _ _ _ _) _).trans ?_
    refine (read_bind _ _ _).trans ?_
    have e : (put (reserve c k) s b x y).localIf = 7 := by
      rw [put_localIf]; unfold reserve; split <;> exact hif
    rw [e]
    refine (lift_bind (fteid_text 7 k cIP (by decide)) _ _).trans ?_
    refine (lift_bind rfl _ _).trans ?_
    rw [withInstance_new]; rfl
  have h2 : ∀ uIP c, userFTEID (some ku) uIP c = (c, [], ok (fteidOf 5 2 ku uIP)) := by
    intro uIP c
    unfold userFTEID
    refine (lift_bind (fteid_text 5 ku uIP (by decide)) _ _).trans ?_
    refine (lift_bind rfl _ _).trans ?_
    rw [withInstance_new]; rfl
  have h3 : getTEID s 6 (put (reserve c k) s b x y) = (put (reserve c k) s b x y, [], ok t) := by
    unfold getTEID; rw [put_heap, ht]
  unfold accept
  refine (bind_eq' (h1 _)).trans ?_
  refine (bind_eq' (h2 _ _)).trans ?_
  refine (bind_eq' h3).trans ?_
  refine (read_bind _ _ _).trans ?_
  rw [put_brs]
  refine (lift_bind hr _ _).trans ?_
  rw [mustTEID_of (fteidOf_reads 7 1 k _ (by decide)).r_teid, mustTEID_of (fteidOf_reads 5 2 ku _ (by decide)).r_teid]
  refine (set_to (put_addTEID _ _ _ _ _ _ _) _).trans ?_
  refine (set_to (put_addTEID _ _ _ _ _ _ _) _).trans ?_
  rfl

theorem enrol_put (c : Conn) (s b : Nat) (x : Sess) (y : Bearer) (k : UInt32) (hif : c.localIf = 7)
    (ht : x.teids.load 7 = some k) (hi : x.imsi ≠ []) :
    enrol s (put c s b x y) =
      (put { c with byTeid := c.byTeid.store k (some s), byImsi := c.byImsi.store x.imsi s } s b
        { x with active := true, teids := x.teids.store 7 k } y, [], ok ()) := by
  have h1 : getTEID s 7 (put c s b x y) = (put c s b x y, [], ok k) := by
    unfold getTEID; rw [put_heap, ht]
  have h2 : activateH s (put c s b x y) = (put c s b { x with active := true } y, [], ok ()) := by
    unfold activateH; rw [put_heap, if_neg hi, put_activate _ _ _ _ _ hi]
  unfold enrol
  refine (bind_eq' h1).trans ?_
  refine (bind_eq' h2).trans ?_
  unfold set
  beta_reduce
  rw [put_register, hif]

/-- the connection after the answer could not be written -/
def held (g : UInt8 → Bool) (c : Conn) (s b : Nat) (k ku : UInt32) (a : Addr) (v : Vals) : Conn :=
  put (reserve (forget c v.imsi) k) s b { v.sess a b with teids := ((v.sess a b).teids.store 7 k).store 5 ku } (v.bearer g)
/-- the connection after the request was accepted -/
def admitted (g : UInt8 → Bool) (c : Conn) (s b : Nat) (k ku : UInt32) (a : Addr) (v : Vals) : Conn :=
  put { reserve (forget c v.imsi) k with
      byTeid := (reserve (forget c v.imsi) k).byTeid.store k (some s)
      byImsi := (reserve (forget c v.imsi) k).byImsi.store v.imsi s } s b
    { v.sess a b with active := true, teids := (((v.sess a b).teids.store 7 k).store 5 ku).store 7 k } (v.bearer g)

theorem create_put (g : UInt8 → Bool) (p : Cfg) (c : Conn) (s b : Nat) (k ku t : UInt32) (a : Addr) (m : Message) (v : Vals)
    (hm : m.schema.name = "CreateSessionRequest") (hv : v.In g m) (hd : Droppable c s v.imsi) (hif : c.localIf = 7)
    (ht : (v.sess a b).teids.load 6 = some t) (r : Message)
    (hr : answer g t (fteidOf 7 1 k (host p.laddr.string)) (fteidOf 5 2 ku (host p.s5u)) v.ip (v.bearer g).ebi
      (! (m.fields 23).isEmpty) (host p.laddr.string) = ok r) (w : Bool) :
    handleCreate g p s b (some k) (some ku) a m w c =
      match respondTo g a m r w with
      | (ev, ok _) => (admitted g c s b k ku a v, ev, ok ())
      | (ev, e) => (held g c s b k ku a v, ev, e) := by
  have hif' : (forget c v.imsi).localIf = 7 := (forget_fixed c v.imsi).2.2.1.trans hif
  have hif'' : (reserve (forget c v.imsi) k).localIf = 7 := by unfold reserve; split <;> exact hif'
  have hi : v.imsi ≠ [] := by obtain ⟨i, _, _, h⟩ := hv.imsi; exact imsi_ne h
  unfold handleCreate
  rw [if_neg (by simp [hm])]
  refine (bind_eq' (read_put g c s b a m v hv hd)).trans ?_
  have ha := accept_put g p (forget c v.imsi) s b (v.sess a b) (v.bearer g) k ku t a m v.ip w hif' ht r hr
  cases he : respondTo g a m r w with
  | mk ev e =>
    rw [he] at ha
    cases e with
    | ok u =>
      refine (bind_eq ha).trans ?_
      rw [enrol_put _ s b _ _ k hif'' (by simp [SyncMap.load_store]) hi]
      simp only [List.append_nil]
      rfl
    | err e => rw [bind_def]; unfold H.bind; rw [ha]; rfl
    | panic => rw [bind_def]; unfold H.bind; rw [ha]; rfl
    | diverge => rw [bind_def]; unfold H.bind; rw [ha]; rfl

end Verif.V2.Pgw
