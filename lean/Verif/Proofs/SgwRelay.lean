import Verif.Proofs.SgwCreated
/-
Helper lemmas for Props/Sgw.lean: the P-GW's answer is changed and sent to the MME.
-/
namespace Verif.V2.Sgw
open Res Send Conn NetIP Spec IPSpec
open Pgw (H lift set read need dropIMSI drop respond getTEID deref mustTEID activateH forget Droppable fteidOf fteidOf_reads fteid_text
  mustTEID_of v4_text lift_bind set_to need_bind read_bind put_new put_update put_updateBearer put_addTEID put_reserve put_register put_drop
  put_heap put_brs put_localIf length_encFTEID')

theorem marshalLens_sum (g : UInt8 → Bool) (l : List IE) : marshalLens g l = (l.map (IE.marshalLen g)).sum := by
  induction l with
  | nil => rfl
  | cons x l ih => simp [marshalLens, ih]

theorem sum_filter {α : Type} (f : α → Nat) (P : α → Bool) (l : List α) : ((l.filter P).map f).sum ≤ (l.map f).sum := by
  induction l with
  | nil => simp
  | cons x l ih =>
    rw [List.filter_cons]
    split
    · simp only [List.map_cons, List.sum_cons]; omega
    · simp only [List.map_cons, List.sum_cons]; omega

/-- the sum over the fields after one was assigned -/
theorem sum_upd (f : IE → Nat) (F : Msg.Fields IE) (k : Nat) (l : List IE) (o : List Nat) (hn : o.Nodup) (hk : k ∈ o) :
    (o.map (fun j => ((Msg.upd F k l j).map f).sum)).sum + ((F k).map f).sum = (o.map (fun j => ((F j).map f).sum)).sum + (l.map f).sum := by
  induction o with
  | nil => cases hk
  | cons j o ih =>
    have hn := List.nodup_cons.1 hn
    simp only [List.map_cons, List.sum_cons]
    by_cases e : k = j
    · subst e
      have : (o.map (fun j => ((Msg.upd F k l j).map f).sum)) = o.map (fun j => ((F j).map f).sum) := by
        refine List.map_congr_left fun i hi => ?_
        rw [Msg.upd_ne _ _ (fun (e : i = k) => hn.1 (e ▸ hi))]
      rw [this, Msg.upd_same]
      omega
    · rw [Msg.upd_ne _ _ (Ne.symm e)]
      have := ih hn.2 (by rcases List.mem_cons.1 hk with h | h; exact absurd h e; exact h)
      omega

/-- Create Session Response files every element by one of two actions -/
theorem resp_act (g : UInt8 → Bool) (x : IE) : (∃ f, Msg.unAct (ieOps g) Tab.createSessionResponse x = .set f) ∨
    ∃ f, Msg.unAct (ieOps g) Tab.createSessionResponse x = .app f := by
  unfold Msg.unAct
  have all : ∀ r ∈ Tab.createSessionResponse.unRules, (∃ f, f < 64 ∧ r.act = .set f) ∨ ∃ f, f < 64 ∧ r.act = .app f := by decide +kernel
  rcases Msg.sel_cases Tab.createSessionResponse.unRules Tab.createSessionResponse.unDefault ((ieOps g).typ x).toNat ((ieOps g).inst x).toNat with
    e | ⟨r, hr, _, e⟩
  · exact Or.inr ⟨34, e⟩
  · rcases all r hr with ⟨f, _, e'⟩ | ⟨f, _, e'⟩
    · exact Or.inl ⟨f, e.trans e'⟩
    · exact Or.inr ⟨f, e.trans e'⟩

/-- in a Create Session Response every element has one field, decided by its type and instance -/
theorem home_any (g : UInt8 → Bool) (F F' : Msg.Fields IE) (k : Nat) {x y : IE} (ht : x.typ = y.typ) (hi : x.instance' = y.instance')
    (h : Msg.Home (ieOps g) Tab.createSessionResponse F k x) : Msg.Home (ieOps g) Tab.createSessionResponse F' k y := by
  have exy : Msg.unAct (ieOps g) Tab.createSessionResponse y = Msg.unAct (ieOps g) Tab.createSessionResponse x := by
    unfold Msg.unAct
    have e1 : (ieOps g).typ x = (ieOps g).typ y := ht
    have e2 : (ieOps g).inst x = (ieOps g).inst y := hi
    rw [e1, e2]
  unfold Msg.Home at h ⊢
  rw [exy]
  rcases resp_act g x with ⟨f, e⟩ | ⟨f, e⟩ <;> rw [e] at h ⊢ <;> simp only [Msg.Act.apply, Msg.upd] at h ⊢
  · split at h
    · rename_i e; simp [e]
    · simp at h
  · split at h
    · rename_i e; simp [e]
    · simp at h

theorem bearer_typ {g : UInt8 → Bool} {d : Bytes} {m : Message} (h : parseMsg g d = ok m) (hs : m.schema = Tab.createSessionResponse)
    {i : IE} (hi : i ∈ m.fields 11) : i.typ = 93 := by
  have hf := (C77_v2_start g d m h).home 11 i hi
  unfold Msg.Home at hf
  have ht := Msg.apply_target hf
  unfold Msg.unAct at ht
  rw [hs] at ht
  rcases Msg.sel_cases Tab.createSessionResponse.unRules Tab.createSessionResponse.unDefault ((ieOps g).typ i).toNat ((ieOps g).inst i).toNat with e | ⟨r, hr, e1, e⟩
  · rw [e] at ht
    exact absurd ht (by decide)
  · rw [e] at ht
    have key : ∀ r ∈ Tab.createSessionResponse.unRules, 11 ∈ r.act.targets ∨ 11 ∈ r.act.frozen → r.typ = 93 := by decide +kernel
    have := key r hr ht
    rw [this] at e1
    exact UInt8.toNat.inj e1.symm

/-- the Bearer Context for the MME -/
def relayedBearer (g : UInt8 → Bool) (bc uf : IE) : IE :=
  .mk 93 (UInt16.ofNat (rawEncs g (keep 94 0 (bc.children ++ [uf]))).length) bc.rawInst (rawEncs g (keep 94 0 (bc.children ++ [uf])))
    (keep 94 0 (bc.children ++ [uf]))

/-- the fields of the message for the MME -/
def relayedFields (g : UInt8 → Bool) (m : Message) (bc : IE) (rest : List IE) (f11 uf fc : IE) : Msg.Fields IE :=
  Msg.upd (Msg.upd (Msg.upd m.fields 4 [f11]) 17 [fc]) 11 (relayedBearer g bc uf :: rest)

theorem relayed_eq {g : UInt8 → Bool} (hg : Usual g) {p : Cfg} {w : Bytes} (hw : w.length = 4 ∧ p.s1uIP = ipString w) {d : Bytes} {m : Message}
    (hp : parseMsg g d = ok m) (hs : m.schema = Tab.createSessionResponse) {bc : IE} {rest : List IE} (h11 : m.fields 11 = bc :: rest)
    (f11 uf : IE) (mme : UInt32) :
    relayed g p m f11 uf mme =
      ok (setLength g { m with fields := relayedFields g m bc rest f11 uf (csidIE 1 w), hdr := m.hdr.setTEID mme }) := by
  have ht := bearer_typ hp hs (i := bc) (by rw [h11]; simp)
  unfold relayed
  rw [hw.2, csid_v4 hw.1]
  simp only [bind_ok, deref, h11, first]
  cases bc with
  | mk t n i p cs =>
    obtain rfl : t = 93 := ht
    rw [add_eq g hg.g93, bind_ok, remove_eq g hg.g93, bind_ok]
    rfl

theorem relay_sent {g : UInt8 → Bool} (hg : Usual g) {d : Bytes} {m : Message} (hp : parseMsg g d = ok m)
    (hs : m.schema = Tab.createSessionResponse) (hd : d.length ≤ 1459) {bc : IE} {rest : List IE} (h11 : m.fields 11 = bc :: rest)
    {w11 w1u : Bytes} (hw11 : w11.length = 4) (hw1u : w1u.length = 4) (k ku mme q : UInt32) (hq : q.toNat < 2 ^ 24) :
    ∃ m₁ out m', marshalMsg g (setSeq (setLength g { m with
          fields := relayedFields g m bc rest (fteidOf 11 0 k (ipString w11)) (fteidOf 1 0 ku (ipString w1u)) (csidIE 1 w1u), hdr := m.hdr.setTEID mme }) q) = ok (m₁, out) ∧
      out.length ≤ 1500 ∧ parseMsg g out = ok m' ∧ m'.schema = Tab.createSessionResponse ∧ m'.hdr.teidAcc = mme ∧ m'.hdr.sequence = q ∧
      m'.fields = relayedFields g m bc rest (fteidOf 11 0 k (ipString w11)) (fteidOf 1 0 ku (ipString w1u)) (csidIE 1 w1u) := by
  have ht := bearer_typ hp hs (i := bc) (by rw [h11]; simp)
  have b1 := fteid_size g hg.g87 11 0 k hw11
  have b2 := fteid_size g hg.g87 1 0 ku hw1u
  have b3 := csid_size g hg.g132 1 hw1u
  have wu : wf g (fteidOf 1 0 ku (ipString w1u)) = true := new_wf hg.g87 _ (Nat.lt_of_le_of_lt (length_encFTEID' _ _ _) (by decide))
  have w1 : wf g (fteidOf 11 0 k (ipString w11)) = true := new_wf hg.g87 _ (Nat.lt_of_le_of_lt (length_encFTEID' _ _ _) (by decide))
  have wc : wf g (csidIE 1 w1u) = true := new_wf hg.g132 _ (by simp [encCSID, hw1u])
  generalize hu : fteidOf 1 0 ku (ipString w1u) = uf at *
  have hm0 := Made.received (g := g) d m hp
  have hfit := C77_v2_start g d m hp
  have hwf := received_wf g d m hp
  have size := parsed_size hp
  rw [hs, sum_flatMap] at size
  have wbc := hwf 11 bc (by rw [h11]; simp)
  -- the Bearer Context
  have lenb : (relayedBearer g bc uf).marshalLen g ≤ bc.marshalLen g + 13 := by
    cases bc with
    | mk t n i p cs =>
      obtain rfl : t = 93 := ht
      simp only [relayedBearer, IE.marshalLen, hg.g93, if_true, IE.children]
      have := sum_filter (IE.marshalLen g) (fun c => !(c.typ == (94 : UInt8) && c.instance' == 0)) (cs ++ [uf])
      rw [marshalLens_sum, marshalLens_sum]
      simp only [List.map_append, List.sum_append, List.map_cons, List.map_nil, List.sum_cons, List.sum_nil, b2] at this
      unfold keep
      omega
  have lbc : ((m.fields 11).map (IE.marshalLen g)).sum ≤ (Tab.createSessionResponse.orderF.map (fun k => ((m.fields k).map (IE.marshalLen g)).sum)).sum := by
    have := sum_upd (IE.marshalLen g) m.fields 11 [] Tab.createSessionResponse.orderF (by decide) (by decide)
    simp only [List.map_nil, List.sum_nil] at this
    omega
  rw [h11, List.map_cons, List.sum_cons] at lbc
  have wrb : wf g (relayedBearer g bc uf) = true := by
    unfold relayedBearer
    have wk : wfs g (keep 94 0 (bc.children ++ [uf])) = true := by
      rw [wfs_iff]
      intro x hx
      have hx := (List.mem_filter.1 hx).1
      rcases List.mem_append.1 hx with hx | hx
      · cases bc with
        | mk t n i p cs =>
          obtain rfl : t = 93 := ht
          rw [wf_grouped g hg.g93] at wbc
          exact (wfs_iff g _).1 wbc.2.2 x hx
      · rw [List.mem_singleton.1 hx]; exact wu
    rw [wf_grouped g hg.g93]
    refine ⟨toNat_ofNat16 ?_, rawEncs_wf g _ wk, wk⟩
    have := lenb
    simp only [relayedBearer, IE.marshalLen, hg.g93, if_true] at this
    rw [length_rawEncs]
    omega
  -- the message
  generalize hF : relayedFields g m bc rest (fteidOf 11 0 k (ipString w11)) uf (csidIE 1 w1u) = F
  have F4 : F 4 = [fteidOf 11 0 k (ipString w11)] := by rw [← hF]; rfl
  have F17 : F 17 = [csidIE 1 w1u] := by rw [← hF]; rfl
  have F11 : F 11 = relayedBearer g bc uf :: rest := by rw [← hF]; rfl
  have FE : ∀ j, j ≠ 4 → j ≠ 17 → j ≠ 11 → F j = m.fields j := by
    intro j h4 h17 h11
    rw [← hF]; unfold relayedFields
    rw [Msg.upd_ne _ _ h11, Msg.upd_ne _ _ h17, Msg.upd_ne _ _ h4]
  have hfitF : Msg.Fits (ieOps g) Tab.createSessionResponse F := by
    refine ⟨fun j x hx => ?_, fun j hj => ?_⟩
    · by_cases e4 : j = 4
      · subst e4
        rw [F4, List.mem_singleton] at hx
        subst hx
        have e : Msg.unAct (ieOps g) Tab.createSessionResponse (fteidOf 11 0 k (ipString w11)) = .set 4 :=
          (by decide : Msg.sel Tab.createSessionResponse.unRules Tab.createSessionResponse.unDefault (87 : UInt8).toNat ((0 : UInt8) &&& 0x0f).toNat = .set 4)
        unfold Msg.Home
        rw [e]; simp [Msg.Act.apply]
      by_cases e17 : j = 17
      · subst e17
        rw [F17, List.mem_singleton] at hx
        subst hx
        have e : Msg.unAct (ieOps g) Tab.createSessionResponse (csidIE 1 w1u) = .set 17 :=
          (by decide : Msg.sel Tab.createSessionResponse.unRules Tab.createSessionResponse.unDefault (132 : UInt8).toNat ((1 : UInt8) &&& 0x0f).toNat = .set 17)
        unfold Msg.Home
        rw [e]; simp [Msg.Act.apply]
      by_cases e11 : j = 11
      · subst e11
        rw [F11] at hx
        rcases List.mem_cons.1 hx with rfl | hx
        · exact home_any g m.fields F 11 (x := bc) ht (by cases bc; rfl) (hs ▸ hfit.home 11 bc (by rw [h11]; simp))
        · exact home_any g m.fields F 11 rfl rfl (hs ▸ hfit.home 11 x (by rw [h11]; simp [hx]))
      · rw [FE j e4 e17 e11] at hx
        exact home_any g m.fields F j rfl rfl (hs ▸ hfit.home j x hx)
    · by_cases e4 : j = 4
      · rw [e4, F4]; simp
      by_cases e17 : j = 17
      · rw [e17, F17]; simp
      by_cases e11 : j = 11
      · rw [e11] at hj; exact absurd hj (by decide)
      · rw [FE j e4 e17 e11]
        exact hfit.one j (by rw [hs]; exact hj)
  have hwF : ∀ j, ∀ x ∈ F j, wf g x = true := by
    intro j x hx
    by_cases e4 : j = 4
    · rw [e4, F4, List.mem_singleton] at hx; rw [hx]; exact w1
    by_cases e17 : j = 17
    · rw [e17, F17, List.mem_singleton] at hx; rw [hx]; exact wc
    by_cases e11 : j = 11
    · rw [e11, F11] at hx
      rcases List.mem_cons.1 hx with rfl | hx
      · exact wrb
      · exact hwf 11 x (by rw [h11]; simp [hx])
    · rw [FE j e4 e17 e11] at hx; exact hwf j x hx
  have hM : Made g (setSeq (setLength g { m with fields := F, hdr := m.hdr.setTEID mme }) q) := by
    rw [← hF]
    exact .numbered _ (.resized _ (.addressed _ (.assigned _ (.assigned _ (.assigned _ hm0 4 _) 17 _) 11 _) mme)) q hq
  have hlenF : ((Tab.createSessionResponse.orderF.map (fun j => ((F j).map (IE.marshalLen g)).sum)).sum) + 8 ≤ d.length + 37 := by
    have s1 := sum_upd (IE.marshalLen g) m.fields 4 [fteidOf 11 0 k (ipString w11)] Tab.createSessionResponse.orderF (by decide) (by decide)
    have s2 := sum_upd (IE.marshalLen g) (Msg.upd m.fields 4 [fteidOf 11 0 k (ipString w11)]) 17 [csidIE 1 w1u] Tab.createSessionResponse.orderF (by decide) (by decide)
    have s3 := sum_upd (IE.marshalLen g) (Msg.upd (Msg.upd m.fields 4 [fteidOf 11 0 k (ipString w11)]) 17 [csidIE 1 w1u]) 11 (relayedBearer g bc uf :: rest)
      Tab.createSessionResponse.orderF (by decide) (by decide)
    have e : Msg.upd (Msg.upd (Msg.upd m.fields 4 [fteidOf 11 0 k (ipString w11)]) 17 [csidIE 1 w1u]) 11 (relayedBearer g bc uf :: rest) = F := hF
    rw [e] at s3
    have e11 : Msg.upd (Msg.upd m.fields 4 [fteidOf 11 0 k (ipString w11)]) 17 [csidIE 1 w1u] 11 = bc :: rest := h11
    rw [e11] at s3
    simp only [List.map_cons, List.map_nil, List.sum_cons, List.sum_nil, b1, b3] at s1 s2 s3
    omega
  have hbody : (Msg.body (rawEnc g) Tab.createSessionResponse F).length = (Tab.createSessionResponse.orderF.map (fun j => ((F j).map (IE.marshalLen g)).sum)).sum := by
    rw [Msg.length_body (ieLaws g) _ (by decide +kernel) F (fun _ _ _ => trivial), ← Msg.sum_emit _ (by decide +kernel), Msg.emit_eq]
    exact sum_flatMap _ _ _
  have hml : Msg.marshalLen hdrOps (ieOps g) (setSeq (setLength g { m with fields := F, hdr := m.hdr.setTEID mme }) q) =
      12 + ((Tab.createSessionResponse.orderF.map (fun j => ((F j).map (IE.marshalLen g)).sum)).sum : Nat) := by
    rw [marshalLen_done g _ (by show m.schema.lensOK = true; rw [hs]; decide +kernel), marshalLen_done_hdr]
    have e1 : (setSeq (setLength g { m with fields := F, hdr := m.hdr.setTEID mme }) q).schema = Tab.createSessionResponse := hs
    have e2 : (setSeq (setLength g { m with fields := F, hdr := m.hdr.setTEID mme }) q).fields = F := rfl
    have e3 : (setSeq (setLength g { m with fields := F, hdr := m.hdr.setTEID mme }) q).hdr.flags.toNat / 8 % 2 = 1 := by
      show (m.hdr.flags ||| ((1 : UInt8) <<< 3)).toNat / 8 % 2 = 1
      exact forall_byte (p := fun f => (f ||| ((1 : UInt8) <<< 3)).toNat / 8 % 2 = 1) (by decide +kernel) _
    rw [e1, e2, if_pos e3, hbody]
    omega
  obtain ⟨m₁, out, m', h1, h2, h3, h4, h5, h6, h7, h8, h9, _⟩ := C77_v2_partial g _ hM hwF (by exact hs ▸ hfitF) (by rw [hml]; omega) (by rw [hml]; omega)
    (fun e => absurd (hs.symm.trans e) (fun e => absurd (congrArg Msg.Schema.typ e) (by decide)))
  refine ⟨m₁, out, m', h1, ?_, h3, h4.trans hs, ?_, h9, h5⟩
  · rw [hml] at h2; omega
  · have e3 : m'.hdr.flags = m.hdr.flags ||| ((1 : UInt8) <<< 3) := h6
    have e4 : m'.hdr.teid = mme := h8
    have : m'.hdr.hasTEID = true := by
      unfold Header.hasTEID
      rw [e3]
      exact forall_byte (p := fun f => (((f ||| ((1 : UInt8) <<< 3)) >>> 3) &&& 1 == 1) = true) (by decide +kernel) _
    rw [Header.teidAcc, this, if_pos rfl, e4]

end Verif.V2.Sgw
