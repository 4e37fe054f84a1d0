import Verif.Proofs.Mme
/-
Helper lemmas for Props/Mme.lean: the S-GW's answers and the MME's Modify Bearer Request.
-/
namespace Verif.V2.Mme
open Res Send Conn NetIP Spec IPSpec Utils
open Pgw (H lift set read need drop getTEID deref mustTEID activateH fteidOf fteidOf_reads fteid_text
  v4_text lift_bind set_to need_bind read_bind put_new put_update put_updateBearer put_addTEID put_reserve put_register
  put_heap put_brs put_localIf length_encFTEID' put_activate put_self)
open Sgw (text portC portU someBearer set_eq fteid_ip)

/-! ### Create Session Response -/

/-- what the children of the Bearer Context leave in the session -/
theorem children_put {g : UInt8 → Bool} {bc be bp bs : IE} {v : UInt8} {f1 f2 : UInt8} {t1 t2 : UInt32} (h1 : bc.typ = 2) (h2 : be.typ = 73) (h2' : be.ebi g = ok v)
    (h3 : bp.typ = 87) (i3 : bp.interfaceType = ok f1) (k3 : bp.teid = ok t1) (h4 : bs.typ = 87) (i4 : bs.interfaceType = ok f2) (k4 : bs.teid = ok t2)
    (h0 : bs.instance' = 0) (c : Conn) (s b : Nat) (x : Sess) (y : Bearer) :
    ∃ T, children g s (some b) [bc, be, bp, bs] (Pgw.put c s b x y) = (Pgw.put c s b { x with teids := T } { y with ebi := v }, [], ok ()) ∧
      T.load f2 = some t2 ∧ ∀ f, f ∉ [f1, f2] → T.load f = x.teids.load f := by
  have n1 : (2 : UInt8) ≠ 73 := by decide
  have n2 : (2 : UInt8) ≠ 87 := by decide
  have n3 : (87 : UInt8) ≠ 73 := by decide
  by_cases hi : bp.instance' = 0
  · refine ⟨(x.teids.store f1 t1).store f2 t2, ?_, by simp [SyncMap.load_store], fun f hf => ?_⟩
    · simp only [children]
      refine (Pgw.bind_eq' (c' := Pgw.put c s b x y) (a := ()) ?_).trans ?_
      · simp [child, h1]; rfl
      refine (Pgw.bind_eq' (c' := Pgw.put c s b x { y with ebi := v }) (a := ()) ?_).trans ?_
      · unfold child; rw [if_pos h2]
        refine (lift_bind (a := b) rfl _ _).trans ?_
        rw [h2']
        exact set_eq (put_updateBearer _ _ _ _ _ _)
      refine (Pgw.bind_eq' (c' := Pgw.put c s b { x with teids := x.teids.store f1 t1 } { y with ebi := v }) (a := ()) ?_).trans ?_
      · unfold child; rw [if_neg (by rw [h3]; exact n3), if_pos h3, if_neg (by simp [hi])]
        refine (lift_bind i3 _ _).trans ?_
        refine (lift_bind k3 _ _).trans ?_
        exact set_eq (put_addTEID _ _ _ _ _ _ _)
      refine (Pgw.bind_eq' (c' := Pgw.put c s b { x with teids := (x.teids.store f1 t1).store f2 t2 } { y with ebi := v }) (a := ()) ?_).trans rfl
      · unfold child; rw [if_neg (by rw [h4]; exact n3), if_pos h4, if_neg (by simp [h0])]
        refine (lift_bind i4 _ _).trans ?_
        refine (lift_bind k4 _ _).trans ?_
        exact set_eq (put_addTEID _ _ _ _ _ _ _)
    · simp only [List.mem_cons, List.not_mem_nil, or_false, not_or] at hf
      simp [SyncMap.load_store, hf]
  · refine ⟨x.teids.store f2 t2, ?_, by simp [SyncMap.load_store], fun f hf => ?_⟩
    · simp only [children]
      refine (Pgw.bind_eq' (c' := Pgw.put c s b x y) (a := ()) ?_).trans ?_
      · simp [child, h1]; rfl
      refine (Pgw.bind_eq' (c' := Pgw.put c s b x { y with ebi := v }) (a := ()) ?_).trans ?_
      · unfold child; rw [if_pos h2]
        refine (lift_bind (a := b) rfl _ _).trans ?_
        rw [h2']
        exact set_eq (put_updateBearer _ _ _ _ _ _)
      refine (Pgw.bind_eq' (c' := Pgw.put c s b x { y with ebi := v }) (a := ()) ?_).trans ?_
      · unfold child; rw [if_neg (by rw [h3]; exact n3), if_pos h3, if_pos hi]; rfl
      refine (Pgw.bind_eq' (c' := Pgw.put c s b { x with teids := x.teids.store f2 t2 } { y with ebi := v }) (a := ()) ?_).trans rfl
      · unfold child; rw [if_neg (by rw [h4]; exact n3), if_pos h4, if_neg (by simp [h0])]
        refine (lift_bind i4 _ _).trans ?_
        refine (lift_bind k4 _ _).trans ?_
        exact set_eq (put_addTEID _ _ _ _ _ _ _)
    · simp only [List.mem_cons, List.not_mem_nil, or_false, not_or] at hf
      simp [SyncMap.load_store, hf]

theorem orDrop_ok {α : Type} {s : Nat} {x : H α} {c c' : Conn} {a : α} (h : x c = (c', [], ok a)) : orDrop s x c = (c', [], ok a) := by
  unfold orDrop Sgw.orDrop; rw [h]

theorem read_created {g : UInt8 → Bool} {a : Addr} {m : Message} {c : Conn} {s b : Nat} (hs : getSessionByTEID c m.hdr.teidAcc a = ok s)
    (hsc : m.schema = Tab.createSessionResponse) (hc : ∃ i r, m.fields 0 = i :: r ∧ i.cause g = ok 16) (hb : getDefaultBearer c s = some b)
    (hpaa : ∀ i, (m.fields 6).head? = some i → ∃ v, i.ipAddress = ok v) {t : UInt32} (h4 : ∃ i r, m.fields 4 = i :: r ∧ i.teid = ok t)
    (h10 : (c.heap s).teids.load 10 ≠ none) (hI : (c.heap s).imsi ≠ [])
    {bc be bp bs : IE} {v : UInt8} {f1 f2 : UInt8} {t1 t2 : UInt32} (h11 : ∃ i r, m.fields 11 = i :: r ∧ i.children = [bc, be, bp, bs])
    (x1 : bc.typ = 2) (x2 : be.typ = 73) (x2' : be.ebi g = ok v)
    (x3 : bp.typ = 87) (i3 : bp.interfaceType = ok f1) (k3 : bp.teid = ok t1) (x4 : bs.typ = 87) (i4 : bs.interfaceType = ok f2) (k4 : bs.teid = ok t2)
    (x0 : bs.instance' = 0) (hf : f1 ≠ 11 ∧ f2 ≠ 11) :
    ∃ T, readCreated g a m c = (Pgw.put c s b { c.heap s with teids := T, active := true } { c.brs b with ebi := v }, [], ok ()) ∧
      T.load 11 = some t ∧ T.load f2 = some t2 ∧ ∀ f, f ∉ [f1, f2, 11] → T.load f = (c.heap s).teids.load f := by
  obtain ⟨i0, r0, e0, e0'⟩ := hc
  obtain ⟨j4, r4, e4, e4'⟩ := h4
  obtain ⟨j11, r11, e11, e11'⟩ := h11
  obtain ⟨T, hT, hT1, hT2⟩ := children_put (g := g) x1 x2 x2' x3 i3 k3 x4 i4 k4 x0 c s b { c.heap s with teids := (c.heap s).teids.store 11 t } (c.brs b)
  refine ⟨T, ?_, ?_, hT1, fun f hf => ?_⟩
  · unfold readCreated
    simp only [hs]
    refine (read_bind _ _ _).trans ?_
    rw [if_neg (by rw [hsc]; simp [Tab.createSessionResponse])]
    refine (Pgw.bind_eq' (c' := c) (a := ()) ?_).trans ?_
    · unfold causeOf
      refine (need_bind e0 _ _).trans ?_
      refine (lift_bind e0' _ _).trans ?_
      rw [if_neg (by simp)]; rfl
    rw [hb]
    refine (Pgw.bind_eq' (c' := c) (a := ()) ?_).trans ?_
    · unfold paaOf
      cases hp : (m.fields 6).head? with
      | none => rfl
      | some i =>
        obtain ⟨v, hv⟩ := hpaa i hp
        refine (lift_bind (a := b) rfl _ _).trans ?_
        refine (lift_bind hv _ _).trans ?_
        rfl
    refine (need_bind e4 _ _).trans ?_
    refine (lift_bind e4' _ _).trans ?_
    have hself := put_self c s b
    refine (set_to (c' := Pgw.put c s b { c.heap s with teids := (c.heap s).teids.store 11 t } (c.brs b)) ?_ _).trans ?_
    · conv => lhs; rw [← hself]
      exact put_addTEID _ _ _ _ _ _ _
    refine (Pgw.bind_eq' (orDrop_ok (Sgw.getTEID_some (t := t) (by rw [put_heap]; simp [SyncMap.load_store])))).trans ?_
    obtain ⟨t10, ht10⟩ := Option.ne_none_iff_exists'.1 h10
    refine (Pgw.bind_eq' (orDrop_ok (Sgw.getTEID_some (t := t10) (by rw [put_heap]; simp [SyncMap.load_store, ht10])))).trans ?_
    refine (need_bind e11 _ _).trans ?_
    rw [e11']
    refine (Pgw.bind_eq' hT).trans ?_
    refine orDrop_ok ?_
    unfold activateH
    rw [if_neg (by rw [put_heap]; exact hI), put_activate _ _ _ _ _ (by exact hI)]
  · rw [hT2 11 (by simp [Ne.symm hf.1, Ne.symm hf.2])]; simp [SyncMap.load_store]
  · simp only [List.mem_cons, List.not_mem_nil, or_false, not_or] at hf
    rw [hT2 f (by simp [hf])]; simp [SyncMap.load_store, hf]

theorem handle_created {g : UInt8 → Bool} {a : Addr} {m : Message} {st : State} {c : Conn} (h : readCreated g a m st.s11 = (c, [], ok ())) :
    handleCreated g a m st = ({ withC st c with created := st.created + 1 }, [], ok ()) := by
  unfold handleCreated
  exact (on_go rfl h _).trans rfl

/-! ### Modify Bearer -/

/-- the Bearer Context of the Modify Bearer Request -/
def modIE (g : UInt8 → Bool) (ebi : UInt8) (f : IE) : IE :=
  .mk 93 (UInt16.ofNat (rawEncs g [newEBI ebi, f, newIE 126 0 [8, 77]]).length) 0 (rawEncs g [newEBI ebi, f, newIE 126 0 [8, 77]])
    [newEBI ebi, f, newIE 126 0 [8, 77]]

theorem mod_eq (g : UInt8 → Bool) (ebi : UInt8) (f : IE) :
    newBearerContext g [some (newEBI ebi), some f, some (Plain.new16 ⟨"PortNumber", 126, [126]⟩ 2125)] = ok (some (modIE g ebi f)) := by
  rw [newBearerContext, newGrouped_eq]
  rfl

def indIE : IE := newIE 77 0 [0, 0, 0, 0, 0, 0, 0]

theorem mod_fields (g : UInt8 → Bool) (ebi : UInt8) (f : IE) :
    Msg.newFields (ieOps g) Tab.modifyBearerRequest [some indIE, some (modIE g ebi f)] 8 = [modIE g ebi f] ∧
    Msg.newFields (ieOps g) Tab.modifyBearerRequest [some indIE, some (modIE g ebi f)] 4 = [indIE] := by
  have hpick := fun j => Sgw.pick (Msg.newAct (ieOps g) Tab.modifyBearerRequest) [(4, some indIE), (8, some (modIE g ebi f))] (by simp) (by
    intro j y hq
    simp only [List.mem_cons, Prod.mk.injEq, Option.some.injEq, List.not_mem_nil, or_false] at hq
    rcases hq with ⟨rfl, rfl⟩ | ⟨rfl, rfl⟩
    · exact Or.inl (by decide : Msg.sel Tab.modifyBearerRequest.newRules Tab.modifyBearerRequest.newDefault (77 : UInt8).toNat ((0 : UInt8) &&& 0x0f).toNat = .set 4)
    · exact Or.inr (by decide : Msg.sel Tab.modifyBearerRequest.newRules Tab.modifyBearerRequest.newDefault (93 : UInt8).toNat ((0 : UInt8) &&& 0x0f).toNat = .app 8))
    Msg.Fields.empty (fun _ _ => rfl) j
  exact ⟨hpick 8, hpick 4⟩

theorem mod_sendable {g : UInt8 → Bool} (hg : Usual g) (ebi : UInt8) (t : UInt32) {w : Bytes} (hw : w.length = 4) :
    Sendable g Tab.modifyBearerRequest [some indIE, some (modIE g ebi (fteidOf 0 0 t (ipString w)))] := by
  have hg := hg
  have z1 : (newEBI ebi).marshalLen g = 5 := new_size hg.sgw.g73 0 [ebi]
  have z2 := Sgw.fteid_size g hg.sgw.g87 0 0 t hw
  have z3 : (newIE 126 0 [8, 77]).marshalLen g = 6 := new_size (hg.plain 126 (by simp)) 0 _
  have z4 : indIE.marshalLen g = 11 := new_size (hg.plain 77 (by simp)) 0 _
  have z5 : (modIE g ebi (fteidOf 0 0 t (ipString w))).marshalLen g = 28 := by
    rw [modIE, IE.marshalLen]
    simp only [hg.sgw.g93, if_true, marshalLens, z1, z2, z3]
  refine ⟨by simp [Tab.all], ⟨?_, ?_⟩, ⟨?_, ?_, ?_⟩, ?_⟩
  · intro y hq
    simp only [List.mem_cons, Option.some.injEq, List.not_mem_nil, or_false] at hq
    rcases hq with rfl | rfl
    · exact Sgw.new_wf (hg.plain 77 (by simp)) _ (by simp)
    · have wk : wfs g [newEBI ebi, fteidOf 0 0 t (ipString w), newIE 126 0 [8, 77]] = true := by
        rw [wfs_iff]
        intro z hz
        simp only [List.mem_cons, List.not_mem_nil, or_false] at hz
        rcases hz with rfl | rfl | rfl
        · exact Sgw.new_wf hg.sgw.g73 _ (by simp)
        · exact Sgw.new_wf hg.sgw.g87 _ (Nat.lt_of_le_of_lt (length_encFTEID' _ _ _) (by decide))
        · exact Sgw.new_wf (hg.plain 126 (by simp)) _ (by simp)
      have l := z5
      rw [modIE, IE.marshalLen, if_pos hg.sgw.g93, ← length_rawEncs] at l
      rw [modIE, wf_grouped g hg.sgw.g93]
      exact ⟨toNat_ofNat16 (by omega), rawEncs_wf g _ wk, wk⟩
  · simp [z4, z5]
  · intro e; exact absurd (congrArg Msg.Schema.typ e) (by decide)
  · intro e; exact absurd (congrArg Msg.Schema.typ e) (by decide)
  · intro e; exact absurd (congrArg Msg.Schema.typ e) (by decide)
  · rintro (e | e) <;> exact absurd (congrArg Msg.Schema.typ e) (by decide)

theorem modify_step {g : UInt8 → Bool} (hg : Usual g) {st : State} {s b : Nat} {t itei : UInt32} {w : Bytes} (hw : w.length = 4)
    (h11 : (st.s11.heap s).teids.load 11 = some t) (he : st.enbIP = ipString w) (hb : getDefaultBearer st.s11 s = some b) :
    ∃ out m, modifyBearer g s itei true st = ({ st with n := inc st.n }, [.s11 (.sent (st.s11.heap s).peer out)], ok ()) ∧
      parseMsg g (asRead out) = ok m ∧ m.schema = Tab.modifyBearerRequest ∧ m.hdr.teidAcc = t ∧ m.hdr.sequence = inc st.n ∧
      m.fields 8 = [modIE g (st.s11.brs b).ebi (fteidOf 0 0 itei (ipString w))] := by
  obtain ⟨out, m, p1, p2, p3, p4, p5, p6, -⟩ := posted (mod_sendable hg (st.s11.brs b).ebi itei hw) t st.n (st.s11.heap s).peer rfl
  refine ⟨out, m, ?_, p2, p3, p4, p5, by rw [p6]; exact (mod_fields g _ _).1⟩
  unfold modifyBearer
  refine (on_go (c₀ := st.s11) rfl (Sgw.getTEID_some h11) _).trans ?_
  refine (ask_go (a := ipString w) he _).trans ?_
  refine (val_bind (fteid_text 0 itei (ipString w) (by decide)) _ _).trans ?_
  refine (ask_go (a := some b) hb _).trans ?_
  refine (val_bind (a := b) rfl _ _).trans ?_
  refine (ask_go (a := (st.s11.brs b).ebi) rfl _).trans ?_
  refine (val_bind (mod_eq g (st.s11.brs b).ebi (fteidOf 0 0 itei (ipString w))) _ _).trans ?_
  have hC : Conn.modifyBearer st.s11 s g st.n t [some (newIndicationOctets [0, 0, 0, 0, 0, 0, 0]), some (modIE g (st.s11.brs b).ebi (fteidOf 0 0 itei (ipString w)))] true =
      (inc st.n, [.sent (st.s11.heap s).peer out], ok (inc st.n)) := p1
  show (({ st with n := (Conn.modifyBearer st.s11 s g st.n t _ true).1 } : State), (Conn.modifyBearer st.s11 s g st.n t _ true).2.1.map Out.s11, ((Conn.modifyBearer st.s11 s g st.n t _ true).2.2 >>= fun _ => ok ())) = _
  rw [hC]; rfl

/-! ### Modify Bearer Response -/

theorem handle_modified {g : UInt8 → Bool} {a : Addr} {m : Message} {st : State} {s : Nat} (hs : getSessionByTEID st.s11 m.hdr.teidAcc a = ok s)
    (hsc : m.schema = Tab.modifyBearerResponse) (hc : ∃ i r, m.fields 0 = i :: r ∧ i.cause g = ok 16)
    {bc be bf : IE} {f : UInt8} {t : UInt32} {ip : Bytes} (h5 : ∃ i r, m.fields 5 = i :: r ∧ i.children = [bc, be, bf])
    (x1 : bc.typ = 2) (x2 : be.typ = 73) (x3 : bf.typ = 87) (x0 : bf.instance' = 0) (i3 : bf.interfaceType = ok f) (k3 : bf.teid = ok t)
    (a3 : bf.ipAddress = ok ip) :
    handleModified g a m st = ({ st with s11 := addTEID st.s11 s f t, sgwIP := ip, modified := st.modified + 1 }, [], ok ()) := by
  obtain ⟨i0, r0, e0, e0'⟩ := hc
  obtain ⟨j5, r5, e5, e5'⟩ := h5
  have n1 : ¬ (2 : UInt8) = 87 := by decide
  have n2 : ¬ (73 : UInt8) = 87 := by decide
  unfold handleModified
  refine (ask_go rfl _).trans ?_
  refine (val_bind hs _ _).trans ?_
  rw [if_neg (by rw [hsc]; simp [Tab.modifyBearerResponse])]
  refine (on_go (c₀ := st.s11) (c := st.s11) (a := i0) rfl (by rw [e0]; rfl) _).trans ?_
  refine (val_bind e0' _ _).trans ?_
  rw [if_neg (by simp)]
  refine (on_go (c₀ := st.s11) (c := st.s11) (a := j5) rfl (by rw [e5]; rfl) _).trans ?_
  rw [e5']
  refine (bind_eq' (a := ()) (st' := { st with s11 := addTEID st.s11 s f t, sgwIP := ip }) ?_).trans rfl
  simp only [childrenM]
  refine (bind_eq' (a := ()) (st' := st) ?_).trans ?_
  · unfold childM; rw [if_neg (by rw [x1]; exact n1)]; rfl
  refine (bind_eq' (a := ()) (st' := st) ?_).trans ?_
  · unfold childM; rw [if_neg (by rw [x2]; exact n2)]; rfl
  refine (bind_eq' (a := ()) (st' := { st with s11 := addTEID st.s11 s f t, sgwIP := ip }) ?_).trans rfl
  unfold childM
  rw [if_pos x3, if_neg (by simp [x0])]
  refine (val_bind i3 _ _).trans ?_
  refine (val_bind k3 _ _).trans ?_
  refine (on_go (c₀ := st.s11) rfl (set_eq rfl) _).trans ?_
  rw [a3]
  rfl

end Verif.V2.Mme
