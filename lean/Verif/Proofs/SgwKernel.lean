import Verif.Model.SgwKernel
import Verif.Props.SgwLater
import Verif.Props.PgwKernel
/-
Helper lemmas for Props/SgwKernel.lean.
-/
namespace Verif.V2.Sgw
open Res Send Conn NetIP V1.Tunnel Spec IPSpec
open Pgw (H lift set read need dropIMSI drop respond getTEID deref mustTEID activateH forget Droppable fteidOf fteidOf_reads fteid_text mustTEID_of v4_text lift_bind set_to need_bind read_bind put_new put_update put_updateBearer put_addTEID put_reserve put_register put_drop put_heap put_brs put_localIf length_encFTEID' respond_delivered has_of typ_of getByTEID_ok seq_small octets valOr Says)

/-! ### one device -/

/-- a connection with its device -/
structure DevInv (u : Sys) (d : String) : Prop where
  ok : u.Ok
  enabled : u.enabled = true
  link : u.link = some (d, true)
  tuns : ∃ l, u.dev d = some l

theorem DevInv.tuns_eq {u : Sys} {d : String} (h : DevInv u d) : u.tuns = some ((u.dev d).getD []) := by
  obtain ⟨l, hl⟩ := h.tuns
  unfold Sys.tuns
  rw [h.link]
  simp [hl]

theorem DevInv.of_tuns {u : Sys} {d : String} {l : List PDP} (hl : u.link = some (d, true)) (h : u.tuns = some l) : (u.dev d).getD [] = l := by
  obtain ⟨d', e, k⟩ := tuns_dev h
  rw [hl] at e
  cases e
  rw [k]; rfl

theorem DevInv.override {u : Sys} {d : String} (h : DevInv u d) (f : Nat → Bool) (p : PDP) : DevInv (call f u (.override p)).1 d := by
  obtain ⟨f1, f2, _⟩ := C69_frame f u (.override p)
  have hl : (call f u (.override p)).1.link = some (d, true) := f1.trans h.link
  refine ⟨Pgw.call_ok f u _ h.ok, f2.trans h.enabled, hl, ?_⟩
  obtain ⟨ok, hok⟩ := C69_returns f u (.override p)
  have : ∃ l', (call f u (.override p)).1.tuns = some l' := by
    cases ok with
    | true => obtain ⟨_, l', _, e, _⟩ := C69_override f u p h.ok hok; exact ⟨l', e⟩
    | false => obtain ⟨l', e, _⟩ := C69_override_fails f u p _ h.ok h.tuns_eq hok; exact ⟨l', e⟩
  obtain ⟨l', e⟩ := this
  obtain ⟨d', e1, k⟩ := tuns_dev e
  rw [hl] at e1
  cases e1
  exact ⟨l', k⟩

/-- the tunnels after a call that succeeds -/
theorem DevInv.override_ok {u : Sys} {d : String} (h : DevInv u d) (f : Nat → Bool) (p : PDP) (hs : (call f u (.override p)).2 = .done true)
    (q : PDP) : q ∈ ((call f u (.override p)).1.dev d).getD [] ↔ q = p ∨ (q ∈ (u.dev d).getD [] ∧ q.ms ≠ p.ms ∧ q.itei ≠ p.itei) := by
  obtain ⟨l, l', e1, e2, e3⟩ := C69_override f u p h.ok hs
  rw [h.tuns_eq] at e1
  cases e1
  rw [DevInv.of_tuns (h.override f p).link e2]
  exact e3 q

theorem DevInv.override_zero {u : Sys} {d : String} (h : DevInv u d) (p : PDP) : (call (fun _ => false) u (.override p)).2 = .done true :=
  C69_override_succeeds _ (fun _ => rfl) u p _ h.ok h.tuns_eq h.enabled

/-- whatever fails, tunnels with another address and another TEID stay, and none comes but the one asked for -/
theorem DevInv.override_any {u : Sys} {d : String} (h : DevInv u d) (f : Nat → Bool) (p : PDP) :
    (∀ q ∈ ((call f u (.override p)).1.dev d).getD [], q = p ∨ q ∈ (u.dev d).getD []) ∧
    ∀ q ∈ (u.dev d).getD [], q.ms ≠ p.ms → q.itei ≠ p.itei → q ∈ ((call f u (.override p)).1.dev d).getD [] := by
  obtain ⟨ok, hok⟩ := C69_returns f u (.override p)
  cases ok with
  | true =>
    refine ⟨fun q hq => ?_, fun q hq h1 h2 => (h.override_ok f p hok q).2 (Or.inr ⟨hq, h1, h2⟩)⟩
    rcases (h.override_ok f p hok q).1 hq with e | e
    · exact Or.inl e
    · exact Or.inr e.1
  | false =>
    obtain ⟨l', e1, e2, e3⟩ := C69_override_fails f u p _ h.ok h.tuns_eq hok
    rw [DevInv.of_tuns (h.override f p).link e1]
    exact ⟨fun q hq => Or.inr (e2 q hq), e3⟩

theorem DevInv.distinct {u : Sys} {d : String} (h : DevInv u d) : Distinct ((u.dev d).getD []) := by
  obtain ⟨l, hl⟩ := h.tuns
  rw [hl]
  exact h.ok _ _ hl

theorem devInv_enable {f : EnableFaults} {s u : Sys} {d : String} (hs : s.Ok) (h : enable f s d = (u, true)) : DevInv u d := by
  unfold enable at h
  by_cases c1 : s.sock = false ∧ f.sock = true
  · rw [if_pos c1] at h; cases h
  rw [if_neg c1] at h
  simp only at h
  by_cases c2 : f.file = true
  · rw [if_pos c2] at h; cases h
  rw [if_neg c2] at h
  by_cases c3 : f.add = true ∨ (s.dev d).isSome = true
  · rw [if_pos c3] at h; cases h
  rw [if_neg c3] at h
  by_cases c4 : f.setUp = true
  · rw [if_pos c4] at h; cases h
  rw [if_neg c4] at h
  by_cases c5 : f.setMTU = true
  · rw [if_pos c5] at h; cases h
  rw [if_neg c5] at h
  cases h
  refine ⟨fun d' l hl => ?_, rfl, rfl, [], if_pos rfl⟩
  simp only at hl
  split at hl
  · cases hl
    intro p hp; cases hp
  · exact hs d' l hl

/-! ### routes -/

/-- no other rules for the two devices -/
def Clean (n : Net) : Prop := ∀ r ∈ n.rules, (r.1 = dev1 → r.2 = 2001) ∧ (r.1 = dev5 → r.2 = 2005)

theorem out_of {n : Net} {d d' : String} {t : Nat} (h1 : (d, t) ∈ n.rules) (h2 : n.table t = some d') (h3 : ∀ r ∈ n.rules, r.1 = d → r.2 = t) :
    n.out d = some d' := by
  unfold Net.out
  have : ∀ l : List (String × Nat), (∀ r ∈ l, r.1 = d → r.2 = t) → (d, t) ∈ l →
      ((l.filter (fun r => r.1 = d)).filterMap (fun r => n.table r.2)).head? = some d' := by
    intro l
    induction l with
    | nil => intro _ h; cases h
    | cons r l ih =>
      intro hl hm
      by_cases e : r.1 = d
      · rw [List.filter_cons, if_pos (by simpa using e), List.filterMap_cons, hl r (by simp) e, h2]
        rfl
      · rw [List.filter_cons, if_neg (by simpa using e)]
        refine ih (fun r hr => hl r (by simp [hr])) ?_
        rcases List.mem_cons.1 hm with rfl | h
        · exact absurd rfl e
        · exact h
  exact this n.rules h3 h1

theorem addRoutes_out {f : Nat → Bool} {n n' : Net} {a : Added} (hc : Clean n) (h : addRoutes f n = (n', a, true)) :
    n'.out dev1 = some dev5 ∧ n'.out dev5 = some dev1 := by
  unfold addRoutes at h
  by_cases c0 : f 0 = true
  · rw [if_pos c0] at h; simp at h
  rw [if_neg c0] at h
  simp only at h
  by_cases c1 : f 1 = true
  · rw [if_pos c1] at h; simp at h
  rw [if_neg c1] at h
  by_cases c2 : f 2 = true
  · rw [if_pos c2] at h; simp at h
  rw [if_neg c2] at h
  have e0 : ((n.replace 2001 dev5).replace 2005 dev1).rules = n.rules := rfl
  have t1 : ((n.replace 2001 dev5).replace 2005 dev1).table 2001 = some dev5 := by simp [Net.replace]
  have t5 : ((n.replace 2001 dev5).replace 2005 dev1).table 2005 = some dev1 := by simp [Net.replace]
  generalize (n.replace 2001 dev5).replace 2005 dev1 = x at h e0 t1 t5
  split at h
  · simp at h
  split at h
  · simp at h
  have hn := (Prod.mk.inj h).1
  have hr : ∀ r, r ∈ n'.rules ↔ r ∈ n.rules ∨ r = (dev1, 2001) ∨ r = (dev5, 2005) := by
    intro r
    rw [← hn, ← e0]
    by_cases a1 : x.rules.contains (dev1, 2001) = true <;> by_cases a5 : x.rules.contains (dev5, 2005) = true <;>
      simp only [a1, a5, if_true, Bool.false_eq_true, if_false, Net.addRule, List.mem_append, List.mem_singleton]
    · have h1 : (dev1, 2001) ∈ x.rules := by simpa using a1
      have h5 : (dev5, 2005) ∈ x.rules := by simpa using a5
      constructor
      · exact Or.inl
      · rintro (h | rfl | rfl) <;> assumption
    · have h1 : (dev1, 2001) ∈ x.rules := by simpa using a1
      constructor
      · rintro (h | h)
        · exact Or.inl h
        · exact Or.inr (Or.inr h)
      · rintro (h | rfl | h)
        · exact Or.inl h
        · exact Or.inl h1
        · exact Or.inr h
    · have h5 : (dev5, 2005) ∈ x.rules := by simpa using a5
      constructor
      · rintro (h | h)
        · exact Or.inl h
        · exact Or.inr (Or.inl h)
      · rintro (h | h | rfl)
        · exact Or.inl h
        · exact Or.inr h
        · exact Or.inl h5
    · exact or_assoc
  have ht : n'.table = x.table := by
    rw [← hn]
    split <;> split <;> rfl
  have hc' : Clean n' := by
    intro r hr'
    rcases (hr r).1 hr' with h | rfl | rfl
    · exact hc r h
    · exact ⟨fun _ => rfl, fun e => absurd e (by decide)⟩
    · exact ⟨fun e => absurd e (by decide), fun _ => rfl⟩
  exact ⟨out_of ((hr _).2 (Or.inr (Or.inl rfl))) (by rw [ht]; exact t1) (fun r h => (hc' r h).1),
    out_of ((hr _).2 (Or.inr (Or.inr rfl))) (by rw [ht]; exact t5) (fun r h => (hc' r h).2)⟩

/-! ### the whole -/

/-- the S-GW and the kernel between two events -/
structure KInv (k : KState) : Prop where
  st : Inv none k.st
  u1 : DevInv k.u1 dev1
  u5 : DevInv k.u5 dev5
  net : k.net.out dev1 = some dev5 ∧ k.net.out dev5 = some dev1

theorem kg_prepare {o : Option Nat} (a : Addr) (m : Message) : KG o (prepare a m) := by
  unfold prepare
  refine (KG.ask _).bind fun _ => (KG.val _).bind fun _ => (KG.ask _).bind fun _ => (KG.ask _).bind fun _ => (KG.val _).bind fun _ => ?_
  refine (KG.ask _).bind fun _ => (KG.ask _).bind fun _ => ?_
  split
  · exact KG.val _
  split
  · exact KG.val _
  refine (kg_children11 _ _ _).bind fun _ => (KG.on11 (KH.getTEID _ _)).bind fun _ => (KG.on11 (KH.getTEID _ _)).bind fun _ => ?_
  exact (KG.on5 (KH.getTEID _ _)).bind fun _ => (KG.val _).bind fun _ => (KG.ask _).bind fun _ => (KG.val _).bind fun _ => KG.pure _

theorem kg_answer {o : Option Nat} (g : UInt8 → Bool) (p : Cfg) (e : Env) (a : Addr) (m : Message) (x : Ends) (b : Nat) :
    KG o (answer g p e a m x b) := by
  unfold answer
  exact (KG.ask _).bind fun _ => (KG.val _).bind fun _ => (KG.val _).bind fun _ => KG.on11 (KH.respond _ _ _ _ _)

theorem modifyK_inv (g : UInt8 → Bool) (p : Cfg) (e : Env) (f : KFaults) (a : Addr) (m : Message) {k : KState} (h : KInv k) :
    KInv (modifyK g p e f a m k).1 := by
  have hp := kg_prepare a m k.st h.st
  unfold modifyK
  split
  · rename_i st ev x e1
    rw [e1] at hp
    simp only
    split
    · exact ⟨hp, h.u1, h.u5, h.net⟩
    · rename_i b hb
      split
      · rename_i u e2
        have h1 := h.u1.override f.u1 (tunnel1 { k with st := st } x b)
        rw [e2] at h1
        split
        · rename_i u' e3
          have h5 := h.u5.override f.u5 (tunnel5 { k with st := st, u1 := u } x)
          rw [e3] at h5
          exact ⟨kg_answer g p e a m x b st hp, h1, h5, h.net⟩
        · rename_i u' pc _ e3
          have h5 := h.u5.override f.u5 (tunnel5 { k with st := st, u1 := u } x)
          rw [e3] at h5
          exact ⟨hp, h1, h5, h.net⟩
      · rename_i u pc _ e2
        have h1 := h.u1.override f.u1 (tunnel1 { k with st := st } x b)
        rw [e2] at h1
        exact ⟨hp, h1, h.u5, h.net⟩
  · rename_i e1; rw [e1] at hp; exact ⟨hp, h.u1, h.u5, h.net⟩
  · rename_i e1; rw [e1] at hp; exact ⟨hp, h.u1, h.u5, h.net⟩
  · rename_i e1; rw [e1] at hp; exact ⟨hp, h.u1, h.u5, h.net⟩

theorem stepK_inv (g : UInt8 → Bool) (p : Cfg) {k : KState} (h : KInv k) (e : Env) (f : KFaults) (i : Input)
    (hf : ∀ imsi, k.st.s11.byImsi.load imsi ≠ some e.s) : KInv (stepK g p k e f i).1 := by
  have hi : Inv none (step g p k.st e i).1 :=
    inv_step g p e k.st ⟨⟨h.st.s11.localIf, h.st.s11.validation, h.st.s11.handlers, h.st.s11.own, fun s h => by cases h; exact hf⟩, h.st.s5⟩ i
  have hplain : ∀ ip11 ip5, KInv { k with st := (step g p k.st e i).1, ip11 := ip11, ip5 := ip5 } :=
    fun _ _ => ⟨hi, h.u1, h.u5, h.net⟩
  unfold stepK
  cases i with
  | s11 a d =>
    simp only
    split
    · exact hplain _ _
    · exact modifyK_inv g p e f _ _ h
    · exact hplain _ _
  | s5 a d =>
    simp only
    split
    · exact hplain _ _
    · exact hplain _ _
  | wake i => exact hplain _ _
  | expire i => exact hplain _ _

/-! ### Modify Bearer -/

theorem enbIP_eq {l : List IE} {x : Bytes} (hl : ∀ i ∈ l, i.typ = 87 → i.ipAddress = ok x) (hx : ∃ i ∈ l, i.typ = 87) : enbIP l = x := by
  have gen : ∀ (l : List IE) (z : Bytes), (∀ i ∈ l, i.typ = 87 → i.ipAddress = ok x) →
      l.foldl (fun x i => if i.typ = 87 then valOr i.ipAddress x else x) z = if ∃ i ∈ l, i.typ = 87 then x else z := by
    intro l
    induction l with
    | nil => intro z _; simp
    | cons i l ih =>
      intro z h
      rw [List.foldl_cons, ih _ (fun j hj => h j (by simp [hj]))]
      by_cases e : i.typ = 87
      · rw [if_pos e, h i (by simp) e]
        have : ∃ j ∈ i :: l, j.typ = 87 := ⟨i, by simp, e⟩
        rw [if_pos this]
        simp [valOr]
      · rw [if_neg e]
        congr 1
        simp [e]
  unfold enbIP
  rw [gen l [] hl, if_pos hx]

theorem prepare_step {st : State} {a : Addr} {m : Message} (hsc : m.schema = Tab.modifyBearerRequest) {s s5 b b5 : Nat} (g : UInt8 → Bool)
    (hs : getSessionByTEID st.s11 m.hdr.teidAcc a = ok s) (h5 : getSessionByIMSI st.s5 (st.s11.heap s).imsi = ok s5)
    (hb : getDefaultBearer st.s11 s = some b) (hb5 : getDefaultBearer st.s5 s5 = some b5) {i : IE} {r : List IE} (h8 : m.fields 8 = i :: r)
    {f : UInt8} {tE : UInt32} {wE : Bytes} (hwE : wE.length = 4)
    (hk : ∀ j ∈ i.children, j.typ = 87 → j.interfaceType = ok f ∧ j.teid = ok tE ∧ j.ipAddress = ok (ipString wE))
    (hx : ∃ j ∈ i.children, j.typ = 87) (hf : f ≠ 10 ∧ f ≠ 1) {mme t1 t5 : UInt32} (ht10 : (st.s11.heap s).teids.load 10 = some mme)
    (ht1 : (st.s11.heap s).teids.load 1 = some t1) (ht5 : (st.s5.heap s5).teids.load 4 = some t5) {wP : Bytes} (hwP : wP.length = 4)
    (hr5 : st.r5 b5 = some (ipString wP ++ colon :: portU)) :
    ∃ x, x.teids.load f = some tE ∧ (∀ f', f' ≠ f → x.teids.load f' = (st.s11.heap s).teids.load f') ∧ x = { st.s11.heap s with teids := x.teids } ∧
      prepare a m st = (state11 st s b x { st.s11.brs b with teidOut := tE } (some (ipString wE ++ colon :: portU)), [],
        ok ⟨some b, b5, mme, t1, t5, ipString wE, ipString wP⟩) := by
  let l := i.children.filter (·.typ = 87)
  have hl : ∀ j ∈ l, j.typ = 87 := fun j hj => by simpa using (List.mem_filter.1 hj).2
  have hl' : ∀ j ∈ l, j.typ = 87 → j.interfaceType = ok f ∧ j.teid = ok tE ∧ j.ipAddress = ok (ipString wE) :=
    fun j hj h => hk j (List.mem_filter.1 hj).1 h
  let z₀ : Sess × Bearer × Option Bytes := (st.s11.heap s, st.s11.brs b, st.r11 b)
  obtain ⟨⟨z2, z3, z4⟩, z5⟩ := kids_fteid g l z₀ f tE (ipString wE) hl' (Or.inr (by
    obtain ⟨j, hj, h⟩ := hx
    exact ⟨j, List.mem_filter.2 ⟨hj, by simp [h]⟩, h⟩))
  obtain ⟨z6, z7⟩ := kids_fixed g l z₀
  have z8 : (l.foldl (kid g) z₀).2.1.ebi = (st.s11.brs b).ebi :=
    kids_ebi g l z₀ (st.s11.brs b).ebi (fun j hj h => by rw [hl j hj] at h; cases h) (Or.inl rfl)
  have hch := children11_eq g st s b i.children (fun j hj h => ⟨wE, tE, f, hwE, (hk j hj h).2.2, (hk j hj h).2.1, (hk j hj h).1⟩) z₀
  change children11 s (some b) i.children (state11 st s b (st.s11.heap s) (st.s11.brs b) (st.r11 b)) = (state11 st s b (l.foldl (kid g) z₀).1
    (l.foldl (kid g) z₀).2.1 (l.foldl (kid g) z₀).2.2, [], ok ()) at hch
  rw [state11_self] at hch
  generalize l.foldl (kid g) z₀ = z at hch z2 z3 z4 z5 z6 z7 z8
  obtain ⟨x, y, ra⟩ := z
  simp only at hch z2 z3 z4 z5 z6 z7 z8
  subst z4
  rw [z8, z3] at z7
  have z7 : y = { st.s11.brs b with teidOut := tE } := z7
  refine ⟨x, z2, z5, z6, ?_⟩
  rw [← z7]
  have H : (state11 st s b x y (some (ipString wE ++ colon :: portU))).s11.heap s = x := Pgw.put_heap _ _ _ _ _
  have E5 : (state11 st s b x y (some (ipString wE ++ colon :: portU))).s5 = st.s5 := rfl
  have R5 : (state11 st s b x y (some (ipString wE ++ colon :: portU))).r5 = st.r5 := rfl
  have hE : enbIP i.children = ipString wE := enbIP_eq (fun j hj h => (hk j hj h).2.2) hx
  generalize state11 st s b x y (some (ipString wE ++ colon :: portU)) = st' at hch H E5 R5
  unfold prepare
  refine (ask_go hs _).trans ?_
  refine (val_bind rfl _ _).trans ?_
  refine (ask_bind _ _ _).trans ?_
  refine (ask_go h5 _).trans ?_
  refine (val_bind rfl _ _).trans ?_
  refine (ask_go hb _).trans ?_
  refine (ask_go hb5 _).trans ?_
  rw [if_neg (by rw [hsc]; decide), h8]
  refine (bind_eq' hch).trans ?_
  have l10 : (st'.s11.heap s).teids.load 10 = some mme := by rw [H, z5 10 (Ne.symm hf.1)]; exact ht10
  have l1 : (st'.s11.heap s).teids.load 1 = some t1 := by rw [H, z5 1 (Ne.symm hf.2)]; exact ht1
  have l5 : (st'.s5.heap s5).teids.load 4 = some t5 := by rw [E5]; exact ht5
  refine (bind_eq' (st' := st') (on11_eq (getTEID_some l10))).trans ?_
  refine (bind_eq' (st' := st') (on11_eq (getTEID_some l1))).trans ?_
  refine (bind_eq' (st' := st') (on5_eq (getTEID_some l5))).trans ?_
  refine (val_bind (a := b5) rfl _ _).trans ?_
  refine (ask_go (a := some (ipString wP ++ colon :: portU)) (by rw [R5]; exact hr5) _).trans ?_
  refine (val_bind (host_v4 hwP) _ _).trans ?_
  rw [hE]
  rfl

/-- the answer to the MME -/
theorem answer_step {g : UInt8 → Bool} (hg : Usual g) {p : Cfg} {w1u : Bytes} (hw1 : w1u.length = 4 ∧ p.s1uIP = ipString w1u) {d : Bytes} {m : Message}
    (hp : parseMsg g d = ok m) {e : Env} (hw : e.w = true) (a : Addr) (x : Ends) (ebi : UInt8) :
    ∃ out m', (∀ st b, (st.s11.brs b).ebi = ebi → answer g p e a m x b st = (st, [(.s11, .sent a out)], ok ())) ∧
      (∀ A n aS, A.handlers.load 35 = some (.app n) → Reaches A x.mme aS →
        Delivered g A n aS out Tab.modifyBearerResponse x.mme m.hdr.sequence
          [some (newCause 16 0 0 0 none), some (modifiedIE g ebi (fteidOf 1 0 x.t1 p.s1uIP))] m') := by
  obtain ⟨out, m', r1, _, _, r3⟩ := respond_delivered hp (modify_answer hg ebi x.t1 hw1.1).1 x.mme rfl
    (newMessage g Tab.modifyBearerResponse x.mme 0 [some (newCause 16 0 0 0 none), some (modifiedIE g ebi (fteidOf 1 0 x.t1 (ipString w1u)))])
    (fun n => by rw [setSeq_new]) a
  rw [← hw1.2] at r1 r3
  refine ⟨out, m', fun st b hb => ?_, r3⟩
  unfold answer
  refine (ask_go (a := ebi) hb _).trans ?_
  refine (val_bind (fteid_text 1 x.t1 p.s1uIP (by decide)) _ _).trans ?_
  refine (val_bind (modified_eq g ebi (fteidOf 1 0 x.t1 p.s1uIP)) _ _).trans ?_
  rw [hw]
  refine (on11_eq (c := st.s11) (ev := [.sent a out]) (r := ok ()) ?_).trans ?_
  · exact congrArg (Prod.mk st.s11) r1
  · rfl

/-- the sessions stay as they are -/
theorem attached_moved {st : State} {s b s5 b5 : Nat} {a aP : Addr} {v : Request} {k k5 ku k1 kP kuP : UInt32} {uAddr : Bytes}
    (hA : Attached st s b s5 b5 a aP v k k5 ku k1 kP kuP uAddr) {x : Sess} {f : UInt8} {tE : UInt32} {r : Option Bytes}
    (y2 : ∀ f', f' ≠ f → x.teids.load f' = (st.s11.heap s).teids.load f') (y3 : x = { st.s11.heap s with teids := x.teids }) (hf : f ∉ [1, 10, 11]) :
    Attached (state11 st s b x { st.s11.brs b with teidOut := tE } r) s b s5 b5 a aP v k k5 ku k1 kP kuP uAddr := by
  simp only [List.mem_cons, List.not_mem_nil, or_false, not_or] at hf
  generalize hst : state11 st s b x { st.s11.brs b with teidOut := tE } r = st'
  have H11 : st'.s11.heap s = x := by rw [← hst]; exact Pgw.put_heap _ _ _ _ _
  have B11 : st'.s11.brs b = { st.s11.brs b with teidOut := tE } := by rw [← hst]; exact Pgw.put_brs _ _ _ _ _
  have E5 : st'.s5 = st.s5 := by rw [← hst]; rfl
  have R5 : st'.r5 = st.r5 := by rw [← hst]; rfl
  have hl : ∀ f', f' ≠ f → (st'.s11.heap s).teids.load f' = (st.s11.heap s).teids.load f' := by rw [H11]; exact y2
  refine ⟨⟨?_, ?_⟩, by rw [E5]; exact hA.found5, ⟨?_, by rw [E5]; exact hA.active.2⟩, ?_, ⟨?_, ?_, ?_⟩, by rw [E5]; exact hA.teids5, ⟨?_, ?_, ?_⟩,
    by rw [E5, R5]; exact hA.bearer5, ⟨by rw [H11, y3]; exact hA.only.1, by rw [E5]; exact hA.only.2⟩⟩
  · refine getByTEID_ok.2 ⟨?_, ?_⟩
    · rw [← hst]; exact (getByTEID_ok.1 hA.found11.1).1
    · rw [H11, y3]; exact (getByTEID_ok.1 hA.found11.1).2
  · rw [Pgw.getByIMSI_eq (c := st.s11) (by rw [← hst]; rfl)]; exact hA.found11.2
  · rw [H11, y3]; exact hA.active.1
  · rintro z (rfl | rfl)
    · have := hA.subscriber _ (Or.inl rfl)
      rw [H11, y3]; exact this
    · have := hA.subscriber _ (Or.inr rfl)
      rw [E5]; exact this
  · rw [hl 11 (fun e => hf.2.2 e.symm)]; exact hA.teids11.1
  · rw [hl 10 (fun e => hf.2.1 e.symm)]; exact hA.teids11.2.1
  · rw [hl 1 (fun e => hf.1 e.symm)]; exact hA.teids11.2.2
  · unfold getDefaultBearer; rw [H11, y3]; exact hA.bearer11.1
  · rw [B11]; exact hA.bearer11.2.1
  · rw [B11]; exact hA.bearer11.2.2

/-! ### which message -/

theorem handlers11_one {t : UInt8} (h : handlers11.load t = some (.app 1)) : t = 34 := by
  by_cases h0 : t = 34
  · exact h0
  exfalso
  unfold handlers11 at h
  rw [SyncMap.load_store, SyncMap.load_store, SyncMap.load_store, SyncMap.load_store] at h
  by_cases h1 : t = 100
  · rw [if_pos h1] at h; cases h
  by_cases h2 : t = 36
  · rw [if_neg h1, if_pos h2] at h; cases h
  by_cases h3 : t = 32
  · rw [if_neg h1, if_neg h2, if_neg h0, if_pos h3] at h; cases h
  rw [if_neg h1, if_neg h2, if_neg h0, if_neg h3] at h
  revert h
  simp only [SyncMap.load, defaultHandlers, List.find?]
  repeat' split
  all_goals simp

/-- a datagram that calls the handler of Modify Bearer Requests -/
theorem called_modify {g : UInt8 → Bool} {c : Conn} {o : Option Nat} (hI : Inv11 o c) {a a' : Addr} {d : Bytes} {w : Bool} {m : Message} {u : Unit}
    (hs : serveDatagram g c a d w = ([.call 1 a' m], ok u)) :
    parseMsg g d = ok m ∧ a' = a ∧ m.schema = Tab.modifyBearerRequest ∧ Reaches c m.hdr.teidAcc a := by
  obtain ⟨h1, h2, h3, h4⟩ := (C35_reaches_partial g c a d w 1 a' m).1.1 (by rw [hs]; simp)
  rw [hI.handlers] at h3
  refine ⟨h1, h2, Pgw.schema_of h1 (by simp [Tab.all]) (handlers11_one h3), ?_⟩
  rcases h4 hI.validation with e | ⟨s, e1, e2⟩
  · exact Or.inl e
  · exact Or.inr ⟨s, getByTEID_ok.2 ⟨e1, e2⟩⟩

/-! ### the events of an attach and of a detach -/

section
variable {g : UInt8 → Bool} {p : Cfg} {k : KState} {e : Env} {f : KFaults}

theorem stepK_create {a : Addr} {d : Bytes} {m : Message} {u : Unit} (hs : serveDatagram g k.st.s11 a d e.w = ([.call 0 a m], ok u))
    {st' : State} {ev : List (Port × Ev)} {r : Res Unit} (h : step g p k.st e (.s11 a d) = (st', ev, r)) :
    stepK g p k e f (.s11 a d) = ({ k with st := st', ip11 := setIP k.ip11 e.b [], ip5 := setIP k.ip5 e.b5 [] }, ev, r) := by
  unfold stepK
  simp only [hs, h]

theorem stepK_created {a : Addr} {d : Bytes} {m : Message} {u : Unit} (hs : serveDatagram g k.st.s5 a d e.w = ([.call 0 a m], ok u))
    {st' : State} {ev : List (Port × Ev)} {r : Res Unit} (h : step g p k.st e (.s5 a d) = (st', ev, r)) :
    stepK g p k e f (.s5 a d) = ({ k with st := st', ip5 := setPAA k.ip5 (paa5 g a m k.st) }, ev, r) := by
  unfold stepK
  simp only [hs, h]

theorem stepK_wake {i : Nat} {st' : State} {ev : List (Port × Ev)} {r : Res Unit} (h : step g p k.st e (.wake i) = (st', ev, r)) :
    stepK g p k e f (.wake i) = ({ k with st := st', ip11 := wakeIP k i }, ev, r) := by
  unfold stepK
  simp only [h]

theorem stepK_modify {a : Addr} {d : Bytes} {m : Message} {u : Unit} (hs : serveDatagram g k.st.s11 a d e.w = ([.call 1 a m], ok u)) :
    stepK g p k e f (.s11 a d) = modifyK g p e f a m k := by
  unfold stepK
  simp only [hs]
end

theorem paa5_eq {g : UInt8 → Bool} {st : State} {a : Addr} {m : Message} {s b : Nat} {ip : Bytes} (hsc : m.schema = Tab.createSessionResponse)
    (hs : getSessionByTEID st.s5 m.hdr.teidAcc a = ok s) (hb : getDefaultBearer st.s5 s = some b) (h0 : Says m "Cause" (IE.cause g) 16)
    (h6 : Says m "PAA" IE.ipAddress ip) : paa5 g a m st = some (b, ip) := by
  obtain ⟨c, r, hc, ec⟩ := h0
  obtain ⟨i, r', hi, ei⟩ := h6
  have hc := has_get' hsc (k := 0) (by decide) hc
  have hi := has_get' hsc (k := 6) (by decide) hi
  unfold paa5
  rw [hs]
  simp only [hc, hi, hb, List.head?_cons, ec, ei, if_true]

theorem wakeIP_eq {k : KState} {n : Nat} {s s5 b : Nat} {m m₂ : Message} {a : Addr} {fte : IE} {mme : UInt32} {ip : Bytes}
    (hw : k.st.waiting[n]? = some (.create s s5 m₂.hdr.sequence a m fte mme)) (hq : k.st.q11 s = [m₂]) (hsc : m₂.schema = Tab.createSessionResponse)
    (hb : getDefaultBearer k.st.s11 s = some b) (h6 : Says m₂ "PAA" IE.ipAddress ip) : wakeIP k n = setIP k.ip11 b ip := by
  obtain ⟨i, r', hi, ei⟩ := h6
  have hi := has_get' hsc (k := 6) (by decide) hi
  unfold wakeIP
  rw [hw]
  simp only [hq, ne_eq, not_true_eq_false, if_false]
  unfold paa11
  rw [if_neg (by rw [hsc]; decide)]
  simp only [hi, hb, List.head?_cons, ei, valOr, setPAA]

/-! ### Modify Bearer with the kernel -/

theorem modify_core (g : UInt8 → Bool) (hg : Usual g) (p : Cfg) (w11 w5c w1u w5u : Bytes) (hp : OnV4 p w11 w5c w1u w5u) (k₀ : KState)
    (hI : KInv k₀) (s b s5 b5 : Nat) (a aP : Addr) (v : Request) (k k5 ku k1 kP kuP : UInt32) (uAddr : Bytes) (hu : uAddr.length = 4)
    (hA : Attached k₀.st s b s5 b5 a aP v k k5 ku k1 kP kuP uAddr) (ms : Bytes) (hms : ms.length = 4) (h11 : k₀.ip11 b = ipString ms)
    (h5 : k₀.ip5 b5 = ipString ms) (d : Bytes) (m : Message) (hm : parseMsg g d = ok m)
    (hsc : m.schema = Tab.modifyBearerRequest) (ht : m.hdr.teidAcc = k) (f : UInt8) (tE : UInt32) (wE : Bytes) (hwE : wE.length = 4)
    (hM : Moves m f tE wE) (hf : f ∉ [1, 10, 11]) (e : Env) (hw : e.w = true) :
    ∃ st' out m', serveDatagram g k₀.st.s11 a d e.w = ([.call 1 a m], ok ()) ∧
      (∀ A n aS, A.handlers.load 35 = some (.app n) → Reaches A v.teid aS → ∀ w, serveDatagram g A aS (asRead out) w = ([.call n aS m'], ok ())) ∧
      m'.schema = Tab.modifyBearerResponse ∧ m'.hdr.sequence = m.hdr.sequence ∧ Says m' "Cause" (IE.cause g) 16 ∧
      (∃ i bc be bf, Has m' "BearerContextsModified" [i] ∧ i.children = [bc, be, bf] ∧ bc.cause g = ok 16 ∧ FTEIDReads bf 1 k1 (some w1u) none) ∧
      Attached st' s b s5 b5 a aP v k k5 ku k1 kP kuP uAddr ∧ st'.waiting = k₀.st.waiting ∧ st'.q11 = k₀.st.q11 ∧
      ∀ fl u₁ r₁ u₅ r₅, call fl.u1 k₀.u1 (.override ⟨wE, ms, tE.toNat, k1.toNat⟩) = (u₁, .done r₁) →
        call fl.u5 k₀.u5 (.override ⟨uAddr, ms, kuP.toNat, ku.toNat⟩) = (u₅, .done r₅) →
        stepK g p k₀ e fl (.s11 a d) = if r₁ then if r₅ then ({ k₀ with st := st', u1 := u₁, u5 := u₅ }, [(.s11, .sent a out)], ok ())
          else ({ k₀ with st := st', u1 := u₁, u5 := u₅ }, [], err .other) else ({ k₀ with st := st', u1 := u₁ }, [], err .other) := by
  obtain ⟨i, r, h8, hx, hk⟩ := hM
  have h8 := has_field hsc (by decide +kernel) (k := 8) (by decide) h8
  have hf' := hf
  simp only [List.mem_cons, List.not_mem_nil, or_false, not_or] at hf'
  obtain ⟨x, y1, y2, y3, y4⟩ := prepare_step hsc g (st := k₀.st) (a := a) (s := s) (s5 := s5) (b := b) (b5 := b5)
    (by rw [ht]; exact hA.found11.1) (by rw [(hA.subscriber _ (Or.inl rfl)).1]; exact hA.found5.2) hA.bearer11.1 hA.bearer5.1 h8 hwE hk hx
    ⟨hf'.2.1, hf'.1⟩ hA.teids11.2.1 hA.teids11.2.2 hA.teids5.2.2.1 hu hA.bearer5.2.2.2.2
  have hA' := attached_moved hA (tE := tE) (r := some (ipString wE ++ colon :: portU)) y2 y3 hf
  have B11 : ((state11 k₀.st s b x { k₀.st.s11.brs b with teidOut := tE } (some (ipString wE ++ colon :: portU))).s11.brs b).teidOut = tE := by
    show (Pgw.put k₀.st.s11 s b x _ |>.brs b).teidOut = tE
    rw [Pgw.put_brs]
  generalize hst : state11 k₀.st s b x { k₀.st.s11.brs b with teidOut := tE } (some (ipString wE ++ colon :: portU)) = st' at y4 hA' B11
  obtain ⟨out, m', r1, r2⟩ := answer_step hg hp.s1u hm hw a ⟨some b, b5, v.teid, k1, ku, ipString wE, ipString uAddr⟩ 0
  obtain ⟨A, n, aS, hA1, hA2⟩ := someone k₀.st.s11 35 v.teid
  obtain ⟨_, q1, q2, q3, q4⟩ := r2 A n aS hA1 hA2
  simp only at q4
  rw [hp.s1u.2] at q4
  obtain ⟨-, F0, F5, c0, c1⟩ := modify_answer hg 0 k1 hp.s1u.1
  have hs : serveDatagram g k₀.st.s11 a d e.w = ([.call 1 a m], ok ()) := by
    refine serve_reaches hm ?_ (by rw [ht]; exact Or.inr ⟨s, hA.found11.1⟩) _
    rw [hI.st.s11.handlers, typ_of hm, hsc]; rfl
  have t1 : tunnel1 { k₀ with st := st' } ⟨some b, b5, v.teid, k1, ku, ipString wE, ipString uAddr⟩ b = ⟨wE, ms, tE.toNat, k1.toNat⟩ := by
    unfold tunnel1
    simp only [h11, B11, Pgw.octets_v4 hwE, Pgw.octets_v4 hms]
  refine ⟨st', out, m', hs, fun A n aS h3 h4 => (r2 A n aS h3 h4).1, q1, q3, ?_, ?_, hA', by rw [← hst]; rfl, by rw [← hst]; rfl, ?_⟩
  · exact ⟨_, [], has_of q1 (k := 0) (by decide) (by rw [q4]; exact F0), c0⟩
  · exact ⟨_, _, _, _, has_of q1 (k := 5) (by decide) (by rw [q4]; exact F5), rfl, c0, fteid_v4 1 0 k1 hp.s1u.1 (by decide)⟩
  · intro fl u₁ o₁ u₅ o₅ hu1 hu5
    have t5 : tunnel5 { k₀ with st := st', u1 := u₁ } ⟨some b, b5, v.teid, k1, ku, ipString wE, ipString uAddr⟩ = ⟨uAddr, ms, kuP.toNat, ku.toNat⟩ := by
      unfold tunnel5
      simp only [h5, hA'.bearer5.2.2.2.1, Pgw.octets_v4 hu, Pgw.octets_v4 hms]
    rw [stepK_modify hs]
    unfold modifyK
    rw [y4]
    simp only
    rw [t1, hu1]
    cases o₁ with
    | false => rfl
    | true =>
      simp only
      rw [t5, hu5]
      cases o₅ with
      | false => rfl
      | true =>
        simp only
        rw [r1 st' b hA'.bearer11.2.2]
        rfl

/-- the packets once both tunnels are made -/
theorem tunnels_after {k₀ : KState} (hI : KInv k₀) (st' : State) (fl : KFaults) (pe pu ms : Bytes) (te tu t1 t5 : Nat) {u₁ u₅ : Sys}
    (hu1 : call fl.u1 k₀.u1 (.override ⟨pe, ms, te, t1⟩) = (u₁, .done true)) (hu5 : call fl.u5 k₀.u5 (.override ⟨pu, ms, tu, t5⟩) = (u₅, .done true))
    {k' : KState} (hk' : k' = { k₀ with st := st', u1 := u₁, u5 := u₅ }) :
      k'.forwards dev1 t1 ms dev5 pu tu ∧ k'.forwards dev5 t5 ms dev1 pe te ∧
      (∀ x, (k'.takes dev1 t1 x → x = ms) ∧ (k'.takes dev5 t5 x → x = ms)) ∧
      (∀ t, (k'.takes dev1 t ms → t = t1) ∧ (k'.takes dev5 t ms → t = t5)) ∧
      (∀ x, x ≠ ms → ¬ k₀.takes dev1 t1 x → ¬ k₀.takes dev5 t5 x → ∀ d t d' addr t',
        k'.forwards d t x d' addr t' ↔ k₀.forwards d t x d' addr t') := by
  let q₁ : PDP := ⟨pe, ms, te, t1⟩
  let q₅ : PDP := ⟨pu, ms, tu, t5⟩
  have m1 := hI.u1.override_ok fl.u1 q₁ (by rw [hu1])
  have m5 := hI.u5.override_ok fl.u5 q₅ (by rw [hu5])
  have i1 := hI.u1.override fl.u1 q₁
  have i5 := hI.u5.override fl.u5 q₅
  rw [hu1] at m1 i1
  rw [hu5] at m5 i5
  have T1 : ∀ q, q ∈ ({ k₀ with st := st', u1 := u₁, u5 := u₅ } : KState).tunnels dev1 ↔ q = q₁ ∨ (q ∈ k₀.tunnels dev1 ∧ q.ms ≠ ms ∧ q.itei ≠ t1) := m1
  have T5 : ∀ q, q ∈ ({ k₀ with st := st', u1 := u₁, u5 := u₅ } : KState).tunnels dev5 ↔ q = q₅ ∨ (q ∈ k₀.tunnels dev5 ∧ q.ms ≠ ms ∧ q.itei ≠ t5) := m5
  have N1 : Distinct (({ k₀ with st := st', u1 := u₁, u5 := u₅ } : KState).tunnels dev1) := i1.distinct
  have N5 : Distinct (({ k₀ with st := st', u1 := u₁, u5 := u₅ } : KState).tunnels dev5) := i5.distinct
  have O1 : Distinct (k₀.tunnels dev1) := hI.u1.distinct
  have O5 : Distinct (k₀.tunnels dev5) := hI.u5.distinct
  have hnet : ({ k₀ with st := st', u1 := u₁, u5 := u₅ } : KState).net = k₀.net := rfl
  have hother : ∀ d, d ≠ dev1 → d ≠ dev5 → ({ k₀ with st := st', u1 := u₁, u5 := u₅ } : KState).tunnels d = k₀.tunnels d := by
    intro d n1 n5
    unfold KState.tunnels
    rw [if_neg n1, if_neg n5, if_neg n1, if_neg n5]
  rw [← hk'] at T1 T5 N1 N5 hnet hother
  refine ⟨?_, ?_, ?_, ?_, ?_⟩
  · refine ⟨⟨q₁, (T1 _).2 (Or.inl rfl), rfl, rfl⟩, by rw [hnet]; exact hI.net.1, ?_⟩
    unfold KState.wraps
    rw [(Pgw.find_ms N5 ms q₅).2 ⟨(T5 _).2 (Or.inl rfl), rfl⟩]
    rfl
  · refine ⟨⟨q₅, (T5 _).2 (Or.inl rfl), rfl, rfl⟩, by rw [hnet]; exact hI.net.2, ?_⟩
    unfold KState.wraps
    rw [(Pgw.find_ms N1 ms q₁).2 ⟨(T1 _).2 (Or.inl rfl), rfl⟩]
    rfl
  · intro x
    constructor
    · rintro ⟨q, k1, k2, k3⟩
      rcases (T1 q).1 k1 with rfl | ⟨_, _, e⟩
      · exact k3.symm
      · exact absurd k2 e
    · rintro ⟨q, k1, k2, k3⟩
      rcases (T5 q).1 k1 with rfl | ⟨_, _, e⟩
      · exact k3.symm
      · exact absurd k2 e
  · intro t
    constructor
    · rintro ⟨q, k1, k2, k3⟩
      rcases (T1 q).1 k1 with rfl | ⟨_, e, _⟩
      · exact k2.symm
      · exact absurd k3 e
    · rintro ⟨q, k1, k2, k3⟩
      rcases (T5 q).1 k1 with rfl | ⟨_, e, _⟩
      · exact k2.symm
      · exact absurd k3 e
  · intro x hx n1 n5 d t d' addr t'
    have S1 : ∀ q : PDP, q.ms = x → (q ∈ k'.tunnels dev1 ↔ q ∈ k₀.tunnels dev1) := by
      intro q hq
      rw [T1]
      constructor
      · rintro (rfl | ⟨h, _⟩)
        · exact absurd hq.symm hx
        · exact h
      · exact fun h => Or.inr ⟨h, by rw [hq]; exact hx, fun e => n1 ⟨q, h, e, hq⟩⟩
    have S5 : ∀ q : PDP, q.ms = x → (q ∈ k'.tunnels dev5 ↔ q ∈ k₀.tunnels dev5) := by
      intro q hq
      rw [T5]
      constructor
      · rintro (rfl | ⟨h, _⟩)
        · exact absurd hq.symm hx
        · exact h
      · exact fun h => Or.inr ⟨h, by rw [hq]; exact hx, fun e => n5 ⟨q, h, e, hq⟩⟩
    have S : ∀ d (q : PDP), q.ms = x → (q ∈ k'.tunnels d ↔ q ∈ k₀.tunnels d) := by
      intro d
      by_cases e1 : d = dev1
      · rw [e1]; exact S1
      by_cases e5 : d = dev5
      · rw [e5]; exact S5
      · rw [hother d e1 e5]; exact fun _ _ => Iff.rfl
    have W : ∀ d, k'.wraps d x = k₀.wraps d x := by
      intro d
      unfold KState.wraps
      by_cases e1 : d = dev1
      · rw [e1, Pgw.find_same O1 N1 x S1]
      by_cases e5 : d = dev5
      · rw [e5, Pgw.find_same O5 N5 x S5]
      · rw [hother d e1 e5]
    have K : k'.takes d t x ↔ k₀.takes d t x := by
      constructor
      · rintro ⟨q, h1, h2, h3⟩; exact ⟨q, (S d q h3).1 h1, h2, h3⟩
      · rintro ⟨q, h1, h2, h3⟩; exact ⟨q, (S d q h3).2 h1, h2, h3⟩
    unfold KState.forwards
    rw [K, hnet, W]

/-- every kernel call fails -/
theorem override_none {u : Sys} (h : u.enabled = true) (p : PDP) : call (fun _ => true) u (.override p) = (u, .done false) := by
  unfold V1.Tunnel.call
  simp [enter, h, V1.Tunnel.step, kByMS, kByITEI, kAdd]

/-- what `close` takes back -/
theorem takeBack_of {f : Nat → Bool} {n n' : Net} {a : Added} (h : addRoutes f n = (n', a, true)) :
    (takeBack a n').1.table 2001 = none ∧ (takeBack a n').1.table 2005 = some dev1 ∧ (takeBack a n').1.rules = n.rules ∧ (takeBack a n').2 = 1 := by
  unfold addRoutes at h
  by_cases c0 : f 0 = true
  · rw [if_pos c0] at h; cases h
  rw [if_neg c0] at h
  simp only at h
  by_cases c1 : f 1 = true
  · rw [if_pos c1] at h; cases h
  rw [if_neg c1] at h
  by_cases c2 : f 2 = true
  · rw [if_pos c2] at h; cases h
  rw [if_neg c2] at h
  have hd : dev1 ≠ dev5 := by decide
  have key : ∀ l L, delRoutes [(2001, dev5), (2001, dev5)] ⟨(((n.replace 2001 dev5).replace 2005 dev1)).table, L⟩ =
      (⟨fun i => if i = 2001 then none else ((n.replace 2001 dev5).replace 2005 dev1).table i, L⟩, 1 + l * 0) := by
    intro l L
    simp [delRoutes, Net.del, Net.replace]
  have key := key 0
  by_cases r1 : (dev1, 2001) ∈ n.rules <;> by_cases r5 : (dev5, 2005) ∈ n.rules
  all_goals
    have e1 : (((n.replace 2001 dev5).replace 2005 dev1).rules.contains (dev1, 2001)) = decide ((dev1, 2001) ∈ n.rules) := by
      show n.rules.contains _ = _
      simp
    have e5 : (((n.replace 2001 dev5).replace 2005 dev1).rules.contains (dev5, 2005)) = decide ((dev5, 2005) ∈ n.rules) := by
      show n.rules.contains _ = _
      simp
    rw [e1, e5] at h
    simp only [r1, r5, decide_true, decide_false, Bool.not_true, Bool.not_false, Bool.false_and, Bool.true_and, if_true, Bool.false_eq_true, if_false] at h
  · obtain ⟨rfl, rfl⟩ : (n.replace 2001 dev5).replace 2005 dev1 = n' ∧ (⟨[(2001, dev5), (2001, dev5)], [] ++ []⟩ : Added) = a := by
      cases h; exact ⟨rfl, rfl⟩
    have := key n.rules
    unfold takeBack
    simp only
    rw [show (n.replace 2001 dev5).replace 2005 dev1 = ⟨((n.replace 2001 dev5).replace 2005 dev1).table, n.rules⟩ from rfl, this]
    simp [delRules, Net.replace]
  · by_cases c4 : f 4 = true
    · rw [if_pos c4] at h; cases h
    rw [if_neg c4] at h
    cases h
    have := key (n.rules ++ [(dev5, 2005)])
    unfold takeBack
    simp only
    rw [show ((n.replace 2001 dev5).replace 2005 dev1).addRule (dev5, 2005) = ⟨((n.replace 2001 dev5).replace 2005 dev1).table, n.rules ++ [(dev5, 2005)]⟩ from rfl, this]
    simp [delRules, Net.replace, Net.delRule, List.erase_append_right _ r5]
  · by_cases c3 : f 3 = true
    · rw [if_pos c3] at h; cases h
    rw [if_neg c3] at h
    cases h
    have := key (n.rules ++ [(dev1, 2001)])
    unfold takeBack
    simp only
    rw [show ((n.replace 2001 dev5).replace 2005 dev1).addRule (dev1, 2001) = ⟨((n.replace 2001 dev5).replace 2005 dev1).table, n.rules ++ [(dev1, 2001)]⟩ from rfl, this]
    simp [delRules, Net.replace, Net.delRule, List.erase_append_right _ r1]
  · by_cases c3 : f 3 = true
    · rw [if_pos c3] at h; cases h
    rw [if_neg c3] at h
    by_cases c4 : f 4 = true
    · rw [if_pos c4] at h; cases h
    rw [if_neg c4] at h
    cases h
    have := key (n.rules ++ [(dev1, 2001)] ++ [(dev5, 2005)])
    unfold takeBack
    simp only
    rw [show (((n.replace 2001 dev5).replace 2005 dev1).addRule (dev1, 2001)).addRule (dev5, 2005) = ⟨((n.replace 2001 dev5).replace 2005 dev1).table, n.rules ++ [(dev1, 2001)] ++ [(dev5, 2005)]⟩ from rfl, this]
    simp [delRules, Net.replace, Net.delRule, List.erase_append_right _ r5, List.erase_append_right _ r1]

end Verif.V2.Sgw
