import Verif.Proofs.SgwFinish
/-
Helper lemmas for Props/Sgw.lean: what every state of the S-GW has.
-/
namespace Verif.V2.Sgw
open Res Send Conn NetIP Spec IPSpec
open Pgw (H lift set read need dropIMSI drop respond getTEID deref mustTEID activateH forget Droppable fteidOf fteidOf_reads fteid_text
  mustTEID_of v4_text lift_bind set_to need_bind read_bind put_new put_update put_updateBearer put_addTEID put_reserve put_register put_drop
  put_heap put_brs put_localIf length_encFTEID')

/-- the handlers that are set in the beginning -/
def handlers11 : SyncMap UInt8 Handler := (((defaultHandlers.store 32 (.app 0)).store 34 (.app 1)).store 36 (.app 2)).store 100 (.app 3)
def handlers5 : SyncMap UInt8 Handler := ((defaultHandlers.store 33 (.app 0)).store 37 (.app 1)).store 99 (.app 2)

/-- the S11 connection; the session object in `o` is not in its table -/
structure Inv11 (o : Option Nat) (c : Conn) : Prop where
  localIf : c.localIf = 11
  validation : c.validation = true
  handlers : c.handlers = handlers11
  own : ∀ i s, c.byImsi.load i = some s → ∃ t, (c.heap s).teids.load 11 = some t
  free : ∀ s, o = some s → ∀ i, c.byImsi.load i ≠ some s

/-- the S5 connection -/
structure Inv5 (c : Conn) : Prop where
  localIf : c.localIf = 6
  validation : c.validation = true
  handlers : c.handlers = handlers5

theorem Inv11.weak {o : Option Nat} {c : Conn} (h : Inv11 o c) : Inv11 none c := ⟨h.localIf, h.validation, h.handlers, h.own, fun _ e => by cases e⟩

theorem Inv11.update {o : Option Nat} {c : Conn} (h : Inv11 o c) (s : Nat) (f : Sess → Sess)
    (hf : ∀ x t, x.teids.load 11 = some t → ∃ t', (f x).teids.load 11 = some t') : Inv11 o (update c s f) := by
  refine ⟨h.localIf, h.validation, h.handlers, fun i j hi => ?_, h.free⟩
  obtain ⟨t, ht⟩ := h.own i j hi
  show ∃ t, (if j = s then f (c.heap j) else c.heap j).teids.load 11 = some t
  split
  · exact hf _ _ ht
  · exact ⟨t, ht⟩

theorem Inv11.addTEID {o : Option Nat} {c : Conn} (h : Inv11 o c) (s : Nat) (f : UInt8) (t : UInt32) : Inv11 o (addTEID c s f t) :=
  h.update s _ fun x t' ht => by
    show ∃ t'', (x.teids.store f t).load 11 = some t''
    rw [SyncMap.load_store]
    split
    · exact ⟨t, rfl⟩
    · exact ⟨t', ht⟩

theorem Inv11.updateBearer {o : Option Nat} {c : Conn} (h : Inv11 o c) (b : Nat) (f : Bearer → Bearer) : Inv11 o (updateBearer c b f) :=
  ⟨h.localIf, h.validation, h.handlers, h.own, h.free⟩

theorem Inv11.activate {o : Option Nat} {c : Conn} (h : Inv11 o c) (s : Nat) : Inv11 o (activate c s) := by
  unfold Conn.activate
  split
  · exact h
  · exact h.update s _ fun x t ht => ⟨t, ht⟩

theorem Inv11.fewer {o : Option Nat} {c : Conn} (h : Inv11 o c) (i : Bytes) (b : SyncMap UInt32 (Option Nat)) :
    Inv11 o { c with byImsi := c.byImsi.delete i, byTeid := b } := by
  have l : ∀ j s, (c.byImsi.delete i).load j = some s → c.byImsi.load j = some s := by
    intro j s hj
    rw [SyncMap.load_delete] at hj
    split at hj
    · cases hj
    · exact hj
  exact ⟨h.localIf, h.validation, h.handlers, fun j s hj => h.own j s (l j s hj), fun s e j hj => h.free s e j (l j s hj)⟩

theorem Inv11.removeSession {o : Option Nat} {c c' : Conn} (h : Inv11 o c) {s : Nat} (e : removeSession c s = ok c') : Inv11 o c' := by
  unfold Conn.removeSession at e
  simp only at e
  split at e
  · obtain rfl := ok.inj e
    exact h.fewer _ _
  · split at e
    · cases e
    · obtain rfl := ok.inj e
      exact h.fewer _ _

theorem Inv11.newSession {c : Conn} {s : Nat} (h : Inv11 (some s) c) (b : Nat) (a : Addr) : Inv11 (some s) (newSession c s b a) := by
  refine ⟨h.localIf, h.validation, h.handlers, fun i j hi => ?_, h.free⟩
  have hj : j ≠ s := fun e => h.free s rfl i (e ▸ hi)
  show ∃ t, (if j = s then _ else c.heap j : Sess).teids.load 11 = some t
  rw [if_neg hj]
  exact h.own i j hi

theorem Inv11.reserve {o : Option Nat} {c : Conn} (h : Inv11 o c) (k : UInt32) : Inv11 o (reserve c k) := by
  unfold Conn.reserve
  split
  · exact h
  · exact ⟨h.localIf, h.validation, h.handlers, h.own, h.free⟩

theorem Inv11.registerSession {o : Option Nat} {c : Conn} (h : Inv11 o c) (t : UInt32) (s : Nat) : Inv11 none (registerSession c t s) := by
  refine ⟨h.localIf, h.validation, h.handlers, fun i j hi => ?_, fun _ e => by cases e⟩
  have hi : (c.byImsi.store (c.heap s).imsi s).load i = some j := hi
  show ∃ t', (if j = s then { c.heap j with teids := (c.heap j).teids.store c.localIf t } else c.heap j).teids.load 11 = some t'
  rw [SyncMap.load_store] at hi
  by_cases e : j = s
  · rw [if_pos e]
    refine ⟨t, ?_⟩
    show ((c.heap j).teids.store c.localIf t).load 11 = some t
    rw [h.localIf, SyncMap.load_store, if_pos rfl]
  · rw [if_neg e]
    split at hi
    · exact absurd (Option.some.inj hi).symm e
    · exact h.own i j hi

/-! ### pieces on one connection -/

/-- the piece keeps this whatever it returns -/
def KH {α : Type} (P : Conn → Prop) (x : H α) : Prop := ∀ c, P c → P (x c).1

theorem KH.bind {α β : Type} {P : Conn → Prop} {x : H α} {f : α → H β} (hx : KH P x) (hf : ∀ a, KH P (f a)) : KH P (x >>= f) := by
  intro c hc
  have h1 := hx c hc
  show P ((H.bind x f) c).1
  unfold Pgw.H.bind
  rcases e : x c with ⟨c', ev, r⟩
  rw [e] at h1
  cases r with
  | ok a => exact hf a c' h1
  | err _ => exact h1
  | panic => exact h1
  | diverge => exact h1

theorem KH.pure {α : Type} {P : Conn → Prop} (a : α) : KH P (Pure.pure a : H α) := fun _ h => h
theorem KH.lift {α : Type} {P : Conn → Prop} (r : Res α) : KH P (Pgw.lift r) := fun _ h => h
theorem KH.read {α : Type} {P : Conn → Prop} (f : Conn → α) : KH P (Pgw.read f) := fun _ h => h
theorem KH.set {P : Conn → Prop} {f : Conn → Conn} (h : ∀ c, P c → P (f c)) : KH P (Pgw.set f) := fun c hc => h c hc
theorem KH.need {P : Conn → Prop} (l : List IE) : KH P (Pgw.need l) := by
  intro c hc
  unfold Pgw.need
  split <;> exact hc
theorem KH.getTEID {P : Conn → Prop} (s : Nat) (f : UInt8) : KH P (Pgw.getTEID s f) := by
  intro c hc
  unfold Pgw.getTEID
  split <;> exact hc
theorem KH.respond {P : Conn → Prop} (g : UInt8 → Bool) (a : Addr) (m r : Message) (w : Bool) : KH P (Pgw.respond g a m r w) := fun _ h => h

theorem kh_drop {o : Option Nat} (s : Nat) : KH (Inv11 o) (drop s) := by
  intro c hc
  unfold drop
  split
  · rename_i e; exact hc.removeSession e
  all_goals exact hc
theorem kh_dropIMSI {o : Option Nat} (i : Bytes) : KH (Inv11 o) (dropIMSI i) := by
  intro c hc
  unfold dropIMSI
  split
  · rename_i e
    unfold removeSessionByIMSI at e
    split at e
    · obtain rfl := ok.inj e; exact hc
    · exact hc.removeSession e
  all_goals exact hc
theorem kh_activate {o : Option Nat} (s : Nat) : KH (Inv11 o) (activateH s) := by
  intro c hc
  unfold activateH
  split
  · exact hc
  · exact hc.activate s
theorem KH.orDrop {P : Conn → Prop} {α : Type} {s : Nat} {x : H α} (hd : KH P (drop s)) (hx : KH P x) : KH P (orDrop s x) := by
  intro c hc
  have h1 := hx c hc
  unfold Sgw.orDrop
  rcases e : x c with ⟨c', ev, r⟩
  rw [e] at h1
  cases r with
  | err _ =>
    have h2 := hd c' h1
    simp only
    rcases e' : drop s c' with ⟨c'', ev', r'⟩
    rw [e'] at h2
    cases r' <;> exact h2
  | ok a => exact h1
  | panic => exact h1
  | diverge => exact h1

theorem kh_sender {P : Conn → Prop} (hr : ∀ c k, P c → P (reserve c k)) (k : Option UInt32) (ip : Bytes) : KH P (senderFTEID k ip) := by
  unfold senderFTEID
  split
  · exact KH.pure _
  · exact (KH.set fun c hc => hr c _ hc).bind fun _ => (KH.read _).bind fun _ => KH.lift _

theorem kh_readRequest (g : UInt8 → Bool) (s b : Nat) (a : Addr) (m : Message) : KH (Inv11 (some s)) (readRequest g s b a m) := by
  have hadd : ∀ f t, KH (Inv11 (some s)) (set (fun c => addTEID c s f t)) := fun f t => KH.set fun c hc => hc.addTEID s f t
  have hupd : ∀ f : Sess → Sess, (∀ x, (f x).teids = x.teids) → KH (Inv11 (some s)) (set (fun c => update c s f)) :=
    fun f hf => KH.set fun c hc => hc.update s f fun x t ht => ⟨t, by rw [hf]; exact ht⟩
  unfold readRequest
  refine (KH.set fun c hc => hc.newSession b a).bind fun _ => ?_
  refine (KH.need _).bind fun _ => (KH.lift _).bind fun _ => (KH.lift _).bind fun _ => (hadd _ _).bind fun _ => ?_
  refine (KH.need _).bind fun _ => (KH.lift _).bind fun _ => (hadd _ _).bind fun _ => ?_
  refine (KH.lift _).bind fun _ => (KH.need _).bind fun _ => (KH.lift _).bind fun _ => (kh_dropIMSI _).bind fun _ => (hupd _ (by intro; rfl)).bind fun _ => ?_
  refine (KH.need _).bind fun _ => (KH.lift _).bind fun _ => (hupd _ (by intro; rfl)).bind fun _ => ?_
  refine (KH.need _).bind fun _ => (KH.lift _).bind fun _ => (hupd _ (by intro; rfl)).bind fun _ => ?_
  refine (KH.need _).bind fun _ => (KH.lift _).bind fun _ => (KH.set fun c hc => hc.updateBearer b _).bind fun _ => ?_
  refine (KH.need _).bind fun _ => (KH.lift _).bind fun _ => (hupd _ (by intro; rfl)).bind fun _ => ?_
  refine (KH.lift _).bind fun _ => (hupd _ (by intro; rfl)).bind fun _ => ?_
  refine (KH.need _).bind fun _ => (KH.lift _).bind fun _ => (hupd _ (by intro; rfl)).bind fun _ => KH.pure _

/-! ### S5 -/

theorem Inv5.same {c c' : Conn} (h : Inv5 c) (h1 : c'.localIf = c.localIf) (h2 : c'.validation = c.validation) (h3 : c'.handlers = c.handlers) :
    Inv5 c' := ⟨h1.trans h.localIf, h2.trans h.validation, h3.trans h.handlers⟩

theorem Inv5.reserve {c : Conn} (h : Inv5 c) (k : UInt32) : Inv5 (reserve c k) :=
  h.same (Pgw.reserve_fixed c k).2.2.1 (by unfold Conn.reserve; split <;> rfl) (by unfold Conn.reserve; split <;> rfl)
theorem Inv5.removeSession {c c' : Conn} (h : Inv5 c) {s : Nat} (e : removeSession c s = ok c') : Inv5 c' := by
  unfold Conn.removeSession at e
  simp only at e
  split at e
  · obtain rfl := ok.inj e
    exact h.same rfl rfl rfl
  · split at e
    · cases e
    · obtain rfl := ok.inj e
      exact h.same rfl rfl rfl
theorem Inv5.activate {c : Conn} (h : Inv5 c) (s : Nat) : Inv5 (activate c s) := by
  unfold Conn.activate
  split
  · exact h
  · exact h.same rfl rfl rfl
theorem kh5_drop (s : Nat) : KH Inv5 (drop s) := by
  intro c hc
  unfold drop
  split
  · rename_i e; exact hc.removeSession e
  all_goals exact hc
theorem kh5_activate (s : Nat) : KH Inv5 (activateH s) := by
  intro c hc
  unfold activateH
  split
  · exact hc
  · exact hc.activate s

/-! ### pieces of the S-GW -/

structure Inv (o : Option Nat) (st : State) : Prop where
  s11 : Inv11 o st.s11
  s5 : Inv5 st.s5

def KG {α : Type} (o : Option Nat) (x : G α) : Prop := ∀ st, Inv o st → Inv o (x st).1

theorem Inv.weak {o : Option Nat} {st : State} (h : Inv o st) : Inv none st := ⟨h.s11.weak, h.s5⟩

variable {o : Option Nat} {α β : Type}

theorem bind_fst {P Q : State → Prop} {x : G α} {f : α → G β} (hx : ∀ st, P st → Q (x st).1) (hf : ∀ a st, Q st → Q (f a st).1) :
    ∀ st, P st → Q ((x >>= f) st).1 := by
  intro st hst
  have h1 := hx st hst
  show Q ((G.bind x f) st).1
  unfold G.bind
  rcases e : x st with ⟨c', ev, r⟩
  rw [e] at h1
  cases r with
  | ok a => exact hf a c' h1
  | err _ => exact h1
  | panic => exact h1
  | diverge => exact h1

/-- the first part keeps `P`, the second leads from `P` to `Q` -/
theorem bind_fst' {P Q : State → Prop} {x : G α} {f : α → G β} (hPQ : ∀ st, P st → Q st) (hx : ∀ st, P st → P (x st).1)
    (hf : ∀ a st, P st → Q (f a st).1) : ∀ st, P st → Q ((x >>= f) st).1 := by
  intro st hst
  have h1 := hx st hst
  show Q ((G.bind x f) st).1
  unfold G.bind
  rcases e : x st with ⟨c', ev, r⟩
  rw [e] at h1
  cases r with
  | ok a => exact hf a c' h1
  | err _ => exact hPQ _ h1
  | panic => exact hPQ _ h1
  | diverge => exact hPQ _ h1

theorem KG.bind {x : G α} {f : α → G β} (hx : KG o x) (hf : ∀ a, KG o (f a)) : KG o (x >>= f) := bind_fst hx hf
theorem KG.pure (a : α) : KG o (Pure.pure a : G α) := fun _ h => h
theorem KG.val (r : Res α) : KG o (Sgw.val r) := fun _ h => h
theorem KG.ask (f : State → α) : KG o (Sgw.ask f) := fun _ h => h
theorem KG.put {f : State → State} {a : α} (h1 : ∀ st, (f st).s11 = st.s11) (h5 : ∀ st, (f st).s5 = st.s5) : KG o (Sgw.put f a) :=
  fun st h => ⟨by show Inv11 o (f st).s11; rw [h1]; exact h.s11, by show Inv5 (f st).s5; rw [h5]; exact h.s5⟩
theorem KG.on11 {x : H α} (hx : KH (Inv11 o) x) : KG o (Sgw.on11 x) := by
  intro st h
  have := hx _ h.s11
  unfold Sgw.on11
  rcases e : x st.s11 with ⟨c, ev, r⟩
  rw [e] at this
  exact ⟨this, h.s5⟩
theorem KG.on5 {x : H α} (hx : KH Inv5 x) : KG o (Sgw.on5 x) := by
  intro st h
  have := hx _ h.s5
  unfold Sgw.on5
  rcases e : x st.s5 with ⟨c, ev, r⟩
  rw [e] at this
  exact ⟨h.s11, this⟩
theorem kg_need5 (s : Nat) (l : List IE) : KG o (need5 s l) := by
  unfold need5
  split
  · exact KG.val _
  · exact KG.on5 ((kh5_drop s).bind fun _ => KH.lift _)
theorem kg_add11 (s : Nat) (f : UInt8) (t : UInt32) : KG o (Sgw.on11 (set (fun c => addTEID c s f t))) := KG.on11 (KH.set fun _ hc => hc.addTEID s f t)
theorem kg_add5 (s : Nat) (f : UInt8) (t : UInt32) : KG o (Sgw.on5 (set (fun c => addTEID c s f t))) := KG.on5 (KH.set fun _ hc => hc.same rfl rfl rfl)

theorem kg_pass11 (s : Nat) (m : Message) : KG o (pass11 s m) := by
  intro st h
  unfold pass11
  split
  · exact ⟨h.s11, h.s5⟩
  · exact h
theorem kg_pass5 (s : Nat) (m : Message) : KG o (pass5 s m) := by
  intro st h
  unfold pass5
  split
  · exact ⟨h.s11, h.s5⟩
  · exact h

theorem kg_createS5 (g : UInt8 → Bool) (s5 b5 : Nat) (raddr : Addr) (ies : List (Option IE)) (w : Bool) : KG o (createS5 g s5 b5 raddr ies w) := by
  intro st h
  have hf := C62_nothing_else g st.s5 s5 b5 raddr ies
  have : (createSession st.s5 g st.n5 s5 b5 raddr ies w).1 = (parseCreateSession st.s5 g s5 b5 raddr ies).1 := by
    unfold createSession
    rcases e : parseCreateSession st.s5 g s5 b5 raddr ies with ⟨c, r⟩
    cases r <;> rfl
  have h5 : Inv5 (createSession st.s5 g st.n5 s5 b5 raddr ies w).1 := by
    rw [this]; exact h.s5.same hf.1 hf.2.1 hf.2.2.1
  unfold createS5
  rcases e : createSession st.s5 g st.n5 s5 b5 raddr ies w with ⟨c, n, ev, r⟩
  rw [e] at h5
  cases r <;> exact ⟨h.s11, h5⟩

theorem inv_create (g : UInt8 → Bool) (p : Cfg) (e : Env) (a : Addr) (m : Message) : ∀ st, Inv (some e.s) st → Inv none (handleCreate g p e a m st).1 := by
  unfold handleCreate
  split
  · exact fun st h => h.weak
  refine bind_fst' (fun _ => Inv.weak) (KG.put (by intro; rfl) (by intro; rfl)) fun _ => ?_
  refine bind_fst' (fun _ => Inv.weak) (KG.on11 (kh_readRequest g _ _ a m)) fun _ => ?_
  refine bind_fst' (fun _ => Inv.weak) (KG.on11 (kh_sender (fun c k h => h.reserve k) _ _)) fun _ => ?_
  refine bind_fst' (fun _ => Inv.weak) (KG.val _) fun _ => ?_
  refine bind_fst (Q := Inv none) ?_ fun _ => ?_
  · intro st h
    exact ⟨h.s11.registerSession _ _, h.s5⟩
  refine (KG.on5 (kh_sender (fun c k h => h.reserve k) _ _)).bind fun _ => ?_
  refine (KG.val _).bind fun _ => (KG.val _).bind fun _ => (KG.put (by intro; rfl) (by intro; rfl)).bind fun _ => ?_
  refine (kg_createS5 g _ _ _ _ _).bind fun _ => (kg_add5 _ _ _).bind fun _ => (KG.on11 (KH.getTEID _ _)).bind fun _ => ?_
  exact KG.put (by intro; rfl) (by intro; rfl)

theorem kg_failCreate (g : UInt8 → Bool) (e : Env) (s : Nat) (a : Addr) (m : Message) (mme : UInt32) : KG o (failCreate g e s a m mme) := by
  intro st h
  unfold failCreate
  split
  · exact h
  · exact h
  · exact (KG.on11 (o := o) (x := fun c => (c, _, ok ())) (fun c hc => hc)).bind
      (fun _ => (KG.on11 (kh_drop s)).bind fun _ => KG.val _) st h

theorem kg_finishCreate (g : UInt8 → Bool) (p : Cfg) (e : Env) (s s5 : Nat) (a : Addr) (req : Message) (f11 : IE) (mme : UInt32) (m : Message) :
    KG o (finishCreate g p e s s5 a req f11 mme m) := by
  have tail : ∀ f : Unit → G Unit, f = (fun _ => do
      let uf ← val (userFTEID 1 e.k1u p.s1uIP)
      let r ← val (relayed g p m f11 uf mme)
      on11 (set (fun c => addTEID c s (mustInterfaceType f11) (mustTEID f11)))
      on11 (set (fun c => addTEID c s (mustInterfaceType uf) (mustTEID uf)))
      on11 (orDrop s (respond g a req r e.w))
      let pgw ← ask (fun st => (st.s5.heap s5).teids.load 7)
      let sgw ← ask (fun st => (st.s5.heap s5).teids.load 6)
      match pgw, sgw with
      | some _, some _ => on11 (orDrop s (activateH s))
      | _, _ => on11 (orDrop s (lift (err .notFound)))) → KG o (f ()) := by
    intro f hf
    rw [hf]
    refine (KG.val _).bind fun _ => (KG.val _).bind fun _ => (kg_add11 _ _ _).bind fun _ => (kg_add11 _ _ _).bind fun _ => ?_
    refine (KG.on11 (KH.orDrop (kh_drop s) (KH.respond _ _ _ _ _))).bind fun _ => (KG.ask _).bind fun _ => (KG.ask _).bind fun _ => ?_
    split
    · exact KG.on11 (KH.orDrop (kh_drop s) (kh_activate s))
    · exact KG.on11 (KH.orDrop (kh_drop s) (KH.lift _))
  unfold finishCreate
  split
  · exact KG.on11 ((kh_drop s).bind fun _ => KH.lift _)
  · split
    · exact tail _ rfl
    · refine (KG.ask _).bind fun x => ?_
      split
      · exact (KG.val _).bind fun _ => tail _ rfl
      · exact (KG.val _).bind fun _ => tail _ rfl

theorem kg_fteidU5 (s : Nat) (b : Option Nat) (i : IE) : KG o (fteidU s b i setAddr5 Sgw.on5) := by
  unfold fteidU
  split
  · exact KG.val _
  refine (KG.val _).bind fun _ => (KG.val _).bind fun _ => ?_
  split
  · exact KG.val _
  refine (KG.put (by intro; rfl) (by intro; rfl)).bind fun _ => (KG.val _).bind fun _ => ?_
  exact (KG.on5 (KH.set fun _ hc => by exact hc.same rfl rfl rfl)).bind fun _ => (KG.val _).bind fun _ => kg_add5 _ _ _
theorem kg_fteidU11 (s : Nat) (b : Option Nat) (i : IE) : KG o (fteidU s b i setAddr11 Sgw.on11) := by
  unfold fteidU
  split
  · exact KG.val _
  refine (KG.val _).bind fun _ => (KG.val _).bind fun _ => ?_
  split
  · exact KG.val _
  refine (KG.put (by intro; rfl) (by intro; rfl)).bind fun _ => (KG.val _).bind fun _ => ?_
  exact (KG.on11 (KH.set fun _ hc => hc.updateBearer _ _)).bind fun _ => (KG.val _).bind fun _ => kg_add11 _ _ _

theorem kg_child5 (g : UInt8 → Bool) (s : Nat) (b : Option Nat) (i : IE) : KG o (child5 g s b i) := by
  unfold child5
  split
  · refine (KG.val _).bind fun _ => ?_
    split
    · exact KG.on5 ((kh5_drop s).bind fun _ => KH.lift _)
    · exact KG.pure _
  split
  · exact (KG.val _).bind fun _ => (KG.val _).bind fun _ => KG.on5 (KH.set fun _ hc => hc.same rfl rfl rfl)
  split
  · exact kg_fteidU5 s b i
  split
  · exact (KG.val _).bind fun _ => (KG.val _).bind fun _ => KG.pure _
  · exact KG.pure _

theorem kg_children5 (g : UInt8 → Bool) (s : Nat) (b : Option Nat) (l : List IE) : KG o (children5 g s b l) := by
  induction l with
  | nil => exact KG.pure _
  | cons i l ih => exact (kg_child5 g s b i).bind fun _ => ih

theorem kg_handleCreated (g : UInt8 → Bool) (a : Addr) (m : Message) : KG o (handleCreated g a m) := by
  unfold handleCreated
  refine (KG.ask _).bind fun _ => (KG.val _).bind fun s => ?_
  split
  · exact KG.val _
  refine (kg_need5 _ _).bind fun _ => (KG.val _).bind fun _ => ?_
  split
  · exact KG.on5 ((kh5_drop s).bind fun _ => KH.lift _)
  refine (KG.ask _).bind fun _ => (kg_need5 _ _).bind fun _ => (KG.val _).bind fun _ => (KG.val _).bind fun _ => ?_
  refine (kg_need5 _ _).bind fun _ => (KG.val _).bind fun _ => (KG.val _).bind fun _ => (kg_add5 _ _ _).bind fun _ => ?_
  refine (kg_need5 _ _).bind fun _ => (kg_children5 g _ _ _).bind fun _ => ?_
  refine (KG.on5 (KH.orDrop (kh5_drop s) (kh5_activate s))).bind fun _ => ?_
  exact (KG.ask _).bind fun _ => (KG.ask _).bind fun _ => (KG.val _).bind fun _ => kg_pass11 _ _

theorem kg_children11 (s : Nat) (b : Option Nat) (l : List IE) : KG o (children11 s b l) := by
  induction l with
  | nil => exact KG.pure _
  | cons i l ih =>
    refine KG.bind ?_ fun _ => ih
    unfold child11
    split
    · exact (kg_fteidU11 s b i).bind fun _ => (KG.val _).bind fun _ => KG.pure _
    · exact KG.pure _

theorem kg_handleModify (g : UInt8 → Bool) (p : Cfg) (e : Env) (a : Addr) (m : Message) : KG o (handleModify g p e a m) := by
  unfold handleModify
  refine (KG.ask _).bind fun _ => (KG.val _).bind fun _ => (KG.ask _).bind fun _ => (KG.ask _).bind fun _ => (KG.val _).bind fun _ => ?_
  refine (KG.ask _).bind fun _ => (KG.ask _).bind fun _ => ?_
  split
  · exact KG.val _
  split
  · exact KG.val _
  refine (kg_children11 _ _ _).bind fun _ => (KG.on11 (KH.getTEID _ _)).bind fun _ => (KG.on11 (KH.getTEID _ _)).bind fun _ => ?_
  refine (KG.on5 (KH.getTEID _ _)).bind fun _ => (KG.val _).bind fun _ => (KG.ask _).bind fun _ => (KG.val _).bind fun _ => (KG.ask _).bind fun _ => ?_
  refine (KG.put (by intro; rfl) (by intro; rfl)).bind fun _ => (KG.val _).bind fun _ => (KG.ask _).bind fun _ => (KG.ask _).bind fun _ => ?_
  refine (KG.put (by intro; rfl) (by intro; rfl)).bind fun _ => (KG.ask _).bind fun _ => (KG.val _).bind fun _ => (KG.val _).bind fun _ => ?_
  exact KG.on11 (KH.respond _ _ _ _ _)

theorem kg_handleDelete (g : UInt8 → Bool) (e : Env) (a : Addr) (m : Message) : KG o (handleDelete g e a m) := by
  unfold handleDelete
  split
  · exact KG.val _
  refine (KG.ask _).bind fun _ => (KG.val _).bind fun _ => (KG.ask _).bind fun _ => (KG.ask _).bind fun _ => (KG.val _).bind fun _ => ?_
  refine (KG.on5 (KH.getTEID _ _)).bind fun _ => (KG.ask _).bind fun _ => (KG.val _).bind fun _ => (KG.ask _).bind fun _ => ?_
  refine KG.bind ?_ fun _ => ?_
  · intro st h; exact ⟨h.s11, h.s5⟩
  exact (KG.on11 (KH.getTEID _ _)).bind fun _ => KG.put (by intro; rfl) (by intro; rfl)

theorem kg_handleDeleted (a : Addr) (m : Message) : KG o (handleDeleted a m) := by
  unfold handleDeleted
  refine (KG.ask _).bind fun _ => (KG.val _).bind fun _ => (KG.ask _).bind fun _ => (KG.ask _).bind fun _ => (KG.val _).bind fun _ => ?_
  exact (kg_pass11 _ _).bind fun _ => KG.on5 (kh5_drop _)

theorem kg_respond5 (g : UInt8 → Bool) (a : Addr) (m r : Message) (w : Bool) : KG o (Sgw.on5 (respond g a m r w)) := KG.on5 (KH.respond _ _ _ _ _)
theorem kg_respond11 (g : UInt8 → Bool) (a : Addr) (m r : Message) (w : Bool) : KG o (Sgw.on11 (respond g a m r w)) := KG.on11 (KH.respond _ _ _ _ _)

theorem kg_deleteGo (g : UInt8 → Bool) (e : Env) (a : Addr) (m : Message) (s5 s : Nat) (pgw mme : UInt32) (x : IE) :
    KG o (handleDeleteBearer.go g e a m s5 s pgw mme x) := by
  unfold handleDeleteBearer.go
  refine (KG.ask _).bind fun _ => ?_
  split
  · exact (kg_respond5 _ _ _ _ _).bind fun _ => KG.val _
  · exact KG.val _
  · exact KG.val _
  · refine KG.bind ?_ fun _ => KG.put (by intro; rfl) (by intro; rfl)
    intro st h; exact ⟨h.s11, h.s5⟩

theorem kg_handleDeleteBearer (g : UInt8 → Bool) (e : Env) (a : Addr) (m : Message) : KG o (handleDeleteBearer g e a m) := by
  unfold handleDeleteBearer
  refine (KG.ask _).bind fun _ => (KG.val _).bind fun _ => (KG.ask _).bind fun _ => (KG.ask _).bind fun _ => (KG.val _).bind fun _ => ?_
  refine (KG.on5 (KH.getTEID _ _)).bind fun _ => (KG.on11 (KH.getTEID _ _)).bind fun _ => ?_
  split
  · exact KG.val _
  split
  · exact (kg_respond5 _ _ _ _ _).bind fun _ => KG.val _
  · exact kg_respond5 _ _ _ _ _
  · exact kg_deleteGo _ _ _ _ _ _ _ _ _
  · exact kg_deleteGo _ _ _ _ _ _ _ _ _

theorem kg_dropBearers (e : Env) (s5 s : Nat) (v : UInt8) : KG o (dropBearers e s5 s v) := by
  unfold dropBearers
  refine KG.bind (KG.on5 ?_) fun _ => KG.on11 ?_
  · intro c hc
    beta_reduce
    split
    · rename_i h
      unfold removeBearerByEBI at h
      split at h
      · obtain rfl := ok.inj h; exact hc.same rfl rfl rfl
      · obtain rfl := ok.inj h; exact hc
      · cases h
      · cases h
    all_goals exact hc
  · intro c hc
    beta_reduce
    split
    · rename_i h
      unfold removeBearerByEBI at h
      split at h
      · obtain rfl := ok.inj h
        rename_i n _
        exact hc.update s (fun x => { x with bearers := x.bearers.delete n }) fun x t ht => ⟨t, ht⟩
      · obtain rfl := ok.inj h; exact hc
      · cases h
      · cases h
    all_goals exact hc

theorem kg_handleBearerDeleted (a : Addr) (m : Message) : KG o (handleBearerDeleted a m) := by
  unfold handleBearerDeleted
  refine (KG.ask _).bind fun _ => (KG.val _).bind fun _ => (KG.ask _).bind fun _ => (KG.ask _).bind fun _ => (KG.val _).bind fun _ => ?_
  exact kg_pass5 _ _

theorem kg_resume (g : UInt8 → Bool) (p : Cfg) (e : Env) (x : Waiting) (r : Option Message) : KG o (resume g p e x r) := by
  unfold resume
  split
  · exact kg_failCreate _ _ _ _ _ _
  · exact kg_finishCreate _ _ _ _ _ _ _ _ _ _
  · exact (kg_respond11 _ _ _ _ _).bind fun _ => KG.val _
  · unfold finishDelete
    split
    · exact KG.val _
    · exact (kg_respond11 _ _ _ _ _).bind fun _ => KG.on11 (kh_drop _)
  · exact (kg_respond5 _ _ _ _ _).bind fun _ => (kg_dropBearers _ _ _ _).bind fun _ => KG.val _
  · unfold finishBearer
    split
    · exact KG.val _
    · exact (kg_respond5 _ _ _ _ _).bind fun _ => kg_dropBearers _ _ _ _

theorem inv_step (g : UInt8 → Bool) (p : Cfg) (e : Env) (st : State) (h : Inv (some e.s) st) (i : Input) : Inv none (step g p st e i).1 := by
  have hw := h.weak
  cases i with
  | s11 a d =>
    show Inv none (match serveDatagram g st.s11 a d e.w with
      | ([.call 0 a m], ok _) => handleCreate g p e a m st
      | ([.call 1 a m], ok _) => handleModify g p e a m st
      | ([.call 2 a m], ok _) => handleDelete g e a m st
      | ([.call 3 a m], ok _) => handleBearerDeleted a m st
      | (ev, r) => (st, ev.map (fun x => (Port.s11, x)), r)).1
    split
    · exact inv_create g p e _ _ st h
    · exact kg_handleModify _ _ _ _ _ st hw
    · exact kg_handleDelete _ _ _ _ st hw
    · exact kg_handleBearerDeleted _ _ st hw
    · exact hw
  | s5 a d =>
    show Inv none (match serveDatagram g st.s5 a d e.w with
      | ([.call 0 a m], ok _) => handleCreated g a m st
      | ([.call 1 a m], ok _) => handleDeleted a m st
      | ([.call 2 a m], ok _) => handleDeleteBearer g e a m st
      | (ev, r) => (st, ev.map (fun x => (Port.s5, x)), r)).1
    split
    · exact kg_handleCreated _ _ _ st hw
    · exact kg_handleDeleted _ _ st hw
    · exact kg_handleDeleteBearer _ _ _ _ st hw
    · exact hw
  | wake i =>
    simp only [step]
    split
    · exact hw
    · rename_i x hx
      split
      · exact hw
      · have : Inv none (x.pop { st with waiting := st.waiting.eraseIdx i }) := by
          cases x <;> exact ⟨hw.s11, hw.s5⟩
        split
        · exact kg_resume _ _ _ _ _ _ this
        · exact kg_resume _ _ _ _ _ _ this
  | expire i =>
    simp only [step]
    split
    · exact hw
    · exact kg_resume _ _ _ _ _ _ ⟨hw.s11, hw.s5⟩

theorem inv_start (heap11 heap5 : Nat → Sess) (s1u s5u : V1.UConn.UConn) : Inv none (start heap11 heap5 s1u s5u) :=
  ⟨⟨rfl, rfl, rfl, fun _ _ h => (by cases h), fun _ e => by cases e⟩, ⟨rfl, rfl, rfl⟩⟩

end Verif.V2.Sgw
