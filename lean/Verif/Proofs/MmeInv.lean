import Verif.Proofs.MmeLater
/-
Helper lemmas for Props/Mme.lean: what every state of the MME has, and how many answers a call gets.
-/
namespace Verif.V2.Mme
open Res Send Conn NetIP Spec
open Pgw (H lift set read need drop getTEID deref activateH)
open Sgw (KH kh_sender text portC portU resolve senderFTEID someBearer)

/-- the handlers that are set in the beginning -/
def handlers : SyncMap UInt8 Handler := ((defaultHandlers.store 33 (.app 0)).store 35 (.app 1)).store 37 (.app 2)

structure Inv (c : Conn) : Prop where
  localIf : c.localIf = 10
  validation : c.validation = true
  handlers : c.handlers = handlers

theorem Inv.same {c c' : Conn} (h : Inv c) (h1 : c'.localIf = c.localIf) (h2 : c'.validation = c.validation) (h3 : c'.handlers = c.handlers) :
    Inv c' := ⟨h1.trans h.localIf, h2.trans h.validation, h3.trans h.handlers⟩

theorem kh_drop (s : Nat) : KH Inv (drop s) := by
  intro c hc
  unfold drop
  split
  · rename_i e
    unfold Conn.removeSession at e
    simp only at e
    split at e
    · obtain rfl := ok.inj e
      exact hc.same rfl rfl rfl
    · split at e
      · cases e
      · obtain rfl := ok.inj e
        exact hc.same rfl rfl rfl
  all_goals exact hc
theorem kh_activate (s : Nat) : KH Inv (activateH s) := by
  intro c hc
  unfold activateH
  split
  · exact hc
  · show Inv (activate c s)
    unfold Conn.activate
    split
    · exact hc
    · exact hc.same rfl rfl rfl

theorem kh_add (s : Nat) (f : UInt8) (t : UInt32) : KH Inv (set (fun c => addTEID c s f t)) := KH.set fun _ hc => hc.same rfl rfl rfl

theorem kh_child (g : UInt8 → Bool) (s : Nat) (b : Option Nat) (i : IE) : KH Inv (child g s b i) := by
  unfold child
  split
  · refine (KH.lift _).bind fun _ => ?_
    split
    · exact KH.set fun _ hc => hc.same rfl rfl rfl
    · exact (KH.set fun _ hc => hc.same rfl rfl rfl).bind fun _ => KH.lift _
    · exact KH.lift _
    · exact KH.lift _
  · split
    · split
      · exact KH.pure _
      · exact (KH.lift _).bind fun _ => (KH.lift _).bind fun _ => kh_add _ _ _
    · exact KH.pure _

theorem kh_children (g : UInt8 → Bool) (s : Nat) (b : Option Nat) (l : List IE) : KH Inv (children g s b l) := by
  induction l with
  | nil => exact KH.pure _
  | cons i l ih => exact (kh_child g s b i).bind fun _ => ih

theorem kh_created (g : UInt8 → Bool) (a : Addr) (m : Message) : KH Inv (readCreated g a m) := by
  intro c hc
  unfold readCreated
  split
  · refine (KH.bind (KH.read _) fun b => ?_) c hc
    split
    · exact KH.lift _
    · refine KH.bind ?_ fun _ => KH.bind ?_ fun _ => (KH.need _).bind fun _ => (KH.lift _).bind fun _ => (kh_add _ _ _).bind fun _ =>
        (KH.orDrop (kh_drop _) (KH.getTEID _ _)).bind fun _ => (KH.orDrop (kh_drop _) (KH.getTEID _ _)).bind fun _ => (KH.need _).bind fun _ =>
        (kh_children g _ _ _).bind fun _ => KH.orDrop (kh_drop _) (kh_activate _)
      · unfold causeOf
        refine (KH.need _).bind fun _ => (KH.lift _).bind fun _ => ?_
        split
        · exact (kh_drop _).bind fun _ => KH.lift _
        · exact KH.pure _
      · unfold paaOf
        split
        · exact KH.pure _
        · exact (KH.lift _).bind fun _ => (KH.lift _).bind fun _ => KH.pure _
  all_goals exact hc

/-! ### pieces that answer no call -/

/-- the piece keeps `Inv`, changes no waiting goroutine and answers no call -/
structure Quiet {α : Type} (x : G α) : Prop where
  inv : ∀ st, Inv st.s11 → Inv (x st).1.s11
  waiting : ∀ st, (x st).1.waiting = st.waiting
  outs : ∀ st, ∀ o ∈ (x st).2.1, ∃ e, o = .s11 e

variable {α β : Type}

theorem Quiet.bind {x : G α} {f : α → G β} (hx : Quiet x) (hf : ∀ a, Quiet (f a)) : Quiet (x >>= f) := by
  have key : ∀ st, (Inv st.s11 → Inv ((x >>= f) st).1.s11) ∧ ((x >>= f) st).1.waiting = st.waiting ∧ ∀ o ∈ ((x >>= f) st).2.1, ∃ e, o = .s11 e := by
    intro st
    have h1 := hx.inv st
    have h2 := hx.waiting st
    have h3 := hx.outs st
    show (Inv st.s11 → Inv (G.bind x f st).1.s11) ∧ (G.bind x f st).1.waiting = st.waiting ∧ ∀ o ∈ (G.bind x f st).2.1, ∃ e, o = .s11 e
    unfold G.bind
    rcases e : x st with ⟨st', ev, r⟩
    rw [e] at h1 h2 h3
    cases r with
    | ok a =>
      refine ⟨fun h => (hf a).inv st' (h1 h), ((hf a).waiting st').trans h2, fun o ho => ?_⟩
      rcases List.mem_append.1 ho with ho | ho
      · exact h3 o ho
      · exact (hf a).outs st' o ho
    | err _ => exact ⟨h1, h2, h3⟩
    | panic => exact ⟨h1, h2, h3⟩
    | diverge => exact ⟨h1, h2, h3⟩
  exact ⟨fun st => (key st).1, fun st => (key st).2.1, fun st => (key st).2.2⟩

theorem Quiet.pure (a : α) : Quiet (Pure.pure a : G α) := ⟨fun _ h => h, fun _ => rfl, fun _ _ ho => absurd ho List.not_mem_nil⟩
theorem Quiet.val (r : Res α) : Quiet (Mme.val r) := ⟨fun _ h => h, fun _ => rfl, fun _ _ ho => absurd ho List.not_mem_nil⟩
theorem Quiet.ask (f : State → α) : Quiet (Mme.ask f) := ⟨fun _ h => h, fun _ => rfl, fun _ _ ho => absurd ho List.not_mem_nil⟩
theorem Quiet.put {f : State → State} (h1 : ∀ st, (f st).s11 = st.s11) (h2 : ∀ st, (f st).waiting = st.waiting) : Quiet (Mme.put f) :=
  ⟨fun st h => by show Inv (f st).s11; rw [h1]; exact h, h2, fun _ o ho => absurd ho List.not_mem_nil⟩
theorem Quiet.on {x : H α} (hx : KH Inv x) : Quiet (Mme.on x) := by
  refine ⟨fun st h => ?_, fun st => ?_, fun st o ho => ?_⟩
  · exact hx _ h
  · rfl
  · have ho : o ∈ (x st.s11).2.1.map Out.s11 := ho
    obtain ⟨e, _, rfl⟩ := List.mem_map.1 ho
    exact ⟨e, rfl⟩

theorem quiet_created (g : UInt8 → Bool) (a : Addr) (m : Message) : Quiet (handleCreated g a m) := by
  unfold handleCreated
  exact (Quiet.on (kh_created g a m)).bind fun _ => Quiet.put (fun _ => rfl) (fun _ => rfl)

theorem quiet_childM (s : Nat) (i : IE) : Quiet (childM s i) := by
  unfold childM
  split
  · split
    · exact Quiet.pure _
    · refine (Quiet.val _).bind fun _ => (Quiet.val _).bind fun _ => (Quiet.on (kh_add _ _ _)).bind fun _ => ?_
      split
      · exact Quiet.put (fun _ => rfl) (fun _ => rfl)
      · exact (Quiet.put (f := fun st => { st with sgwIP := [] }) (fun _ => rfl) (fun _ => rfl)).bind fun _ => Quiet.val _
      · exact Quiet.val _
      · exact Quiet.val _
  · exact Quiet.pure _

theorem quiet_childrenM (s : Nat) (l : List IE) : Quiet (childrenM s l) := by
  induction l with
  | nil => exact Quiet.pure _
  | cons i l ih => exact (quiet_childM s i).bind fun _ => ih

theorem quiet_modified (g : UInt8 → Bool) (a : Addr) (m : Message) : Quiet (handleModified g a m) := by
  unfold handleModified
  refine (Quiet.ask _).bind fun _ => (Quiet.val _).bind fun _ => ?_
  split
  · exact Quiet.val _
  · refine (Quiet.on (KH.need _)).bind fun _ => (Quiet.val _).bind fun _ => ?_
    split
    · exact Quiet.val _
    · exact (Quiet.on (KH.need _)).bind fun _ => (quiet_childrenM _ _).bind fun _ => Quiet.put (fun _ => rfl) (fun _ => rfl)

theorem quiet_deleted (a : Addr) (m : Message) : Quiet (handleDeleted a m) := by
  unfold handleDeleted
  exact (Quiet.ask _).bind fun _ => (Quiet.val _).bind fun _ => Quiet.on (kh_drop _)

theorem quiet_createSession (g : UInt8 → Bool) (p : Cfg) (e : Env) (r : Attach) : Quiet (createSession g p e r) := by
  unfold createSession
  refine (Quiet.val _).bind fun _ => (Quiet.on (kh_sender (fun c k hc => hc.same (Pgw.reserve_fixed c k).2.2.1
    (by unfold Conn.reserve; split <;> rfl) (by unfold Conn.reserve; split <;> rfl)) _ _)).bind fun _ =>
    (Quiet.ask _).bind fun _ => (Quiet.ask _).bind fun _ => (Quiet.val _).bind fun ies => ?_
  refine ⟨fun st h => ?_, fun st => rfl, fun st o ho => ?_⟩
  · rename_i raddr _ _ _
    have hf := C62_nothing_else g st.s11 e.s e.b (text raddr) ies
    have : (Conn.createSession st.s11 g st.n e.s e.b (text raddr) ies e.w).1 = (parseCreateSession st.s11 g e.s e.b (text raddr) ies).1 := by
      unfold Conn.createSession
      rcases e : parseCreateSession st.s11 g _ _ (text raddr) ies with ⟨c, r⟩
      cases r <;> rfl
    show Inv (Conn.createSession st.s11 g st.n e.s e.b (text raddr) ies e.w).1
    rw [this]
    exact h.same hf.1 hf.2.1 hf.2.2.1
  · rename_i raddr _ _ _
    have ho : o ∈ (Conn.createSession st.s11 g st.n e.s e.b (text raddr) ies e.w).2.2.1.map Out.s11 := ho
    obtain ⟨v, _, rfl⟩ := List.mem_map.1 ho
    exact ⟨v, rfl⟩

theorem quiet_modifyBearer (g : UInt8 → Bool) (s : Nat) (itei : UInt32) (w : Bool) : Quiet (modifyBearer g s itei w) := by
  unfold modifyBearer
  refine (Quiet.on (KH.getTEID _ _)).bind fun t => (Quiet.ask _).bind fun _ => (Quiet.val _).bind fun _ => (Quiet.ask _).bind fun _ =>
    (Quiet.val _).bind fun _ => (Quiet.ask _).bind fun _ => (Quiet.val _).bind fun bc => ?_
  refine ⟨fun st h => h, fun st => rfl, fun st o ho => ?_⟩
  have ho : o ∈ (Conn.modifyBearer st.s11 s g st.n t [some (newIndicationOctets [0, 0, 0, 0, 0, 0, 0]), bc] w).2.1.map Out.s11 := ho
  obtain ⟨v, _, rfl⟩ := List.mem_map.1 ho
  exact ⟨v, rfl⟩

/-! ### answers -/

/-- answers to the call `id` -/
def answers (id : Nat) (l : List Out) : Nat := l.countP fun o => match o with
  | .s11 _ => false
  | .done i _ _ => i = id
  | .failed i => i = id

/-- calls `id` without an answer -/
def pending (id : Nat) (l : List Waiting) : Nat := l.countP fun x => decide (x.id = id) && decide (x.errs = 0)

theorem answers_append (id : Nat) (l l' : List Out) : answers id (l ++ l') = answers id l + answers id l' := List.countP_append
theorem pending_append (id : Nat) (l l' : List Waiting) : pending id (l ++ l') = pending id l + pending id l' := List.countP_append

theorem answers_none {id : Nat} {l : List Out} (h : ∀ o ∈ l, ∃ e, o = .s11 e) : answers id l = 0 := by
  unfold answers
  rw [List.countP_eq_zero]
  intro o ho
  obtain ⟨e, rfl⟩ := h o ho
  simp

theorem countP_erase {γ : Type} (f : γ → Bool) : ∀ (l : List γ) (i : Nat) (x : γ), l[i]? = some x →
    (l.eraseIdx i).countP f + (if f x then 1 else 0) = l.countP f := by
  intro l
  induction l with
  | nil => intro i x h; simp at h
  | cons y l ih =>
    intro i x h
    cases i with
    | zero =>
      simp only [List.getElem?_cons_zero, Option.some.injEq] at h
      subst h
      simp [List.countP_cons]
    | succ i =>
      simp only [List.getElem?_cons_succ] at h
      have := ih i x h
      simp only [List.eraseIdx_cons_succ, List.countP_cons]
      omega

theorem pending_erase {id : Nat} {l : List Waiting} {i : Nat} {x : Waiting} (h : l[i]? = some x) :
    pending id (l.eraseIdx i) + (if x.id = id ∧ x.errs = 0 then 1 else 0) = pending id l := by
  have := countP_erase (fun x : Waiting => decide (x.id = id) && decide (x.errs = 0)) l i x h
  unfold pending
  rw [← this]
  congr 1
  by_cases h1 : x.id = id <;> by_cases h2 : x.errs = 0 <;> simp [h1, h2]

/-- the program has not crashed -/
def Alive (r : Res Unit) : Prop := r = ok () ∨ ∃ e, r = err e

theorem fail_count (id errs : Nat) (st : State) (j : Nat) :
    (fail id errs st).1.waiting = st.waiting ∧ answers j (fail id errs st).2.1 = (if id = j ∧ errs = 0 then 1 else 0) ∧ (fail id errs st).2.2 = ok () ∧
      (fail id errs st).1.s11 = st.s11 := by
  unfold fail
  by_cases h0 : errs = 0
  · by_cases hj : id = j <;> simp [h0, hj, answers]
  · by_cases h1 : errs = 1 <;> simp [h1, answers, h0]

/-- a piece that ends in an answer or in a new wait -/
theorem orFail_count {id errs : Nat} {x : G α} {k : α → G Unit} (hx : Quiet x)
    (hk : ∀ a st j, pending j (k a st).1.waiting + answers j (k a st).2.1 = pending j st.waiting + (if id = j ∧ errs = 0 then 1 else 0))
    (st : State) (ha : Alive (orFail id errs x k st).2.2) (j : Nat) :
    pending j (orFail id errs x k st).1.waiting + answers j (orFail id errs x k st).2.1 = pending j st.waiting + (if id = j ∧ errs = 0 then 1 else 0) := by
  have h2 := hx.waiting st
  have h3 := hx.outs st
  unfold orFail at ha ⊢
  rcases e : x st with ⟨st', ev, r⟩
  rw [e] at h2 h3 ha
  have h0 := answers_none (id := j) h3
  cases r with
  | ok a =>
    simp only [answers_append, h0, Nat.zero_add]
    rw [hk a st' j, h2]
  | err _ =>
    obtain ⟨f1, f2, -, -⟩ := fail_count id errs st' j
    simp only [answers_append, h0, Nat.zero_add]
    rw [f1, f2, h2]
  | panic => rcases ha with h | ⟨_, h⟩ <;> cases h
  | diverge => rcases ha with h | ⟨_, h⟩ <;> cases h

theorem orFail_inv {id errs : Nat} {x : G α} {k : α → G Unit} (hx : Quiet x) (hk : ∀ a st, Inv st.s11 → Inv (k a st).1.s11) (st : State)
    (h : Inv st.s11) : Inv (orFail id errs x k st).1.s11 := by
  have h1 := hx.inv st h
  unfold orFail
  rcases e : x st with ⟨st', ev, r⟩
  rw [e] at h1
  cases r with
  | ok a => exact hk a st' h1
  | err _ => rw [(fail_count id errs st' 0).2.2.2]; exact h1
  | panic => exact h1
  | diverge => exact h1

theorem attach_none {g : UInt8 → Bool} {p : Cfg} {e : Env} {id : Nat} {r : Attach} (h : splitHostPort r.s1uAddr = none) (st : State) :
    attach g p e id r st = ({ st with enbIP := [] }, [.failed id], ok ()) := by
  unfold attach; rw [h]
theorem attach_nowhere {g : UInt8 → Bool} {p : Cfg} {e : Env} {id : Nat} {r : Attach} {x y : Bytes} (h : splitHostPort r.s1uAddr = some (x, y))
    (hl : r.location = none) (st : State) : attach g p e id r st = ({ st with enbIP := x }, [], .panic) := by
  unfold attach; rw [h]; simp only [hl]
theorem attach_some {g : UInt8 → Bool} {p : Cfg} {e : Env} {id : Nat} {r : Attach} {x y : Bytes} {l : Location}
    (h : splitHostPort r.s1uAddr = some (x, y)) (hl : r.location = some l) (st : State) : attach g p e id r st =
      orFail id 0 (createSession g p e r) (fun _ => put (fun st => { st with waiting := st.waiting ++ [⟨.created, id, e.s, r.itei, 0⟩] }))
        { st with enbIP := x, mcc := l.mcc, mnc := l.mnc } := by
  unfold attach; rw [h]; simp only [hl]; exact put_bind _ _ _

theorem attach_count (g : UInt8 → Bool) (p : Cfg) (e : Env) (id : Nat) (r : Attach) (st : State) (ha : Alive (attach g p e id r st).2.2) (j : Nat) :
    pending j (attach g p e id r st).1.waiting + answers j (attach g p e id r st).2.1 = pending j st.waiting + (if id = j then 1 else 0) := by
  cases hs : splitHostPort r.s1uAddr with
  | none =>
    rw [attach_none hs]
    by_cases h : id = j <;> simp [answers, h]
  | some q =>
    cases hl : r.location with
    | none =>
      rw [attach_nowhere hs hl] at ha
      rcases ha with h | ⟨_, h⟩ <;> cases h
    | some l =>
      rw [attach_some hs hl] at ha ⊢
      rw [orFail_count (quiet_createSession g p e r) (fun a st j => by
        show pending j (st.waiting ++ _) + answers j [] = _
        rw [pending_append]
        by_cases h : id = j <;> simp [pending, answers, h]) _ ha j]
      simp

theorem attach_inv (g : UInt8 → Bool) (p : Cfg) (e : Env) (id : Nat) (r : Attach) (st : State) (h : Inv st.s11) : Inv (attach g p e id r st).1.s11 := by
  cases hs : splitHostPort r.s1uAddr with
  | none => rw [attach_none hs]; exact h
  | some q =>
    cases hl : r.location with
    | none => rw [attach_nowhere hs hl]; exact h
    | some l =>
      rw [attach_some hs hl]
      exact orFail_inv (quiet_createSession g p e r) (fun _ _ h => h) _ h

theorem next_created {g : UInt8 → Bool} {e : Env} {i : Nat} {x : Waiting} (h : x.phase = .created) : next g e i x = afterCreated g e i x := by
  unfold next; rw [h]
theorem next_modified {g : UInt8 → Bool} {e : Env} {i : Nat} {x : Waiting} (h : x.phase = .modified) : next g e i x = afterModified i x := by
  unfold next; rw [h]

theorem next_count (g : UInt8 → Bool) (e : Env) (i : Nat) (x : Waiting) (st : State) (ha : Alive (next g e i x st).2.2) (j : Nat) :
    pending j (next g e i x st).1.waiting + answers j (next g e i x st).2.1 =
      pending j (st.waiting.eraseIdx i) + (if x.id = j ∧ x.errs = 0 then 1 else 0) := by
  cases hp : x.phase with
  | created =>
    rw [next_created hp] at ha ⊢
    exact orFail_count (quiet_modifyBearer g x.s x.itei e.w) (fun a st j => by
      show pending j (st.waiting ++ _) + answers j [] = _
      rw [pending_append]
      by_cases h : x.id = j <;> by_cases h' : x.errs = 0 <;> simp [pending, answers, h, h']) { st with waiting := st.waiting.eraseIdx i } ha j
  | modified =>
    rw [next_modified hp] at ha ⊢
    refine orFail_count (Quiet.on (KH.getTEID x.s 1)) (fun a st j => ?_) { st with waiting := st.waiting.eraseIdx i } ha j
    by_cases h : x.id = j <;> by_cases h' : x.errs = 0 <;> simp [answers, h, h']

theorem next_inv (g : UInt8 → Bool) (e : Env) (i : Nat) (x : Waiting) (st : State) (h : Inv st.s11) : Inv (next g e i x st).1.s11 := by
  cases hp : x.phase with
  | created =>
    rw [next_created hp]
    exact orFail_inv (quiet_modifyBearer g x.s x.itei e.w) (fun _ _ h => h) { st with waiting := st.waiting.eraseIdx i } h
  | modified =>
    rw [next_modified hp]
    refine orFail_inv (Quiet.on (KH.getTEID x.s 1)) (fun _ st h => ?_) { st with waiting := st.waiting.eraseIdx i } h
    by_cases h0 : x.errs = 0
    · rw [if_pos h0]; exact h
    · rw [if_neg h0]; exact h

theorem step_inv (g : UInt8 → Bool) (p : Cfg) (st : State) (e : Env) (i : Input) (h : Inv st.s11) : Inv (step g p st e i).1.s11 := by
  unfold step
  split
  · split
    · exact (quiet_created g _ _).inv st h
    · exact (quiet_modified g _ _).inv st h
    · exact (quiet_deleted _ _).inv st h
    · exact h
  · exact attach_inv g p e _ _ st h
  · split
    · exact h
    · split
      · split
        · exact h
        · exact next_inv g e _ _ _ h
      · split
        · exact h
        · exact next_inv g e _ _ _ h
  · split
    · exact h
    · rename_i i _ x hx
      obtain ⟨-, -, f3, f4⟩ := fail_count x.id x.errs st 0
      show Inv (G.bind (fail x.id x.errs) (fun _ => next g e i { x with errs := x.errs + 1 }) st).1.s11
      unfold G.bind
      rcases hf : fail x.id x.errs st with ⟨st', ev, r⟩
      rw [hf] at f3 f4
      simp only at f3 f4
      rw [f3]
      exact next_inv g e _ _ _ (by rw [f4]; exact h)

/-- the call that begins -/
def begins : Input → List Nat
  | .attach id _ => [id]
  | _ => []

theorem step_count (g : UInt8 → Bool) (p : Cfg) (st : State) (e : Env) (i : Input) (ha : Alive (step g p st e i).2.2) (j : Nat) :
    pending j (step g p st e i).1.waiting + answers j (step g p st e i).2.1 = pending j st.waiting + (begins i).count j := by
  have Q : ∀ {x : G Unit}, Quiet x → pending j (x st).1.waiting + answers j (x st).2.1 = pending j st.waiting := by
    intro x hx
    rw [hx.waiting st, answers_none (hx.outs st)]; rfl
  cases i with
  | s11 a d =>
    simp only [step, begins, List.count_nil, Nat.add_zero]
    split
    · exact Q (quiet_created g _ _)
    · exact Q (quiet_modified g _ _)
    · exact Q (quiet_deleted _ _)
    · rw [answers_none (by simp)]; rfl
  | attach id r =>
    rw [show step g p st e (.attach id r) = attach g p e id r st from rfl] at ha ⊢
    rw [attach_count g p e id r st ha j]
    simp [begins, List.count_singleton]
  | wake i =>
    simp only [step, begins, List.count_nil, Nat.add_zero] at ha ⊢
    split
    · simp [answers]
    · rename_i x hx
      rw [hx] at ha
      simp only at ha
      split
      · rename_i hp
        rw [hp] at ha
        simp only at ha
        split
        · simp [answers]
        · rename_i hc
          rw [if_neg hc] at ha
          rw [next_count g e i x _ ha j]
          exact pending_erase hx
      · rename_i hp
        rw [hp] at ha
        simp only at ha
        split
        · simp [answers]
        · rename_i hc
          rw [if_neg hc] at ha
          rw [next_count g e i x _ ha j]
          exact pending_erase hx
  | expire i =>
    simp only [step, begins, List.count_nil, Nat.add_zero] at ha ⊢
    split
    · simp [answers]
    · rename_i x hx
      rw [hx] at ha
      obtain ⟨f1, f2, f3, -⟩ := fail_count x.id x.errs st j
      change Alive (G.bind (fail x.id x.errs) (fun _ => next g e i { x with errs := x.errs + 1 }) st).2.2 at ha
      show pending j (G.bind (fail x.id x.errs) (fun _ => next g e i { x with errs := x.errs + 1 }) st).1.waiting +
        answers j (G.bind (fail x.id x.errs) (fun _ => next g e i { x with errs := x.errs + 1 }) st).2.1 = _
      unfold G.bind at ha ⊢
      rcases hf : fail x.id x.errs st with ⟨st', ev, r⟩
      rw [hf] at f1 f2 f3 ha
      simp only at f1 f2 f3 ha
      subst f3
      simp only at ha ⊢
      have := next_count g e i { x with errs := x.errs + 1 } st' ha j
      have he := pending_erase (id := j) hx
      rw [answers_append, f2]
      rw [f1] at this
      simp only [Nat.add_eq_zero_iff, Nat.one_ne_zero, and_false, if_false, Nat.add_zero] at this
      omega

end Verif.V2.Mme
