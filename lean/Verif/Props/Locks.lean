import Verif.Model.Locks
/-
C71: calls return (no deadlocks). C72: calls may be made from several goroutines (no data races).
-/
namespace Verif.Locks
open Prog

/-! ### order of the mutexes -/

/-- the only nesting in the library: a connection's mutex, then its socket's -/
def rank : Kind → Nat
  | .pkt => 1
  | _ => 0

/-- p, run with `held`, takes mutexes in ascending order, and waits or calls user functions only without any -/
def Ordered (held : List (Mode × Lock)) : Prog → Prop
  | .locked m l p => (∀ h ∈ held, rank h.2.kind < rank l.kind) ∧ Ordered ((m, l) :: held) p
  | .seq p q => Ordered held p ∧ Ordered held q
  | .alt p q => Ordered held p ∧ Ordered held q
  | .star p => Ordered held p
  | .any f => ∀ i, Ordered held (f i)
  | .wait => held = []
  | .user => held = []
  | _ => True

/-- the same of what a goroutine has still to do -/
def Good : List (Mode × Lock) → List Instr → Prop
  | held, [] => held = []
  | held, .acq m l :: r => (∀ h ∈ held, rank h.2.kind < rank l.kind) ∧ Good ((m, l) :: held) r
  | held, .rel m l :: r => ∃ h', held = (m, l) :: h' ∧ Good h' r
  | held, .wait :: r => held = [] ∧ Good held r
  | held, .rd _ :: r => Good held r
  | held, .wr _ :: r => Good held r
  | held, .io :: r => Good held r

/-- every function but EnableLogging -/
def NotEnableLogging : Op → Prop
  | .enableLogging _ => False
  | _ => True

theorem ordered_opt {held : List (Mode × Lock)} {p : Prog} (h : Ordered held p) : Ordered held (opt p) := ⟨h, trivial⟩

theorem ordered_op (o : Op) (h : NotEnableLogging o) : Ordered [] o.prog := by
  cases o with
  | enableLogging v => exact h.elim
  | setLogger v => cases v <;> simp [Op.prog, setLogger1', setLogger2', Ordered]
  | disableLogging v => cases v <;> simp [Op.prog, Ordered]
  | _ =>
    simp [Op.prog, Ordered, opt, logf1, logf2, isGrouped', codec, write, incSeq, decSeq, send, respond, byTEID, validate', handle,
      datagram2, register, remove, parseCreate, writeDSCP, uwrite, urespond, errorInd, handleTPDU, uhandle, datagram1, rank]

theorem path_good {A : Op → Prop} (hA : ∀ o, A o → Ordered [] o.prog) {p : Prog} {w : List Instr} (hp : Path A p w) :
    ∀ (held : List (Mode × Lock)) (r : List Instr), Ordered held p → Good held r → Good held (w ++ r) := by
  induction hp with
  | skip => intro held r _ hr; exact hr
  | rd x => intro held r _ hr; exact hr
  | wr x => intro held r _ hr; exact hr
  | wait => intro held r ho hr; exact ⟨ho, hr⟩
  | io => intro held r _ hr; exact hr
  | @locked m l p w _ ih =>
    intro held r ho hr
    have := ih ((m, l) :: held) (.rel m l :: r) ho.2 ⟨held, rfl, hr⟩
    simp only [List.cons_append, List.append_assoc, List.nil_append]
    exact ⟨ho.1, this⟩
  | seq _ _ ih1 ih2 => intro held r ho hr; rw [List.append_assoc]; exact ih1 held _ ho.1 (ih2 held r ho.2 hr)
  | left _ ih => intro held r ho hr; exact ih held r ho.1 hr
  | right _ ih => intro held r ho hr; exact ih held r ho.2 hr
  | nil => intro held r _ hr; exact hr
  | cons _ _ ih1 ih2 => intro held r ho hr; rw [List.append_assoc]; exact ih1 held _ ho (ih2 held r ho hr)
  | any i _ ih => intro held r ho hr; exact ih held r (ho i) hr
  | done => intro held r _ hr; exact hr
  | call ho' _ _ ih1 ih2 =>
    intro held r ho hr
    have h0 : held = [] := ho
    subst h0
    rw [List.append_assoc]
    exact ih1 [] _ (hA _ ho') (ih2 [] r rfl hr)

/-! ### steps -/

/-- what a step does to the goroutine that makes it -/
theorem step_some {s s' : State} {i : Nat} (h : step s i = some s') : ∃ t t', s[i]? = some t ∧ s' = s.set i t' ∧
    ((∃ l, t.rest = .acq .ex l :: t'.rest ∧ isHeld s l = false ∧ t'.held = (.ex, l) :: t.held) ∨
     (∃ l, t.rest = .acq .sh l :: t'.rest ∧ exHeld s l = false ∧ t'.held = (.sh, l) :: t.held) ∨
     (∃ m l, t.rest = .rel m l :: t'.rest ∧ t'.held = t.held.erase (m, l)) ∨
     (((∃ x, t.rest = .rd x :: t'.rest) ∨ (∃ x, t.rest = .wr x :: t'.rest) ∨ t.rest = .wait :: t'.rest ∨
        t.rest = .io :: t'.rest) ∧ t'.held = t.held)) := by
  unfold step at h
  split at h
  · cases h
  rename_i t ht
  split at h
  · cases h
  all_goals
    rename_i hr
    first
    | (split at h
       · cases h
       · rename_i hh
         injection h with h
         refine ⟨t, _, ht, h.symm, ?_⟩
         simp only [Bool.not_eq_true] at hh
         first
         | exact .inl ⟨_, hr, hh, rfl⟩
         | exact .inr (.inl ⟨_, hr, hh, rfl⟩))
    | (injection h with h
       refine ⟨t, _, ht, h.symm, ?_⟩
       first
       | exact .inr (.inr (.inl ⟨_, _, hr, rfl⟩))
       | exact .inr (.inr (.inr ⟨.inl ⟨_, hr⟩, rfl⟩))
       | exact .inr (.inr (.inr ⟨.inr (.inl ⟨_, hr⟩), rfl⟩))
       | exact .inr (.inr (.inr ⟨.inr (.inr (.inl hr)), rfl⟩))
       | exact .inr (.inr (.inr ⟨.inr (.inr (.inr hr)), rfl⟩)))

theorem step_good {s s' : State} {i : Nat} (h : step s i = some s') (hs : ∀ t ∈ s, Good t.held t.rest) :
    ∀ t ∈ s', Good t.held t.rest := by
  obtain ⟨t, t', ht, rfl, hc⟩ := step_some h
  have hg := hs t (List.mem_of_getElem? ht)
  intro u hu
  rcases List.mem_or_eq_of_mem_set hu with hu | rfl
  · exact hs u hu
  rcases hc with ⟨l, h1, _, h3⟩ | ⟨l, h1, _, h3⟩ | ⟨m, l, h1, h3⟩ | ⟨h1, h3⟩
  · rw [h1] at hg; rw [h3]; exact hg.2
  · rw [h1] at hg; rw [h3]; exact hg.2
  · rw [h1] at hg
    obtain ⟨h', e, hg⟩ := hg
    rw [h3, e, List.erase_cons_head]; exact hg
  · rcases h1 with ⟨x, h1⟩ | ⟨x, h1⟩ | h1 | h1 <;> rw [h1] at hg <;> rw [h3]
    · exact hg
    · exact hg
    · exact hg.2
    · exact hg

theorem run_inv {J : State → Prop} (hJ : ∀ s s' i, J s → step s i = some s' → J s') : ∀ (is : List Nat) (s s' : State),
    J s → run s is = some s' → J s'
  | [], s, s', h, e => by injection e with e; exact e ▸ h
  | i :: is, s, s', h, e => by
    unfold run at e
    split at e
    · cases e
    · rename_i s1 h1
      exact run_inv hJ is s1 s' (hJ s s1 i h h1) e

theorem start_good {A : Op → Prop} (hA : ∀ o, A o → Ordered [] o.prog) {s : State} (hs : Start A s) :
    ∀ t ∈ s, Good t.held t.rest := by
  intro t ht
  obtain ⟨h1, h2⟩ := hs t ht
  have := path_good hA h2 [] [] rfl rfl
  rw [h1]
  simpa using this

theorem isHeld_true {s : State} {l : Lock} (h : isHeld s l = true) : ∃ (j : Nat) (t : Thread) (m : Mode), s[j]? = some t ∧ (m, l) ∈ t.held := by
  obtain ⟨t, ht, h⟩ := List.any_eq_true.1 h
  obtain ⟨j, hj⟩ := List.getElem?_of_mem ht
  rcases Bool.or_eq_true _ _ ▸ h with h | h
  · exact ⟨j, t, .ex, hj, by simpa using h⟩
  · exact ⟨j, t, .sh, hj, by simpa using h⟩

theorem exHeld_true {s : State} {l : Lock} (h : exHeld s l = true) : isHeld s l = true := by
  obtain ⟨t, ht, h⟩ := List.any_eq_true.1 h
  exact List.any_eq_true.2 ⟨t, ht, by simp only [h, Bool.true_or]⟩

/-- a goroutine that holds a mutex is on its way: it can go on, or someone can for whom it waits -/
theorem holder_runs {s : State} (hs : ∀ t ∈ s, Good t.held t.rest) : ∀ (k : Nat) (j : Nat) (t : Thread) (m : Mode) (l : Lock),
    s[j]? = some t → (m, l) ∈ t.held → 2 ≤ rank l.kind + k → ∃ i, runnable s i
  | 0, j, t, m, l, _, _, h2 => by
    have : rank l.kind ≤ 1 := by cases l.kind <;> simp [rank]
    omega
  | k + 1, j, t, m, l, hj, hm, h2 => by
    have hg := hs t (List.mem_of_getElem? hj)
    cases hr : t.rest with
    | nil => rw [hr] at hg; have : t.held = [] := hg; rw [this] at hm; cases hm
    | cons a r =>
      rw [hr] at hg
      cases a with
      | rd x => exact ⟨j, t, r, hj, .inr (.inr (.inr (.inl ⟨x, hr⟩)))⟩
      | wr x => exact ⟨j, t, r, hj, .inr (.inr (.inr (.inr (.inl ⟨x, hr⟩))))⟩
      | io => exact ⟨j, t, r, hj, .inr (.inr (.inr (.inr (.inr hr))))⟩
      | wait => rw [hg.1] at hm; cases hm
      | rel m' l' => exact ⟨j, t, r, hj, .inr (.inr (.inl ⟨m', l', hr⟩))⟩
      | acq m' l' =>
        have hlt : rank l.kind < rank l'.kind := hg.1 _ hm
        -- whoever holds l' is further up
        have up : isHeld s l' = true → ∃ i, runnable s i := by
          intro h
          obtain ⟨j', t', m'', hj', hm'⟩ := isHeld_true h
          exact holder_runs hs k j' t' m'' l' hj' hm' (by omega)
        by_cases h : isHeld s l' = true
        · exact up h
        simp only [Bool.not_eq_true] at h
        cases m' with
        | ex => exact ⟨j, t, r, hj, .inl ⟨l', hr, h⟩⟩
        | sh =>
          have hx : exHeld s l' = false := by
            cases e : exHeld s l' with
            | false => rfl
            | true => rw [exHeld_true e] at h; cases h
          cases hw : wanted s l' with
          | false => exact ⟨j, t, r, hj, .inr (.inl ⟨l', hr, hx, hw⟩)⟩
          | true =>
            obtain ⟨t', ht', hh⟩ := List.any_eq_true.1 hw
            obtain ⟨j', hj'⟩ := List.getElem?_of_mem ht'
            cases hr' : t'.rest with
            | nil => rw [hr'] at hh; simp at hh
            | cons b r' =>
              rw [hr'] at hh
              simp only [List.head?_cons, beq_iff_eq, Option.some.injEq] at hh
              exact ⟨j', t', r', hj', .inl ⟨l', by rw [hr', hh], h⟩⟩

theorem acq_runs {s : State} (hs : ∀ t ∈ s, Good t.held t.rest) (i : Nat) (t : Thread) (r : List Instr) (m : Mode) (l : Lock)
    (hi : s[i]? = some t) (hr : t.rest = .acq m l :: r) : ∃ j, runnable s j := by
  by_cases h : isHeld s l = true
  · obtain ⟨j, t', m', hj, hm⟩ := isHeld_true h
    exact holder_runs hs 2 j t' m' l hj hm (by omega)
  simp only [Bool.not_eq_true] at h
  cases m with
  | ex => exact ⟨i, t, r, hi, .inl ⟨l, hr, h⟩⟩
  | sh =>
    have hx : exHeld s l = false := by
      cases e : exHeld s l with
      | false => rfl
      | true => rw [exHeld_true e] at h; cases h
    cases hw : wanted s l with
    | false => exact ⟨i, t, r, hi, .inr (.inl ⟨l, hr, hx, hw⟩)⟩
    | true =>
      obtain ⟨t', ht', hh⟩ := List.any_eq_true.1 hw
      obtain ⟨j', hj'⟩ := List.getElem?_of_mem ht'
      cases hr' : t'.rest with
      | nil => rw [hr'] at hh; simp at hh
      | cons b r' =>
        rw [hr'] at hh
        simp only [List.head?_cons, beq_iff_eq, Option.some.injEq] at hh
        exact ⟨j', t', r', hj', .inl ⟨l, by rw [hr', hh], h⟩⟩

/-- no deadlock: however many goroutines call whatever functions but EnableLogging, as long as one of them has something to
do other than wait for the network, a channel or a context, one of them can go on -/
theorem C71_no_deadlock_partial (s0 s : State) (is : List Nat) (h0 : Start NotEnableLogging s0) (h : run s0 is = some s)
    (i : Nat) (t : Thread) (a : Instr) (r : List Instr) (hi : s[i]? = some t) (hr : t.rest = a :: r) (hw : a ≠ .wait) :
    ∃ j, runnable s j := by
  have hs := run_inv (J := fun s => ∀ t ∈ s, Good t.held t.rest) (fun s s' i h1 h2 => step_good h2 h1) is s0 s
    (start_good (fun o ho => ordered_op o ho) h0) h
  cases a with
  | acq m l => exact acq_runs hs i t r m l hi hr
  | rel m l => exact ⟨i, t, r, hi, .inr (.inr (.inl ⟨m, l, hr⟩))⟩
  | rd x => exact ⟨i, t, r, hi, .inr (.inr (.inr (.inl ⟨x, hr⟩)))⟩
  | wr x => exact ⟨i, t, r, hi, .inr (.inr (.inr (.inr (.inl ⟨x, hr⟩))))⟩
  | wait => exact (hw rfl).elim
  | io => exact ⟨i, t, r, hi, .inr (.inr (.inr (.inr (.inr hr))))⟩

/-- a goroutine that waits for the network, a channel or a context, or runs a handler, holds no mutex, so that it blocks
nobody -/
theorem C71_wait_without_mutex (s0 s : State) (is : List Nat) (h0 : Start NotEnableLogging s0) (h : run s0 is = some s)
    (t : Thread) (ht : t ∈ s) (r : List Instr) (hr : t.rest = .wait :: r) : t.held = [] := by
  have hs := run_inv (J := fun s => ∀ t ∈ s, Good t.held t.rest) (fun s s' i h1 h2 => step_good h2 h1) is s0 s
    (start_good (fun o ho => ordered_op o ho) h0) h t ht
  rw [hr] at hs
  exact hs.1

/-- goroutines end without mutexes -/
theorem C71_end_without_mutex (s0 s : State) (is : List Nat) (h0 : Start NotEnableLogging s0) (h : run s0 is = some s)
    (t : Thread) (ht : t ∈ s) (hr : t.rest = []) : t.held = [] := by
  have hs := run_inv (J := fun s => ∀ t ∈ s, Good t.held t.rest) (fun s s' i h1 h2 => step_good h2 h1) is s0 s
    (start_good (fun o ho => ordered_op o ho) h0) h t ht
  rw [hr] at hs
  exact hs

/-- instructions left -/
def left (s : State) : Nat := (s.map fun t => t.rest.length).sum

theorem sum_set {l : List Nat} {i a b : Nat} (h : l[i]? = some a) : (l.set i b).sum + a = l.sum + b := by
  induction l generalizing i with
  | nil => cases h
  | cons x l ih =>
    cases i with
    | zero => injection h with h; subst h; simp; omega
    | succ i =>
      have := ih (i := i) (by simpa using h)
      simp only [List.set_cons_succ, List.sum_cons]
      omega

theorem le_sum {l : List Nat} {a : Nat} (h : a ∈ l) : a ≤ l.sum := by
  induction l with
  | nil => cases h
  | cons x l ih =>
    simp only [List.sum_cons]
    rcases List.mem_cons.1 h with rfl | h
    · omega
    · have := ih h; omega

theorem step_left {s s' : State} {i : Nat} (h : step s i = some s') : left s' + 1 = left s := by
  obtain ⟨t, t', ht, rfl, hc⟩ := step_some h
  have hl : t.rest.length = t'.rest.length + 1 := by
    rcases hc with ⟨l, h1, _⟩ | ⟨l, h1, _⟩ | ⟨m, l, h1, _⟩ | ⟨⟨x, h1⟩ | ⟨x, h1⟩ | h1 | h1, _⟩ <;> rw [h1] <;> rfl
  have := sum_set (l := s.map fun t => t.rest.length) (i := i) (a := t.rest.length) (b := t'.rest.length) (by simp [ht])
  unfold left
  rw [List.map_set]
  omega

theorem runnable_step {s : State} {i : Nat} (h : runnable s i) : ∃ s', step s i = some s' := by
  obtain ⟨t, r, hi, h⟩ := h
  unfold step
  rw [hi]
  rcases h with ⟨l, h1, h2⟩ | ⟨l, h1, h2, _⟩ | ⟨m, l, h1⟩ | ⟨x, h1⟩ | ⟨x, h1⟩ | h1 <;> simp [*]

/-- from wherever the goroutines have got to they can all end, provided that what they wait for comes -/
theorem C71_can_finish_partial (s0 s : State) (is : List Nat) (h0 : Start NotEnableLogging s0) (h : run s0 is = some s) :
    ∃ is' s', run s is' = some s' ∧ ∀ t ∈ s', t.rest = [] ∧ t.held = [] := by
  suffices key : ∀ (n : Nat) (s : State), left s = n → (∀ t ∈ s, Good t.held t.rest) →
      ∃ is' s', run s is' = some s' ∧ ∀ t ∈ s', t.rest = [] ∧ t.held = [] by
    exact key _ s rfl (run_inv (J := fun s => ∀ t ∈ s, Good t.held t.rest) (fun s s' i h1 h2 => step_good h2 h1) is s0 s
      (start_good (fun o ho => ordered_op o ho) h0) h)
  intro n
  induction n with
  | zero =>
    intro s hn hs
    refine ⟨[], s, rfl, fun t ht => ?_⟩
    have : t.rest.length ≤ left s := le_sum (List.mem_map.2 ⟨t, ht, rfl⟩)
    have h0 : t.rest = [] := List.length_eq_zero_iff.1 (by omega)
    have := hs t ht
    rw [h0] at this
    exact ⟨h0, this⟩
  | succ n ih =>
    intro s hn hs
    have go : (∃ i s1, step s i = some s1) → ∃ is' s', run s is' = some s' ∧ ∀ t ∈ s', t.rest = [] ∧ t.held = [] := by
      rintro ⟨i, s1, h1⟩
      obtain ⟨is', s', h2, h3⟩ := ih s1 (by have := step_left h1; omega) (step_good h1 hs)
      exact ⟨i :: is', s', by simp only [run, h1]; exact h2, h3⟩
    by_cases hall : ∀ t ∈ s, t.rest = []
    · exact ⟨[], s, rfl, fun t ht => ⟨hall t ht, by have := hs t ht; rw [hall t ht] at this; exact this⟩⟩
    · obtain ⟨t, ht⟩ := Classical.not_forall.1 hall
      obtain ⟨hm, hr⟩ := Classical.not_imp.1 ht
      obtain ⟨i, hi⟩ := List.getElem?_of_mem hm
      apply go
      cases e : t.rest with
      | nil => exact (hr e).elim
      | cons a r =>
        cases a with
        | acq m l =>
          obtain ⟨j, hj⟩ := acq_runs hs i t r m l hi e
          exact ⟨j, runnable_step hj⟩
        | rel m l => exact ⟨i, by simp [step, hi, e]⟩
        | rd x => exact ⟨i, by simp [step, hi, e]⟩
        | wr x => exact ⟨i, by simp [step, hi, e]⟩
        | wait => exact ⟨i, by simp [step, hi, e]⟩
        | io => exact ⟨i, by simp [step, hi, e]⟩

-- two goroutines send a message each: one gets the mutex, the other is blocked until it is given back
example : ∃ s, run [⟨[], [.acq .ex ⟨.conn, 0⟩, .rd ⟨.sequence, 0⟩, .wr ⟨.sequence, 0⟩, .rel .ex ⟨.conn, 0⟩]⟩,
      ⟨[], [.acq .ex ⟨.conn, 0⟩, .rd ⟨.sequence, 0⟩, .wr ⟨.sequence, 0⟩, .rel .ex ⟨.conn, 0⟩]⟩] [0, 0] = some s ∧
    step s 1 = none ∧ ∃ s', run s [0, 0, 1, 1, 1, 1] = some s' ∧ s' = [⟨[], []⟩, ⟨[], []⟩] :=
  ⟨_, rfl, by decide, _, rfl, rfl⟩
example : Start NotEnableLogging [⟨[], [.acq .ex ⟨.conn, 0⟩, .rd ⟨.sequence, 0⟩, .wr ⟨.sequence, 0⟩, .rel .ex ⟨.conn, 0⟩]⟩] := by
  intro t ht
  simp only [List.mem_cons, List.not_mem_nil, or_false] at ht
  subst ht
  exact ⟨rfl, Path.call (o := .incSequence 0) (w := []) trivial (.locked (.seq (.rd _) (.wr _))) .done⟩

/-! ### EnableLogging -/

/-- the mutex of the logger of gtpv1 (false) and gtpv2 (true) -/
def logMu : Bool → Lock
  | false => ⟨.log1, 0⟩
  | true => ⟨.log2, 0⟩

theorem enable_path {A : Op → Prop} (v : Bool) {w : List Instr} (h : Path A (Op.enableLogging v).prog w) :
    ∃ x, w = [.acq .ex (logMu v), .acq .ex (logMu v), .wr x, .rel .ex (logMu v), .rel .ex (logMu v)] := by
  cases v
  all_goals
    cases h with
    | locked h =>
      cases h with
      | locked h => cases h; exact ⟨_, rfl⟩

theorem isHeld_of {s : State} {i : Nat} {t : Thread} {l : Lock} (hi : s[i]? = some t) (hl : (Mode.ex, l) ∈ t.held) :
    isHeld s l = true :=
  List.any_eq_true.2 ⟨t, List.mem_of_getElem? hi, by simp [hl]⟩

/-- a goroutine that wants a mutex that it (or another one that cannot go on) holds stays where it is -/
theorem stuck_step {s s' : State} {k i : Nat} {t : Thread} {r : List Instr} {l : Lock} (hi : s[i]? = some t)
    (hr : t.rest = .acq .ex l :: r) (hl : isHeld s l = true) (h : step s k = some s') : s'[i]? = some t := by
  obtain ⟨u, u', hu, rfl, hc⟩ := step_some h
  by_cases hk : k = i
  · subst hk
    rw [hi] at hu
    injection hu with hu
    subst hu
    rw [hr] at hc
    rcases hc with ⟨l', h1, h2, _⟩ | ⟨l', h1, _⟩ | ⟨m, l', h1, _⟩ | ⟨⟨x, h1⟩ | ⟨x, h1⟩ | h1 | h1, _⟩
    · injection h1 with h1; injection h1 with _ h1; subst h1; rw [hl] at h2; cases h2
    · injection h1 with h1; injection h1 with h1; cases h1
    all_goals injection h1 with h1; cases h1
  · rw [List.getElem?_set_ne hk]; exact hi

/-- EnableLogging never returns: it takes the mutex of the logger and then wants it once more. From then on everything that
logs in the package is blocked for ever: no goroutine that comes to take the mutex gets any further -/
theorem C71_enable_logging_wrong {A : Op → Prop} (v : Bool) (w : List Instr) (hw : Path A (Op.enableLogging v).prog w)
    (s : State) (i : Nat) (t : Thread) (r : List Instr) (hi : s[i]? = some t) (hr : t.rest = w ++ r)
    (hfree : isHeld s (logMu v) = false) :
    ∃ s1 t1, step s i = some s1 ∧ s1[i]? = some t1 ∧ t1.rest ≠ [] ∧
      ∀ is s2, run s1 is = some s2 → s2[i]? = some t1 ∧
        ∀ (j : Nat) (t' : Thread) (r' : List Instr), s2[j]? = some t' → t'.rest = .acq .ex (logMu v) :: r' →
          ∀ is' s3, run s2 is' = some s3 → s3[j]? = some t' := by
  obtain ⟨x, rfl⟩ := enable_path v hw
  have hlt : i < s.length := (List.getElem?_eq_some_iff.1 hi).1
  let t1 : Thread := ⟨(.ex, logMu v) :: t.held, .acq .ex (logMu v) :: .wr x :: .rel .ex (logMu v) :: .rel .ex (logMu v) :: r⟩
  have h1 : step s i = some (s.set i t1) := by
    simp only [step, hi, hr, List.cons_append, hfree]
    rfl
  have hi1 : (s.set i t1)[i]? = some t1 := by rw [List.getElem?_set_self hlt]
  have hm : (Mode.ex, logMu v) ∈ t1.held := List.mem_cons_self
  have keep : ∀ (is : List Nat) (s1 s2 : State), s1[i]? = some t1 → run s1 is = some s2 → s2[i]? = some t1 := fun is s1 s2 =>
    run_inv (J := fun s => s[i]? = some t1) (fun s s' k hs hk => stuck_step hs rfl (isHeld_of hs hm) hk) is s1 s2
  refine ⟨_, t1, h1, hi1, by simp [t1], fun is s2 h2 => ⟨keep is _ _ hi1 h2, fun j t' r' hj hr' is' s3 h3 => ?_⟩⟩
  have := run_inv (J := fun s => s[i]? = some t1 ∧ s[j]? = some t')
    (fun s s' k hs hk => ⟨stuck_step hs.1 rfl (isHeld_of hs.1 hm) hk, stuck_step hs.2 hr' (isHeld_of hs.1 hm) hk⟩) is' s2 s3
    ⟨keep is _ _ hi1 h2, hj⟩ h3
  exact this.2

-- two goroutines: EnableLogging, then a datagram that cannot be parsed is to be logged; nothing moves any more
example : let w : List Instr := [.acq .ex (logMu true), .acq .ex (logMu true), .wr ⟨.logger2, 0⟩, .rel .ex (logMu true), .rel .ex (logMu true)]
    ∃ s, run [⟨[], w⟩, ⟨[], [.acq .ex (logMu true), .rd ⟨.logger2, 0⟩, .io, .rel .ex (logMu true)]⟩] [0] = some s ∧
      step s 0 = none ∧ step s 1 = none := by
  exact ⟨_, rfl, by decide, by decide⟩

/-! ### data races -/

/-- the mutex of the library for a variable -/
def guard (x : Var) : Option Lock :=
  match x.kind with
  | .sequence => some ⟨.conn, x.obj⟩
  | .active => some ⟨.sess, x.obj⟩
  | .teidPair => some ⟨.relay, x.obj⟩
  | .logger1 => some ⟨.log1, x.obj⟩
  | .logger2 => some ⟨.log2, x.obj⟩
  | .groupedMap => some ⟨.ie, x.obj⟩
  | _ => none

/-- the instruction accesses x; it writes x -/
def Instr.accesses (a : Instr) (x : Var) : Bool := a == .rd x || a == .wr x
def Instr.writes (a : Instr) (x : Var) : Bool := a == .wr x

/-- two goroutines are about to access x, at least one of them to write it -/
def Race (s : State) (x : Var) : Prop :=
  ∃ (i j : Nat) (t t' : Thread) (a b : Instr) (r r' : List Instr), i ≠ j ∧ s[i]? = some t ∧ s[j]? = some t' ∧ t.rest = a :: r ∧ t'.rest = b :: r' ∧
    a.accesses x = true ∧ b.writes x = true

/-- p, run with `held`, accesses variables that have a mutex only with it -/
def Guarded (held : List (Mode × Lock)) : Prog → Prop
  | .locked m l p => Guarded ((m, l) :: held) p
  | .seq p q => Guarded held p ∧ Guarded held q
  | .alt p q => Guarded held p ∧ Guarded held q
  | .star p => Guarded held p
  | .any f => ∀ i, Guarded held (f i)
  | .rd x => ∀ l, guard x = some l → (.ex, l) ∈ held ∨ (.sh, l) ∈ held
  | .wr x => ∀ l, guard x = some l → (.ex, l) ∈ held
  | .user => held = []
  | _ => True

def GoodG : List (Mode × Lock) → List Instr → Prop
  | _, [] => True
  | held, .acq m l :: r => GoodG ((m, l) :: held) r
  | held, .rel m l :: r => GoodG (held.erase (m, l)) r
  | held, .wait :: r => GoodG held r
  | held, .rd x :: r => (∀ l, guard x = some l → (.ex, l) ∈ held ∨ (.sh, l) ∈ held) ∧ GoodG held r
  | held, .wr x :: r => (∀ l, guard x = some l → (.ex, l) ∈ held) ∧ GoodG held r
  | held, .io :: r => GoodG held r

theorem guarded_op (o : Op) : Guarded [] o.prog := by
  cases o with
  | enableLogging v => cases v <;> simp [Op.prog, setLogger1', setLogger2', Guarded, guard]
  | setLogger v => cases v <;> simp [Op.prog, setLogger1', setLogger2', Guarded, guard]
  | disableLogging v => cases v <;> simp [Op.prog, Guarded, guard]
  | _ =>
    simp [Op.prog, Guarded, guard, opt, logf1, logf2, isGrouped', codec, write, incSeq, decSeq, send, respond, byTEID, validate', handle,
      datagram2, register, remove, parseCreate, writeDSCP, uwrite, urespond, errorInd, handleTPDU, uhandle, datagram1]

theorem path_goodG {A : Op → Prop} {p : Prog} {w : List Instr} (hp : Path A p w) :
    ∀ (held : List (Mode × Lock)) (r : List Instr), Guarded held p → GoodG held r → GoodG held (w ++ r) := by
  induction hp with
  | skip => intro held r _ hr; exact hr
  | rd x => intro held r ho hr; exact ⟨ho, hr⟩
  | wr x => intro held r ho hr; exact ⟨ho, hr⟩
  | wait => intro held r ho hr; exact hr
  | io => intro held r _ hr; exact hr
  | @locked m l p w _ ih =>
    intro held r ho hr
    have h1 : GoodG ((m, l) :: held) (.rel m l :: r) := by
      show GoodG (((m, l) :: held).erase (m, l)) r
      rw [List.erase_cons_head]; exact hr
    have := ih ((m, l) :: held) (.rel m l :: r) ho h1
    simp only [List.cons_append, List.append_assoc, List.nil_append]
    exact this
  | seq _ _ ih1 ih2 => intro held r ho hr; rw [List.append_assoc]; exact ih1 held _ ho.1 (ih2 held r ho.2 hr)
  | left _ ih => intro held r ho hr; exact ih held r ho.1 hr
  | right _ ih => intro held r ho hr; exact ih held r ho.2 hr
  | nil => intro held r _ hr; exact hr
  | cons _ _ ih1 ih2 => intro held r ho hr; rw [List.append_assoc]; exact ih1 held _ ho (ih2 held r ho hr)
  | any i _ ih => intro held r ho hr; exact ih held r (ho i) hr
  | done => intro held r _ hr; exact hr
  | call _ _ _ ih1 ih2 =>
    intro held r ho hr
    have h0 : held = [] := ho
    subst h0
    rw [List.append_assoc]
    exact ih1 [] _ (guarded_op _) (ih2 [] r rfl hr)

/-- mutual exclusion -/
def Excl (s : State) : Prop := ∀ (i j : Nat) (t t' : Thread) (l : Lock) (m : Mode), i ≠ j → s[i]? = some t → s[j]? = some t' → (Mode.ex, l) ∈ t.held → (m, l) ∉ t'.held

theorem isHeld_false {s : State} {l : Lock} (h : isHeld s l = false) {j : Nat} {t : Thread} (hj : s[j]? = some t) (m : Mode) :
    (m, l) ∉ t.held := by
  intro hm
  have := List.any_eq_false.1 h t (List.mem_of_getElem? hj)
  cases m <;> simp [hm] at this

theorem exHeld_false {s : State} {l : Lock} (h : exHeld s l = false) {j : Nat} {t : Thread} (hj : s[j]? = some t) :
    (Mode.ex, l) ∉ t.held := by
  intro hm
  have := List.any_eq_false.1 h t (List.mem_of_getElem? hj)
  simp [hm] at this

/-- mutexes exclude each other: while one goroutine holds one exclusively no other holds it -/
theorem step_excl {s s' : State} {k : Nat} (hs : Excl s) (h : step s k = some s') : Excl s' := by
  obtain ⟨t, t', ht, rfl, hc⟩ := step_some h
  have hlt : k < s.length := (List.getElem?_eq_some_iff.1 ht).1
  -- what the stepping goroutine holds afterwards: what it held, and perhaps one mutex it may have
  have hnew : ∀ m l, (m, l) ∈ t'.held → (m, l) ∈ t.held ∨ (m = .ex ∧ isHeld s l = false) ∨ (m = .sh ∧ exHeld s l = false) := by
    intro m l hm
    rcases hc with ⟨l', _, h2, h3⟩ | ⟨l', _, h2, h3⟩ | ⟨m', l', _, h3⟩ | ⟨_, h3⟩
    · rw [h3] at hm
      rcases List.mem_cons.1 hm with e | hm
      · injection e with e1 e2; subst e1; subst e2; exact .inr (.inl ⟨rfl, h2⟩)
      · exact .inl hm
    · rw [h3] at hm
      rcases List.mem_cons.1 hm with e | hm
      · injection e with e1 e2; subst e1; subst e2; exact .inr (.inr ⟨rfl, h2⟩)
      · exact .inl hm
    · rw [h3] at hm; exact .inl (List.mem_of_mem_erase hm)
    · rw [h3] at hm; exact .inl hm
  intro i j a b l m hij ha hb hl hm
  by_cases hi : k = i
  · subst hi
    rw [List.getElem?_set_self hlt] at ha
    injection ha with ha
    subst ha
    rw [List.getElem?_set_ne hij] at hb
    rcases hnew _ _ hl with h1 | ⟨_, h1⟩ | ⟨h1, _⟩
    · exact hs k j t b l m hij ht hb h1 hm
    · exact isHeld_false h1 hb m hm
    · cases h1
  · rw [List.getElem?_set_ne hi] at ha
    by_cases hj : k = j
    · subst hj
      rw [List.getElem?_set_self hlt] at hb
      injection hb with hb
      subst hb
      rcases hnew _ _ hm with h1 | ⟨_, h1⟩ | ⟨_, h1⟩
      · exact hs i k a t l m hij ha ht hl h1
      · exact isHeld_false h1 ha .ex hl
      · exact exHeld_false h1 ha hl
    · rw [List.getElem?_set_ne hj] at hb
      exact hs i j a b l m hij ha hb hl hm

theorem step_goodG {s s' : State} {i : Nat} (h : step s i = some s') (hs : ∀ t ∈ s, GoodG t.held t.rest) :
    ∀ t ∈ s', GoodG t.held t.rest := by
  obtain ⟨t, t', ht, rfl, hc⟩ := step_some h
  have hg := hs t (List.mem_of_getElem? ht)
  intro u hu
  rcases List.mem_or_eq_of_mem_set hu with hu | rfl
  · exact hs u hu
  rcases hc with ⟨l, h1, _, h3⟩ | ⟨l, h1, _, h3⟩ | ⟨m, l, h1, h3⟩ | ⟨h1, h3⟩
  · rw [h1] at hg; rw [h3]; exact hg
  · rw [h1] at hg; rw [h3]; exact hg
  · rw [h1] at hg; rw [h3]; exact hg
  · rcases h1 with ⟨x, h1⟩ | ⟨x, h1⟩ | h1 | h1 <;> rw [h1] at hg <;> rw [h3]
    · exact hg.2
    · exact hg.2
    · exact hg
    · exact hg

/-- no data race on the sequence number of a connection, on whether a session is active, on the table of a Relay, on the
loggers and on the table of grouped types, whatever is called from however many goroutines -/
theorem C72_no_race_partial (s0 s : State) (is : List Nat) (h0 : Start (fun _ => True) s0) (h : run s0 is = some s) (x : Var)
    (hx : x.kind ∈ [VKind.sequence, .active, .teidPair, .logger1, .logger2, .groupedMap]) : ¬Race s x := by
  obtain ⟨l, hl⟩ : ∃ l, guard x = some l := by
    unfold guard
    simp only [List.mem_cons, List.not_mem_nil, or_false] at hx
    rcases hx with e | e | e | e | e | e <;> rw [e] <;> exact ⟨_, rfl⟩
  have hJ := run_inv (J := fun s => Excl s ∧ ∀ t ∈ s, GoodG t.held t.rest)
    (fun s s' i h1 h2 => ⟨step_excl h1.1 h2, step_goodG h2 h1.2⟩) is s0 s ⟨?_, ?_⟩ h
  · rintro ⟨i, j, t, t', a, b, r, r', hij, hi, hj, ha, hb, h1, h2⟩
    have g1 := hJ.2 t (List.mem_of_getElem? hi)
    have g2 := hJ.2 t' (List.mem_of_getElem? hj)
    simp only [Instr.accesses, Instr.writes, Bool.or_eq_true, beq_iff_eq] at h1 h2
    subst h2
    rw [hb] at g2
    have e2 : (Mode.ex, l) ∈ t'.held := g2.1 l hl
    rcases h1 with rfl | rfl
    · rw [ha] at g1
      rcases g1.1 l hl with e1 | e1
      · exact hJ.1 j i t' t l _ (Ne.symm hij) hj hi e2 e1
      · exact hJ.1 j i t' t l _ (Ne.symm hij) hj hi e2 e1
    · rw [ha] at g1
      exact hJ.1 j i t' t l _ (Ne.symm hij) hj hi e2 (g1.1 l hl)
  · intro i j t t' l m _ hi _ hl
    rw [(h0 t (List.mem_of_getElem? hi)).1] at hl
    cases hl
  · intro t ht
    obtain ⟨h1, h2⟩ := h0 t ht
    have := path_goodG h2 [] [] rfl trivial
    rw [h1]
    simpa using this

/-- one call each of two functions, and a schedule after which they are about to access x at the same time -/
def Conflict (o o' : Op) (x : Var) : Prop :=
  ∃ w w' is s, Path (fun _ => True) o.prog w ∧ Path (fun _ => True) o'.prog w' ∧ run [⟨[], w⟩, ⟨[], w'⟩] is = some s ∧ Race s x

/-- a conflict is a data race of a program that calls the two functions in two goroutines -/
theorem conflict_race {o o' : Op} {x : Var} (h : Conflict o o' x) :
    ∃ s0 is s, Start (fun _ => True) s0 ∧ run s0 is = some s ∧ Race s x := by
  obtain ⟨w, w', is, s, h1, h2, h3, h4⟩ := h
  refine ⟨_, is, s, ?_, h3, h4⟩
  have u : ∀ {o : Op} {w : List Instr}, Path (fun _ => True) o.prog w → Path (fun _ => True) .user w := by
    intro o w h
    have := Path.call (A := fun _ => True) (o := o) trivial h .done
    simpa using this
  intro t ht
  simp only [List.mem_cons, List.not_mem_nil, or_false] at ht
  rcases ht with rfl | rfl
  · exact ⟨rfl, u h1⟩
  · exact ⟨rfl, u h2⟩

/-- all variables without a mutex are raced for: the socket of a connection that is being opened while it is used,
the validation flag, address, subscriber and bearers of a session, the relay table, the error indication flag, the state of
kernel tunnels, and the function that tells grouped elements. (The schedules for ParseCreateSession let it register the session
first, after which others can find it.) -/
def conflicts : List (Op × Op × Var) :=
  [(.writeTo 0, .listen 0, ⟨.pktConn, 0⟩),
   (.sendMessageTo 0, .listen 0, ⟨.pktConn, 0⟩),
   (.datagram 0, .disableValidation 0, ⟨.validation, 0⟩),
   (.datagram 0, .updatePeerAddr 0, ⟨.peerAddr, 0⟩),
   (.getIMSIByTEID, .parseCreateSession 0 0, ⟨.subscriber, 0⟩),
   (.lookupByEBI 0, .parseCreateSession 0 0, ⟨.bearer, 0⟩),
   (.remoteAddress 0, .setRemoteAddress 0, ⟨.bearerAddr, 0⟩),
   (.lookupEBI, .setBearerTEID 0, ⟨.bearerTEID, 0⟩),
   (.writeToWithDSCPECN 0, .uListen 0, ⟨.uPktConn, 0⟩),
   (.uDatagram 0, .relayTo 0, ⟨.relayMap, 0⟩),
   (.uDatagram 0, .disableErrInd 0, ⟨.errInd, 0⟩),
   (.relayTo 0, .enableKernelGTP 0, ⟨.kernel, 0⟩),
   (.codec, .setIsGroupedFun, ⟨.groupedFun, 0⟩)]

/-- there are no other variables -/
theorem C72_complete (k : VKind) : k ∈ [VKind.sequence, .active, .teidPair, .logger1, .logger2, .groupedMap] ∨
    ∃ e ∈ conflicts, e.2.2.kind = k := by
  cases k <;> simp [conflicts]

/-- the check of a schedule, for two goroutines -/
def races (s : State) (x : Var) : Bool :=
  match s with
  | [⟨_, a :: _⟩, ⟨_, b :: _⟩] => a.accesses x && b.writes x
  | _ => false

theorem conflict_of {o o' : Op} {x : Var} {w w' : List Instr} (h1 : Path (fun _ => True) o.prog w)
    (h2 : Path (fun _ => True) o'.prog w') (is : List Nat)
    (h : (match run [⟨[], w⟩, ⟨[], w'⟩] is with | some s => races s x | none => false) = true) : Conflict o o' x := by
  cases e : run [⟨[], w⟩, ⟨[], w'⟩] is with
  | none => rw [e] at h; cases h
  | some s =>
    rw [e] at h
    refine ⟨w, w', is, s, h1, h2, e, ?_⟩
    simp only [races] at h
    split at h
    · rename_i h0 a r h0' b r'
      rw [Bool.and_eq_true] at h
      exact ⟨0, 1, _, _, a, b, r, r', by decide, rfl, rfl, rfl, rfl, h.1, h.2⟩
    · cases h

/-- serialising or parsing without grouped elements -/
theorem codec_nil : Path (fun _ => True) codec [] := .nil

theorem write_path (c : Nat) : Path (fun _ => True) (write c) [.rd ⟨.pktConn, c⟩, .io] := .seq (.rd _) .io

theorem C72_races_wrong : ∀ e ∈ conflicts, Conflict e.1 e.2.1 e.2.2 := by
  intro e he
  simp only [conflicts, List.mem_cons, List.not_mem_nil, or_false] at he
  rcases he with rfl | rfl | rfl | rfl | rfl | rfl | rfl | rfl | rfl | rfl | rfl | rfl | rfl
  · exact conflict_of (write_path 0) (.locked (.seq .io (.wr _))) [1, 1] rfl
  · exact conflict_of (.seq (.locked (.seq (.rd _) (.wr _))) (.seq codec_nil (.right (.seq (write_path 0) (.right .skip)))))
      (.locked (.seq .io (.wr _))) [0, 0, 0, 0, 1, 1] rfl
  · exact conflict_of (.seq codec_nil (.right (.seq (.seq (.rd _) (.seq (.right .skip) (.right .skip))) (.right .skip))))
      (.locked (.wr _)) [1] rfl
  · exact conflict_of (.seq codec_nil (.right (.seq (.seq (.rd _) (.seq (.left (.right (.left (.left (.any 0 (.rd _))))))
      (.right .skip))) (.right .skip)))) (.wr _) [0] rfl
  · exact conflict_of (.left (.any 0 (.seq (.rd _) (.left (.rd _))))) (.cons (.right (.right (.rd _))) (.cons (.left (.wr _)) .nil)) [1, 0] rfl
  · exact conflict_of (.seq (.cons (.any 0 (.rd _)) .nil) (.right .skip)) (.cons (.right (.right (.rd _))) (.cons (.right (.left (.wr _))) .nil)) [1] rfl
  · exact conflict_of (.rd _) (.wr _) [] rfl
  · exact conflict_of (.cons (.any 0 (.seq (.left (.rd _)) (.right .skip))) .nil) (.wr _) [] rfl
  · exact conflict_of (.seq (.rd _) (.locked .io)) (.seq (.rd _) (.left (.locked (.seq .io (.wr _))))) [1, 1, 1] rfl
  · exact conflict_of (.seq (.rd _) (.right (.seq (.right .skip) (.right .skip))))
      (.seq (.rd _) (.left (.locked (.seq (.rd _) (.wr _))))) [1, 1, 1] rfl
  · exact conflict_of (.seq (.rd _) (.right (.seq (.left (.left (.right (.left (.seq (.rd _) (.right .skip)))))) (.right .skip))))
      (.locked (.wr _)) [0, 1] rfl
  · exact conflict_of (.seq (.rd _) (.right .skip))
      (.seq (.rd _) (.seq (.right .skip) (.seq (.rd _) (.seq .io (.left (.seq (.wr _) (.seq .io (.right .skip)))))))) [1, 1, 1] rfl
  · exact conflict_of (.cons (.seq (.rd _) (.right .done)) .nil) (.locked (.wr _)) [1] rfl

end Verif.Locks

namespace Verif.Locks
open Prog
/-! ### cases that meet the hypotheses -/

/-- two goroutines in IncSequence -/
def twoIncs : State := [⟨[], [.acq .ex ⟨.conn, 0⟩, .rd ⟨.sequence, 0⟩, .wr ⟨.sequence, 0⟩, .rel .ex ⟨.conn, 0⟩]⟩,
  ⟨[], [.acq .ex ⟨.conn, 0⟩, .rd ⟨.sequence, 0⟩, .wr ⟨.sequence, 0⟩, .rel .ex ⟨.conn, 0⟩]⟩]
theorem twoIncs_start {A : Op → Prop} (hA : A (.incSequence 0)) : Start A twoIncs := by
  intro t ht
  simp only [twoIncs, List.mem_cons, List.not_mem_nil, or_false, or_self] at ht
  subst ht
  exact ⟨rfl, Path.call (o := .incSequence 0) (w := []) hA (.locked (.seq (.rd _) (.wr _))) .done⟩
example := C71_no_deadlock_partial twoIncs _ [0, 0] (twoIncs_start trivial) rfl 1 _ _ _ rfl rfl (by decide)
example := C71_end_without_mutex twoIncs _ [0, 0, 0, 0] (twoIncs_start trivial) rfl ⟨[], []⟩ (.head _) rfl
example := C71_can_finish_partial twoIncs _ [0, 0] (twoIncs_start trivial) rfl
example := C72_no_race_partial twoIncs _ [0, 0] (twoIncs_start trivial) rfl ⟨.sequence, 0⟩ (by decide)
example := C72_races_wrong (.writeTo 0, .listen 0, ⟨.pktConn, 0⟩) (.head _)
/-- a goroutine in ReadFrom -/
example := C71_wait_without_mutex [⟨[], [.rd ⟨.pktConn, 0⟩, .wait]⟩] _ [0] (by
    intro t ht
    simp only [List.mem_cons, List.not_mem_nil, or_false] at ht
    subst ht
    exact ⟨rfl, Path.call (o := .readFrom 0) (w := []) trivial (.seq (.rd _) .wait) .done⟩) rfl ⟨[], [.wait]⟩ (.head _) [] rfl
example (w : List Instr) (hw : Path (fun _ => True) (Op.enableLogging true).prog w) :=
  C71_enable_logging_wrong true w hw [⟨[], w ++ []⟩, ⟨[], []⟩] 0 _ [] rfl rfl rfl
end Verif.Locks
