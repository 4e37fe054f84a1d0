import Verif.Model.Lifecycle
/-
C66: Serve and Close of both connections, for every schedule of the goroutines, the network and the application.
-/
namespace Verif.Lifecycle

theorem run_append (k : Kind) (s : State) (l l' : List Step) : run k s (l ++ l') = run k (run k s l) l' := by
  simp [run]

theorem run_snoc (k : Kind) (s : State) (l : List Step) (x : Step) : run k s (l ++ [x]) = step k (run k s l) x := by
  simp [run]

theorem run_cons (k : Kind) (s : State) (x : Step) (l : List Step) : run k s (x :: l) = run k (step k s x) l := rfl

/-- an invariant of all runs -/
theorem run_inv {k : Kind} {P : State → Prop} (hs : ∀ s x, P s → P (step k s x)) {s : State} (h : P s) (l : List Step) :
    P (run k s l) := by
  induction l generalizing s with
  | nil => exact h
  | cons x l ih => exact ih (hs s x h)

/-- nothing changes after a crash -/
theorem crashed_step (k : Kind) (s : State) (x : Step) (h : s.crashed = true) : step k s x = s := by
  simp [step, h]

theorem crashed_run (k : Kind) (s : State) (l : List Step) (h : s.crashed = true) : run k s l = s := by
  induction l with
  | nil => rfl
  | cons x l ih => rw [run_cons, crashed_step k s x h]; exact ih

/-- what holds in every state reachable from `init` -/
structure Inv (s : State) : Prop where
  idle : s.pc = .idle ↔ s.watcher = .idle
  sock : s.sockOpen = false ↔ s.watcher = .done
  woken : s.watcher = .woken ∨ s.watcher = .done → s.ctxDone = true ∨ s.closed = true

theorem inv_step (k : Kind) (s : State) (x : Step) (h : Inv s) : Inv (step k s x) := by
  obtain ⟨h1, h2, h3⟩ := h
  unfold step
  split
  · exact ⟨h1, h2, h3⟩
  cases x <;> simp only
  case serve =>
    split
    · rename_i hp
      have hw := h1.1 hp
      refine ⟨by simp, ?_, by simp⟩
      have : ¬ s.sockOpen = false := fun e => by rw [h2.1 e] at hw; cases hw
      simpa using this
    · exact ⟨h1, h2, h3⟩
  case cancel => exact ⟨h1, h2, fun h => Or.inl rfl⟩
  case close =>
    split
    · exact ⟨h1, h2, h3⟩
    · exact ⟨h1, h2, fun h => Or.inr rfl⟩
  case wake =>
    split
    · rename_i hp
      refine ⟨?_, ?_, fun _ => hp.2⟩
      · rw [h1, hp.1]; simp
      · rw [h2, hp.1]; simp
    · exact ⟨h1, h2, h3⟩
  case sockClose =>
    split
    · rename_i hp
      refine ⟨?_, by simp, fun _ => h3 (Or.inl hp)⟩
      rw [h1, hp]; simp
    · exact ⟨h1, h2, h3⟩
  case check =>
    split
    · rename_i hp
      have hw : ¬ s.watcher = .idle := fun e => by rw [h1.2 e] at hp; cases hp
      split
      · exact ⟨by simpa using hw, h2, h3⟩
      · exact ⟨by simpa using hw, h2, h3⟩
    · exact ⟨h1, h2, h3⟩
  all_goals
    split
    · rename_i hp
      have hw : ¬ s.watcher = .idle := fun e => by rw [h1.2 e] at hp; cases hp.1
      exact ⟨by simpa using hw, h2, h3⟩
    · exact ⟨h1, h2, h3⟩

theorem inv_run (k : Kind) (l : List Step) : Inv (run k init l) :=
  run_inv (inv_step k) ⟨by simp [init], by simp [init], by simp [init]⟩ l

/-- a fact that only a step in Q can make true needs such a step -/
theorem needs {k : Kind} {P : State → Prop} {Q : Step → Prop} (h : ∀ s x, Inv s → P (step k s x) → P s ∨ Q x) (s : State)
    (hi : Inv s) (l : List Step) (hp : P (run k s l)) : P s ∨ ∃ x ∈ l, Q x := by
  induction l generalizing s with
  | nil => exact Or.inl hp
  | cons x l ih =>
    rcases ih (step k s x) (inv_step k s x hi) hp with h1 | ⟨y, h1, h2⟩
    · rcases h s x hi h1 with h2 | h2
      · exact Or.inl h2
      · exact Or.inr ⟨x, by simp, h2⟩
    · exact Or.inr ⟨y, by simp [h1], h2⟩

theorem init_inv : Inv init := ⟨by simp [init], by simp [init], by simp [init]⟩

theorem ctx_needs (k : Kind) (l : List Step) (h : (run k init l).ctxDone = true) : Step.cancel ∈ l := by
  rcases needs (k := k) (P := fun s => s.ctxDone = true) (Q := (· = .cancel)) (by
    intro s x _ h
    unfold step at h
    split at h
    · exact Or.inl h
    · cases x <;> simp only at h <;> (try split at h) <;> (try split at h) <;> simp_all) init init_inv l h with h | ⟨x, h, rfl⟩
  · cases h
  · exact h

theorem closed_needs (k : Kind) (l : List Step) (h : (run k init l).closed = true) : Step.close ∈ l := by
  rcases needs (k := k) (P := fun s => s.closed = true) (Q := (· = .close)) (by
    intro s x _ h
    unfold step at h
    split at h
    · exact Or.inl h
    · cases x <;> simp only at h <;> (try split at h) <;> (try split at h) <;> simp_all) init init_inv l h with h | ⟨x, h, rfl⟩
  · cases h
  · exact h

theorem serve_needs (k : Kind) (l : List Step) (h : (run k init l).pc ≠ .idle) : Step.serve ∈ l := by
  rcases needs (k := k) (P := fun s => s.pc ≠ .idle) (Q := (· = .serve)) (by
    intro s x _ h
    unfold step at h
    split at h
    · exact Or.inl h
    · cases x <;> simp only at h <;> (try split at h) <;> (try split at h) <;> simp_all) init init_inv l h with h | ⟨x, h, rfl⟩
  · exact absurd rfl h
  · exact h

/-- with the socket closed no datagram is read and the socket stays closed -/
theorem sock_step (k : Kind) (s : State) (x : Step) (h : s.sockOpen = false) :
    (step k s x).sockOpen = false ∧ (step k s x).started = s.started := by
  unfold step
  split
  · exact ⟨h, rfl⟩
  · cases x <;> simp only <;> (try split) <;> (try split) <;> simp_all

/-- C66: the socket is closed only after Serve was called and the context was cancelled or Close called; once closed it
stays closed, and from then on no datagram is handled, whatever happens.
Missing: Close alone (without a running Serve) does not close the socket (`C66_close_without_serve`). -/
theorem C66_socket_partial (k : Kind) (l l' : List Step) (h : (run k init l).sockOpen = false) :
    (Step.cancel ∈ l ∨ Step.close ∈ l) ∧ Step.serve ∈ l ∧
    (run k init (l ++ l')).sockOpen = false ∧ (run k init (l ++ l')).started = (run k init l).started := by
  have hi := inv_run k l
  have hw := hi.sock.1 h
  refine ⟨?_, ?_, ?_⟩
  · rcases hi.woken (Or.inr hw) with h | h
    · exact Or.inl (ctx_needs k l h)
    · exact Or.inr (closed_needs k l h)
  · refine serve_needs k l ?_
    intro e; rw [hi.idle.1 e] at hw; cases hw
  · rw [run_append]
    exact run_inv (P := fun s => s.sockOpen = false ∧ s.started = (run k init l).started)
      (fun s x h => ⟨(sock_step k s x h.1).1, by rw [(sock_step k s x h.1).2, h.2]⟩) ⟨h, rfl⟩ l'

/-- C66: Serve returns an error only if a read failed, and nil only if the context was cancelled, Close was called or the read
reported the end of the file -/
theorem C66_result (k : Kind) (l : List Step) :
    ((run k init l).pc = .returned false → Step.readErr ∈ l) ∧
    ((run k init l).pc = .returned true → Step.cancel ∈ l ∨ Step.close ∈ l ∨ Step.eof ∈ l) := by
  constructor
  · intro h
    rcases needs (k := k) (P := fun s => s.pc = .returned false) (Q := (· = .readErr)) (by
      intro s x _ h
      unfold step at h
      split at h
      · exact Or.inl h
      · cases x <;> simp only at h <;> (try split at h) <;> (try split at h) <;> simp_all) init init_inv l h with h | ⟨x, h, rfl⟩
    · cases h
    · exact h
  · intro h
    by_cases he : Step.eof ∈ l
    · exact Or.inr (Or.inr he)
    · have key : ∀ (l : List Step) (s : State), Step.eof ∉ l → Inv s → (s.pc = .returned true → s.ctxDone = true ∨ s.closed = true) →
          ((run k s l).pc = .returned true → (run k s l).ctxDone = true ∨ (run k s l).closed = true) := by
        intro l
        induction l with
        | nil => intro s _ _ h; exact h
        | cons x l ih =>
          intro s hl hi h
          refine ih (step k s x) (fun h => hl (by simp [h])) (inv_step k s x hi) ?_
          have hs : s.sockOpen = false → s.ctxDone = true ∨ s.closed = true := fun e => hi.woken (Or.inr (hi.sock.1 e))
          have hx : x ≠ .eof := fun e => hl (by simp [e])
          clear ih hl hi
          unfold step
          split
          · exact h
          · cases x <;> simp only <;> (try split) <;> (try split) <;> simp_all
      rcases key l init he init_inv (by simp [init]) h with h | h
      · exact Or.inl (ctx_needs k l h)
      · exact Or.inr (Or.inl (closed_needs k l h))

/-! ### stopping -/

/-- the context is cancelled or Close called -/
def Asked (s : State) : Prop := s.ctxDone = true ∨ s.closed = true

theorem asked_step (k : Kind) (s : State) (x : Step) (h : Asked s) : Asked (step k s x) := by
  unfold Asked at h ⊢
  unfold step
  split
  · exact h
  · cases x <;> simp only <;> (try split) <;> (try split) <;> simp_all

/-- take the steps of a subsequence one after the other -/
theorem stage {k : Kind} {P Q : State → Prop} {x : Step} {xs l : List Step} (hP : ∀ s y, P s → P (step k s y))
    (hx : ∀ s, P s → Q (step k s x)) (hl : (x :: xs).Sublist l) {s : State} (h : P s) :
    ∃ s' l', run k s l = run k s' l' ∧ Q s' ∧ xs.Sublist l' := by
  obtain ⟨a, b, rfl, h1, h2⟩ := List.cons_sublist_iff.1 hl
  obtain ⟨a1, a2, rfl⟩ := List.append_of_mem h1
  refine ⟨step k (run k s a1) x, a2 ++ b, ?_, hx _ (run_inv hP h a1), h2.trans (List.sublist_append_right a2 b)⟩
  simp [run]

/-- C66: once the context is cancelled or Close is called on a connection that is being served, Serve returns - whatever else
happens, datagrams arriving or reads failing - as soon as the watcher has run its two steps and Serve its next two (a panic of
a second Close apart).  After the return the socket is or will be closed by the same steps. -/
theorem C66_stops (k : Kind) (l l' : List Step) (hs : (run k init l).pc ≠ .idle) (ha : Asked (run k init l))
    (hl : [Step.wake, .sockClose, .check, .closedErr].Sublist l') :
    ((∃ r, (run k init (l ++ l')).pc = .returned r) ∧ (run k init (l ++ l')).sockOpen = false) ∨
    (run k init (l ++ l')).crashed = true := by
  have hi := inv_run k l
  rw [run_append]
  revert hs ha hi
  generalize run k init l = s
  intro hs ha hi
  obtain ⟨s1, l1, e1, h1, hl1⟩ := stage (k := k) (P := fun s => s.crashed = true ∨ (Asked s ∧ Inv s ∧ s.pc ≠ .idle))
    (Q := fun s => s.crashed = true ∨ (Inv s ∧ (s.watcher = .woken ∨ s.watcher = .done) ∧ s.pc ≠ .idle)) (by
      rintro s y (h | ⟨h1, h2, h3⟩)
      · left; rw [crashed_step k s y h]; exact h
      · right
        refine ⟨asked_step k s y h1, inv_step k s y h2, ?_⟩
        clear h2
        unfold step
        split
        · exact h3
        · cases y <;> simp only <;> (try split) <;> (try split) <;> simp_all) (by
      rintro s (h | ⟨h1, h2, h3⟩)
      · left; rw [crashed_step k s _ h]; exact h
      · by_cases hc : s.crashed = true
        · left; rw [crashed_step k s _ hc]; exact hc
        · right
          refine ⟨inv_step k s _ h2, ?_⟩
          have h4 : s.watcher ≠ .idle := fun e => h3 (h2.idle.2 e)
          simp only [step, hc]
          unfold Asked at h1
          cases hw : s.watcher <;> simp_all) hl (Or.inr ⟨ha, hi, hs⟩)
  obtain ⟨s2, l2, e2, h2, hl2⟩ := stage (k := k)
    (P := fun s => s.crashed = true ∨ (Inv s ∧ (s.watcher = .woken ∨ s.watcher = .done) ∧ s.pc ≠ .idle))
    (Q := fun s => s.crashed = true ∨ (s.sockOpen = false ∧ s.pc ≠ .idle)) (by
      rintro s y (h | ⟨h2, h1, h3⟩)
      · left; rw [crashed_step k s y h]; exact h
      · right
        refine ⟨inv_step k s y h2, ?_⟩
        clear h2
        unfold step
        split
        · exact ⟨h1, h3⟩
        · cases y <;> simp only <;> (try split) <;> (try split) <;> simp_all) (by
      rintro s (h | ⟨h2, h1, h3⟩)
      · left; rw [crashed_step k s _ h]; exact h
      · by_cases hc : s.crashed = true
        · left; rw [crashed_step k s _ hc]; exact hc
        · right
          have h4 := h2.sock
          simp only [step, hc]
          rcases h1 with h1 | h1 <;> simp_all) hl1 h1
  obtain ⟨s3, l3, e3, h3, hl3⟩ := stage (k := k) (P := fun s => s.crashed = true ∨ (s.sockOpen = false ∧ s.pc ≠ .idle))
    (Q := fun s => s.crashed = true ∨ (s.sockOpen = false ∧ s.pc ≠ .idle ∧ s.pc ≠ .top)) (by
      rintro s y (h | ⟨h1, h3⟩)
      · left; rw [crashed_step k s y h]; exact h
      · right
        refine ⟨(sock_step k s y h1).1, ?_⟩
        unfold step
        split
        · exact h3
        · cases y <;> simp only <;> (try split) <;> (try split) <;> simp_all) (by
      rintro s (h | ⟨h1, h3⟩)
      · left; rw [crashed_step k s _ h]; exact h
      · by_cases hc : s.crashed = true
        · left; rw [crashed_step k s _ hc]; exact hc
        · right
          refine ⟨(sock_step k s _ h1).1, ?_⟩
          simp only [step, hc]
          cases hp : s.pc <;> simp_all
          split <;> simp) hl2 h2
  obtain ⟨s4, l4, e4, h4, hl4⟩ := stage (k := k)
    (P := fun s => s.crashed = true ∨ (s.sockOpen = false ∧ s.pc ≠ .idle ∧ s.pc ≠ .top))
    (Q := fun s => s.crashed = true ∨ (s.sockOpen = false ∧ ∃ r, s.pc = .returned r)) (by
      rintro s y (h | ⟨h1, h3⟩)
      · left; rw [crashed_step k s y h]; exact h
      · right
        refine ⟨(sock_step k s y h1).1, ?_⟩
        unfold step
        split
        · exact h3
        · cases y <;> simp only <;> (try split) <;> (try split) <;> simp_all) (by
      rintro s (h | ⟨h1, h3⟩)
      · left; rw [crashed_step k s _ h]; exact h
      · by_cases hc : s.crashed = true
        · left; rw [crashed_step k s _ hc]; exact hc
        · right
          refine ⟨(sock_step k s _ h1).1, ?_⟩
          simp only [step, hc]
          cases hp : s.pc <;> simp_all) hl3 h3
  rw [e1, e2, e3, e4]
  have := run_inv (k := k) (P := fun s => s.crashed = true ∨ (s.sockOpen = false ∧ ∃ r, s.pc = .returned r)) (by
      rintro s y (h | ⟨h1, r, h3⟩)
      · left; rw [crashed_step k s y h]; exact h
      · right
        refine ⟨(sock_step k s y h1).1, r, ?_⟩
        unfold step
        split
        · exact h3
        · cases y <;> simp only <;> (try split) <;> (try split) <;> simp_all) h4 l4
  rcases this with h | ⟨h1, h2⟩
  · exact Or.inr h
  · exact Or.inl ⟨h2, h1⟩

/-- C66: in GTPv1 at most one more datagram is handled after the context is cancelled or Close is called, whatever happens -/
theorem C66_v1_at_most_one (l l' : List Step) (ha : Asked (run .v1 init l)) :
    ∃ d, (run .v1 init (l ++ l')).started = (run .v1 init l).started ++ d ∧ d.length ≤ 1 := by
  rw [run_append]
  revert ha
  generalize run .v1 init l = s
  intro ha
  have := run_inv (k := .v1) (P := fun x => Asked x ∧
      (x.started = s.started ∨ ∃ e, x.started = s.started ++ [e] ∧ x.pc ≠ .reading)) (by
    rintro x y ⟨h1, h2⟩
    refine ⟨asked_step .v1 x y h1, ?_⟩
    unfold Asked at h1
    unfold step
    split
    · exact h2
    · cases y <;> simp only <;> (try split) <;> (try split) <;> rcases h2 with h2 | ⟨e, h2, h3⟩ <;> simp_all)
    (s := s) ⟨ha, Or.inl rfl⟩ l'
  rcases this.2 with h | ⟨e, h, _⟩
  · exact ⟨[], by simp [h], by simp⟩
  · exact ⟨[e], h, by simp⟩

/-- C66 fails for GTPv2: after Close any number of datagrams may still be handled, as long as the watcher has not closed the
socket -/
theorem C66_v2_unbounded (ds : List (String × Bytes)) :
    (run .v2 init ([.serve, .check, .close] ++ ds.flatMap (fun d => [.arrive d.1 d.2, .check]))).started = ds := by
  rw [run_append]
  have key : ∀ (ds : List (String × Bytes)) (s : State), s.pc = .reading → s.sockOpen = true → s.crashed = false →
      (run .v2 s (ds.flatMap (fun d => [.arrive d.1 d.2, .check]))).started = s.started ++ ds := by
    intro ds
    induction ds with
    | nil => intro s _ _ _; simp [run]
    | cons d ds ih =>
      intro s h1 h2 h3
      rw [List.flatMap_cons, run_append, ih]
      · simp [run, step, h1, h2, h3]
      · simp [run, step, h1, h2, h3]
      · simp [run, step, h1, h2, h3]
      · simp [run, step, h1, h2, h3]
  rw [key ds _ (by decide) (by decide) (by decide)]
  simp [run, step, init]

theorem close_count (k : Kind) (l : List Step) (s : State) (h : s.crashed = false) :
    (run k s l).crashed = true ↔ 2 ≤ (if s.closed then 1 else 0) + l.count .close := by
  induction l generalizing s with
  | nil => simp [run, h]; split <;> simp
  | cons x l ih =>
    rw [run_cons]
    by_cases hx : x = .close
    · subst hx
      cases hc : s.closed with
      | true =>
        have : (step k s .close).crashed = true := by simp [step, h, hc]
        rw [crashed_run k _ l this]
        simp [this]
        omega
      | false =>
        rw [ih _ (by simp [step, h, hc])]
        have : (step k s .close).closed = true := by simp [step, h, hc]
        simp only [this, if_true, Bool.false_eq_true, if_false, List.count_cons_self]
        omega
    · have e : (step k s x).closed = s.closed ∧ (step k s x).crashed = false := by
        simp only [step, h]
        cases x <;> simp only [Bool.false_eq_true, if_false] <;> (try split) <;> (try split) <;> simp_all
      rw [ih _ e.2, e.1, List.count_cons_of_ne hx]

/-- C66 fails: the process panics exactly when Close is called twice -/
theorem C66_close_twice (k : Kind) (l : List Step) : (run k init l).crashed = true ↔ 2 ≤ l.count .close := by
  rw [close_count k l init rfl]
  simp [init]

/-- C66 fails: Close on a connection that is not being served leaves the socket open for ever -/
theorem C66_close_without_serve (k : Kind) (l : List Step) (h : Step.serve ∉ l) : (run k init l).sockOpen = true := by
  cases hs : (run k init l).sockOpen with
  | true => rfl
  | false => exact absurd (C66_socket_partial k l [] hs).2.1 h

/-- C66 fails: when a read fails Serve returns and the socket stays open until Close or the end of the context -/
theorem C66_error_leaks (k : Kind) (l : List Step) (h : Step.close ∉ l) (h' : Step.cancel ∉ l) :
    (run k init ([.serve, .check, .readErr] ++ l)).pc = .returned false ∧
    (run k init ([.serve, .check, .readErr] ++ l)).sockOpen = true := by
  constructor
  · rw [run_append]
    refine run_inv (P := fun s => s.pc = .returned false) ?_ (by cases k <;> decide) l
    intro s x hs
    unfold step
    split
    · exact hs
    · cases x <;> simp only <;> (try split) <;> (try split) <;> simp_all
  · cases hs : (run k init ([.serve, .check, .readErr] ++ l)).sockOpen with
    | true => rfl
    | false =>
      have := (C66_socket_partial k _ [] hs).1
      simp [h, h'] at this

example : run .v1 init [.serve, .check, .arrive "a" [1], .close, .check, .wake, .sockClose] =
    ⟨false, true, false, .returned true, .done, [("a", [1])], false⟩ := by decide
example : run .v2 init [.serve, .check, .arrive "a" [1], .cancel, .check, .arrive "b" [2], .wake, .check, .sockClose, .closedErr] =
    ⟨true, false, false, .returned true, .done, [("a", [1]), ("b", [2])], false⟩ := by decide

end Verif.Lifecycle

namespace Verif.Lifecycle
/-! ### cases that meet the hypotheses -/

example := C66_socket_partial .v1 [.serve, .check, .arrive "a" [1], .close, .wake, .sockClose] [.check, .arrive "b" [2], .check] (by decide)
example := C66_stops .v2 [.serve, .check, .arrive "a" [1], .cancel, .check] [.arrive "b" [2], .wake, .check, .sockClose, .arrive "c" [3], .check, .closedErr]
  (by decide) (by unfold Asked; decide) (by decide)
example := C66_v1_at_most_one [.serve, .check, .close] [.arrive "a" [1], .check, .arrive "b" [2], .wake] (by unfold Asked; decide)
example := C66_close_without_serve .v2 [.close, .cancel, .wake, .sockClose] (by decide)
example := C66_error_leaks .v1 [.wake, .sockClose, .check] (by decide) (by decide)
end Verif.Lifecycle
