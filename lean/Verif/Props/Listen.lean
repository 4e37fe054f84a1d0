import Verif.Model.Listen
/- C82: listening and serving again -/
namespace Verif.Listen

theorem run_append (f : Cfg) (s : State) (l l' : List Step) : run f s (l ++ l') = run f (run f s l) l' := by
  simp [run, List.foldl_append]

theorem run_cons (f : Cfg) (s : State) (x : Step) (l : List Step) : run f s (x :: l) = run f (step f s x) l := rfl

/-- what steps of a kind preserve -/
theorem run_inv {f : Cfg} {P : State → Prop} {Q : Step → Prop} (hs : ∀ s x, Q x → P s → P (step f s x)) {s : State} (h : P s)
    (l : List Step) (hl : ∀ x ∈ l, Q x) : P (run f s l) := by
  induction l generalizing s with
  | nil => exact h
  | cons x l ih => exact ih (hs s x (hl x (by simp)) h) (fun y hy => hl y (by simp [hy]))

theorem crashed_step (f : Cfg) (s : State) (x : Step) (h : s.crashed = true) : step f s x = s := by simp [step, h]

theorem crashed_run (f : Cfg) (s : State) (l : List Step) (h : s.crashed = true) : run f s l = s := by
  induction l with
  | nil => rfl
  | cons x l ih => rw [run_cons, crashed_step f s x h, ih]

theorem forall_set {α : Type} {l : List α} {i : Nat} {d : α} {p : α → Prop} (h : ∀ c ∈ l, p c) (hd : p d) :
    ∀ c ∈ l.set i d, p c := by
  intro c hc
  rcases List.mem_or_eq_of_mem_set hc with h' | h'
  · exact h c h'
  · exact h' ▸ hd

theorem forall_snoc {α : Type} {l : List α} {d : α} {p : α → Prop} (h : ∀ c ∈ l, p c) (hd : p d) : ∀ c ∈ l ++ [d], p c := by
  intro c hc
  rcases List.mem_append.1 hc with h' | h'
  · exact h c h'
  · simp at h'; exact h' ▸ hd

/-! ### serving -/

/-- the process runs, Close was not called, no socket is just being opened, and no goroutine of a call is going to close the
socket: where it waits or will be started the context is not cancelled -/
def Calm (s : State) : Prop :=
  s.crashed = false ∧ s.closed = false ∧
  ∀ c ∈ s.calls, c.pc ≠ .opening ∧ c.watcher ≠ .woken ∧ (c.watcher = .waiting ∨ c.pc = .start → c.ctx ∉ s.cancelled)

/-- neither Close, nor a cancelled context, nor a further Listen -/
def Quiet (cs : List Nat) : Step → Prop
  | .close => False
  | .cancel _ => False
  | .listen _ => False
  | .enter c => c ∉ cs
  | _ => True

/-- the connection holds the open socket k -/
def Holds (k : Nat) (s : State) : Prop := s.pkt = some k ∧ s.socks[k]? = some true

/-- what a step of a call does when all is calm -/
def Small (k : Nat) (s : State) (i : Nat) (c : Call) (x : Step) (t : State) : Prop :=
    t = s ∨ ∃ d e, t = setCall { s with started := s.started ++ e } i d ∧
      d.ctx = c.ctx ∧ d.pc ≠ .opening ∧ d.watcher ≠ .woken ∧
      (d.watcher = .waiting ∨ d.pc = .start → c.watcher = .waiting ∨ c.pc = .start) ∧
      (asked s c = false → (∀ j, x ≠ .eof j) → (∀ j, x ≠ .readErr j) → c.pc = .top ∨ c.pc = .reading k →
        d.pc = .top ∨ d.pc = .reading k)

theorem calm_call (f : Cfg) (k : Nat) (s : State) (i : Nat) (c : Call) (x : Step) (h : Calm s) (hk : Holds k s)
    (hi : s.calls[i]? = some c) : Small k s i c x (callStep f s i c x) := by
  obtain ⟨h1, h2, h3⟩ := h
  obtain ⟨h4, h5⟩ := hk
  obtain ⟨c1, c2, c3⟩ := h3 c (List.mem_of_getElem? hi)
  have hs : ∀ d, setCall s i d = setCall { s with started := s.started ++ [] } i d := by simp
  cases x with
  | wake j =>
    have : ¬ (c.watcher = .waiting ∧ asked s c = true) := by
      rintro ⟨e1, e2⟩
      have := c3 (Or.inl e1)
      simp [asked, h2, this] at e2
    simp only [callStep, this, if_false]
    exact Or.inl rfl
  | arrive j a b =>
    simp only [callStep]
    split
    · split
      · exact Or.inr ⟨_, [_], rfl, rfl, by simp, c2, by simp (config := {contextual := true}), by simp⟩
      · exact Or.inl rfl
    · exact Or.inl rfl
  | _ =>
    simp only [callStep, h4]
    repeat' split
    all_goals first
      | exact Or.inl rfl
      | exact absurd ‹_› c1
      | exact absurd ‹_› c2
      | exact Or.inr ⟨_, [], hs _, rfl, by simp_all, by simp_all, by simp_all, by intro _ _ _ hh; rcases hh with hh | hh <;> simp_all⟩

theorem calm_step (f : Cfg) (k : Nat) (s : State) (x : Step) (hq : Quiet s.cancelled x) (h : Calm s) (hk : Holds k s) :
    Calm (step f s x) ∧ Holds k (step f s x) ∧ (step f s x).cancelled = s.cancelled := by
  have h' := h
  obtain ⟨h1, h2, h3⟩ := h
  have hk' := hk
  obtain ⟨h4, h5⟩ := hk
  unfold step
  rw [if_neg (by simp [h1])]
  cases hx : x.call with
  | none =>
    cases x with
    | enter c =>
      cases hkd : f.kind <;> exact ⟨⟨h1, h2, forall_snoc h3 ⟨by simp, by simp, fun _ => hq⟩⟩, ⟨h4, h5⟩, rfl⟩
    | use => simp only [h4]; exact ⟨h', hk', rfl⟩
    | _ => simp_all [Quiet, Step.call]
  | some i =>
    simp only
    cases hi : s.calls[i]? with
    | none => exact ⟨h', hk', rfl⟩
    | some c =>
      simp only
      rcases calm_call f k s i c x h' hk' hi with e | ⟨d, e, e1, e2, e3, e4, e5, _⟩
      · rw [e]; exact ⟨h', hk', rfl⟩
      · rw [e1]
        refine ⟨⟨h1, h2, forall_set h3 ⟨e3, e4, fun hd => ?_⟩⟩, ⟨h4, h5⟩, rfl⟩
        rw [e2]
        exact (h3 c (List.mem_of_getElem? hi)).2.2 (e5 hd)

/-- call i reads from socket k, or will do so next; its context is not cancelled -/
def Serving (i k : Nat) (s : State) : Prop :=
  ∃ c, s.calls[i]? = some c ∧ (c.pc = .top ∨ c.pc = .reading k) ∧ c.ctx ∉ s.cancelled

theorem serving_step (f : Cfg) (i k : Nat) (s : State) (x : Step) (hq : Quiet s.cancelled x)
    (hx1 : x ≠ .eof i) (hx2 : x ≠ .readErr i) (h : Calm s) (hk : Holds k s)
    (hs : Serving i k s) : Serving i k (step f s x) := by
  have h' := h
  obtain ⟨h1, h2, h3⟩ := h
  have hk' := hk
  obtain ⟨h4, h5⟩ := hk
  have hs' := hs
  obtain ⟨c, hc, hp, hn⟩ := hs
  have hl : i < s.calls.length := (List.getElem?_eq_some_iff.1 hc).1
  unfold step
  rw [if_neg (by simp [h1])]
  cases hx : x.call with
  | none =>
    cases x with
    | enter c' =>
      cases hkd : f.kind <;> exact ⟨c, by simp [List.getElem?_append_left, hl, ← hc], hp, hn⟩
    | use => simp only [h4]; exact hs'
    | _ => simp_all [Quiet, Step.call]
  | some j =>
    simp only
    cases hj : s.calls[j]? with
    | none => exact hs'
    | some c' =>
      simp only
      rcases calm_call f k s j c' x h' hk' hj with e | ⟨d, e, e1, e2, e3, e4, e5, e6⟩
      · rw [e]; exact hs'
      · rw [e1]
        by_cases hji : j = i
        · subst hji
          rw [hc] at hj; cases hj
          refine ⟨d, by simp [setCall, hl], e6 (by simp [asked, h2, hn]) ?_ ?_ hp, by rw [e2]; exact hn⟩
          · rintro m rfl; simp [Step.call] at hx; exact hx1 (by rw [hx])
          · rintro m rfl; simp [Step.call] at hx; exact hx2 (by rw [hx])
        · exact ⟨c, by simp only [setCall]; rw [List.getElem?_set_ne hji]; exact hc, hp, hn⟩

/-- a call that serves hands over whatever arrives, whatever happens before, short of Close, a cancelled context, a further
Listen, and a failed read -/
theorem serving_receives (f : Cfg) (i k : Nat) (s : State) (h : Calm s) (hk : Holds k s) (hs : Serving i k s) (l : List Step)
    (hl : ∀ x ∈ l, Quiet s.cancelled x ∧ x ≠ .eof i ∧ x ≠ .readErr i) (a : String) (b : Bytes) :
    (run f s (l ++ [.check i, .arrive i a b])).started = (run f s l).started ++ [(k, a, b)] ∧
    (run f s (l ++ [.check i, .arrive i a b])).crashed = false := by
  have key := run_inv (f := f) (P := fun t => Calm t ∧ Holds k t ∧ Serving i k t ∧ t.cancelled = s.cancelled)
    (Q := fun x => Quiet s.cancelled x ∧ x ≠ .eof i ∧ x ≠ .readErr i) (by
      rintro t x ⟨q1, q2, q3⟩ ⟨p1, p2, p3, p4⟩
      rw [← p4] at q1
      obtain ⟨r1, r2, r3⟩ := calm_step f k t x q1 p1 p2
      exact ⟨r1, r2, serving_step f i k t x q1 q2 q3 p1 p2 p3, by rw [r3, p4]⟩) ⟨h, hk, hs, rfl⟩ l hl
  rw [run_append]
  revert key
  generalize run f s l = t
  rintro ⟨⟨h1, h2, h3⟩, ⟨h4, h5⟩, ⟨c, hc, hp, hn⟩, _⟩
  have hlen : i < t.calls.length := (List.getElem?_eq_some_iff.1 hc).1
  have na : asked t c = false := by simp [asked, h2, hn]
  rcases hp with hp | hp
  · have e1 : step f t (.check i) = setCall t i { c with pc := .reading k } := by
      simp [step, h1, Step.call, hc, callStep, hp, na, h4]
    rw [run_cons, e1]
    simp [run, step, h1, Step.call, callStep, setCall, hlen, h5]
  · simp [run, step, h1, Step.call, hc, callStep, hp, h5, setCall]

/-- C82 (GTPv2): however often a connection has been listened on and served before, once the earlier calls of Serve have been
stopped a Listen that the operating system grants, followed by Serve with a context that is not cancelled, receives from a new
socket: whatever happens then - calls, reads, other goroutines - the next datagram is handed over, until Close is called, a
context is cancelled, the read fails, or Listen is called again.
Missing: calls of Serve that ended with an error must have been stopped too (`C82_v2_old_context`). -/
theorem C82_v2_again_partial (fixed : Bool) (s : State) (h : Calm s) (hb : fixed = true → s.socks.any id = false) (r : Outcome)
    (hr : r ≠ .refused) (ctx : Nat) (hc : ctx ∉ s.cancelled) (l : List Step)
    (hl : ∀ x ∈ l, Quiet s.cancelled x ∧ x ≠ .eof s.calls.length ∧ x ≠ .readErr s.calls.length) (a : String) (b : Bytes) :
    (run ⟨.v2, fixed⟩ s ([.listen r, .enter ctx] ++ l ++ [.check s.calls.length, .arrive s.calls.length a b])).started =
      (run ⟨.v2, fixed⟩ s ([.listen r, .enter ctx] ++ l)).started ++ [(s.socks.length, a, b)] ∧
    (run ⟨.v2, fixed⟩ s ([.listen r, .enter ctx] ++ l ++ [.check s.calls.length, .arrive s.calls.length a b])).crashed = false := by
  have ha : answer ⟨.v2, fixed⟩ s r = r := by
    cases fixed <;> simp_all [answer]
  have e : run ⟨.v2, fixed⟩ s [.listen r, .enter ctx] =
      { s with pkt := some s.socks.length, socks := s.socks ++ [true], calls := s.calls ++ [⟨ctx, .top, .waiting⟩] } := by
    simp [run, step, h.1, Step.call, ha, hr]
  rw [List.append_assoc, run_append _ _ _ (l ++ _), run_append _ _ _ l, e]
  exact serving_receives ⟨.v2, fixed⟩ s.calls.length s.socks.length
    { s with pkt := some s.socks.length, socks := s.socks ++ [true], calls := s.calls ++ [⟨ctx, .top, .waiting⟩] }
    ⟨h.1, h.2.1, forall_snoc h.2.2 ⟨by simp, by simp, fun _ => hc⟩⟩
    ⟨rfl, by simp⟩ ⟨⟨ctx, .top, .waiting⟩, by simp, Or.inl rfl, hc⟩ l hl a b

/-- C82 (GTPv1): as long as the connection holds no socket - it was never served, or opening the socket failed - a call of
ListenAndServe that the operating system grants receives likewise.
Missing: a connection that has been served cannot be served again (`C82_v1_never_again`). -/
theorem C82_v1_first_partial (fixed : Bool) (s : State) (h : Calm s) (hn : s.pkt = none)
    (hb : fixed = true → s.socks.any id = false) (ctx : Nat) (hc : ctx ∉ s.cancelled) (l : List Step)
    (hl : ∀ x ∈ l, Quiet s.cancelled x ∧ x ≠ .eof s.calls.length ∧ x ≠ .readErr s.calls.length) (a : String) (b : Bytes) :
    (run ⟨.v1, fixed⟩ s ([.enter ctx, .look s.calls.length, .open s.calls.length .opened] ++ l ++
      [.check s.calls.length, .arrive s.calls.length a b])).started =
      (run ⟨.v1, fixed⟩ s ([.enter ctx, .look s.calls.length, .open s.calls.length .opened] ++ l)).started ++
        [(s.socks.length, a, b)] ∧
    (run ⟨.v1, fixed⟩ s ([.enter ctx, .look s.calls.length, .open s.calls.length .opened] ++ l ++
      [.check s.calls.length, .arrive s.calls.length a b])).crashed = false := by
  have e : run ⟨.v1, fixed⟩ s [.enter ctx, .look s.calls.length, .open s.calls.length .opened] =
      { s with pkt := some s.socks.length, socks := s.socks ++ [true], calls := s.calls ++ [⟨ctx, .top, .waiting⟩] } := by
    have ha : ∀ t : State, t.socks = s.socks → answer ⟨.v1, fixed⟩ t .opened = .opened := by
      intro t ht
      simp only [answer, ht]
      cases fixed <;> simp_all
    simp [run, step, h.1, Step.call, callStep, hn, setCall, ha]
  rw [List.append_assoc, run_append _ _ _ (l ++ _), run_append _ _ _ l, e]
  exact serving_receives ⟨.v1, fixed⟩ s.calls.length s.socks.length
    { s with pkt := some s.socks.length, socks := s.socks ++ [true], calls := s.calls ++ [⟨ctx, .top, .waiting⟩] }
    ⟨h.1, h.2.1, forall_snoc h.2.2 ⟨by simp, by simp, fun _ => hc⟩⟩
    ⟨rfl, by simp⟩ ⟨⟨ctx, .top, .waiting⟩, by simp, Or.inl rfl, hc⟩ l hl a b

/-! ### the connection of GTPv1 serves once -/

theorem set_false {l : List Bool} {k j : Nat} (h : l[k]? = some false) : (l.set j false)[k]? = some false := by
  have hl : k < l.length := (List.getElem?_eq_some_iff.1 h).1
  by_cases e : j = k
  · subst e; simp [hl]
  · rw [List.getElem?_set_ne e]; exact h

/-- C82 fails for GTPv1: once the socket of a connection has been closed - a context ended, or Close was called - and the calls
have returned, no datagram is ever received again, whatever is called: every further ListenAndServe, with whatever context,
either is still running without having received anything or has returned nil, never an error. -/
theorem C82_v1_never_again (fixed : Bool) (k : Nat) (s : State) (hk : s.pkt = some k) (hs : s.socks[k]? = some false)
    (hr : ∀ c ∈ s.calls, ∃ r, c.pc = .returned r) (l : List Step) :
    (run ⟨.v1, fixed⟩ s l).started = s.started ∧
    ∀ i c, s.calls.length ≤ i → (run ⟨.v1, fixed⟩ s l).calls[i]? = some c → c.pc ≠ .returned false := by
  have key := run_inv (f := ⟨.v1, fixed⟩) (Q := fun _ => True) (P := fun t => t.started = s.started ∧ t.pkt = some k ∧
      t.socks[k]? = some false ∧ s.calls.length ≤ t.calls.length ∧
      ∀ i c, t.calls[i]? = some c → (i < s.calls.length ∧ ∃ r, c.pc = .returned r) ∨
        c.pc = .start ∨ c.pc = .top ∨ c.pc = .reading k ∨ c.pc = .returned true) (by
    rintro t x - ⟨h1, h2, h3, h4, h5⟩
    have hset : ∀ i c d, t.calls[i]? = some c → (((∃ r, c.pc = .returned r) → (d : Call).pc = c.pc) ∧
        (d.pc = c.pc ∨ d.pc = .start ∨ d.pc = .top ∨ d.pc = .reading k ∨ d.pc = .returned true)) →
        ∀ j e, (t.calls.set i d)[j]? = some e → (j < s.calls.length ∧ ∃ r, e.pc = .returned r) ∨
          e.pc = .start ∨ e.pc = .top ∨ e.pc = .reading k ∨ e.pc = .returned true := by
      intro i c d hi ⟨hd1, hd2⟩ j e he
      by_cases hij : i = j
      · subst hij
        have hlen : i < t.calls.length := (List.getElem?_eq_some_iff.1 hi).1
        simp [hlen] at he
        subst he
        rcases hd2 with h | h
        · rw [h]; exact h5 i c hi
        · exact Or.inr h
      · rw [List.getElem?_set_ne hij] at he
        exact h5 j e he
    unfold step
    split
    · exact ⟨h1, h2, h3, h4, h5⟩
    · cases hx : x.call with
      | none =>
        cases x with
        | enter c =>
          refine ⟨h1, h2, h3, by simp; omega, ?_⟩
          intro i d hd
          simp only [List.getElem?_append] at hd
          split at hd
          · exact h5 i d hd
          · right; left
            have := List.mem_of_getElem? hd
            simp at this; simp [this]
        | close => simp only; split <;> exact ⟨h1, h2, h3, h4, h5⟩
        | use => simp only [h2]; exact ⟨h1, h2, h3, h4, h5⟩
        | _ => first | exact ⟨h1, h2, h3, h4, h5⟩ | (simp [Step.call] at hx)
      | some i =>
        simp only
        cases hi : t.calls[i]? with
        | none => exact ⟨h1, h2, h3, h4, h5⟩
        | some c =>
          have hc := h5 i c hi
          simp only
          cases x <;> simp only [callStep] <;> (repeat' split) <;>
            first
            | exact ⟨h1, h2, h3, h4, h5⟩
            | exact ⟨h1, h2, h3, by simpa [setCall] using h4, hset i c _ hi ⟨by simp_all, by simp_all⟩⟩
            | exact ⟨h1, h2, set_false h3, by simpa [setCall] using h4, hset i c _ hi ⟨by simp_all, by simp_all⟩⟩
            | simp_all) ⟨rfl, hk, hs, Nat.le_refl _, by
      intro i c hi
      exact Or.inl ⟨(List.getElem?_eq_some_iff.1 hi).1, hr c (List.mem_of_getElem? hi)⟩⟩ l (fun _ _ => trivial)
  refine ⟨key.1, ?_⟩
  intro i c hi hc e
  rcases key.2.2.2.2 i c hc with ⟨h, _⟩ | h | h | h | h
  · omega
  all_goals rw [e] at h; cases h

/-- such a call returns nil after its next three steps -/
theorem C82_v1_again_nil (fixed : Bool) (k : Nat) (s : State) (hn : s.crashed = false) (hk : s.pkt = some k)
    (hs : s.socks[k]? = some false) (ctx : Nat) :
    (run ⟨.v1, fixed⟩ s [.enter ctx, .look s.calls.length, .check s.calls.length, .closedErr s.calls.length]).calls =
      s.calls ++ [⟨ctx, .returned true, .waiting⟩] := by
  have e1 : run ⟨.v1, fixed⟩ s [.enter ctx, .look s.calls.length] = { s with calls := s.calls ++ [⟨ctx, .top, .waiting⟩] } := by
    simp [run, step, hn, Step.call, callStep, hk, setCall]
  have e2 : [Step.enter ctx, .look s.calls.length, .check s.calls.length, .closedErr s.calls.length] =
      [Step.enter ctx, .look s.calls.length] ++ [.check s.calls.length, .closedErr s.calls.length] := rfl
  rw [e2, run_append, e1]
  by_cases ha : s.closed = true ∨ ctx ∈ s.cancelled
  · simp [run, step, hn, Step.call, callStep, hk, setCall, asked, ha]
  · have hb : s.closed = false ∧ ctx ∉ s.cancelled := by simpa using ha
    simp [run, step, hn, Step.call, callStep, hk, setCall, asked, hb.1, hb.2, hs]

/-- C82 fails for GTPv1: if the local address has a port but no IP (":2152"), ListenAndServe returns an error and keeps the
socket it has opened: from then on every call is refused, for ever. -/
theorem C82_v1_no_ip (ctx : Nat) (l : List Step) :
    (run ⟨.v1, true⟩ init ([.enter ctx, .look 0, .open 0 .noIP] ++ l)).socks = [true] ∧
    (run ⟨.v1, true⟩ init ([.enter ctx, .look 0, .open 0 .noIP] ++ l)).started = [] ∧
    ∀ c ∈ (run ⟨.v1, true⟩ init ([.enter ctx, .look 0, .open 0 .noIP] ++ l)).calls,
      c.pc = .start ∨ c.pc = .opening ∨ c.pc = .returned false := by
  have e : run ⟨.v1, true⟩ init [.enter ctx, .look 0, .open 0 .noIP] =
      ⟨[], false, none, [true], [⟨ctx, .returned false, .idle⟩], [], false⟩ := by
    simp [run, step, init, Step.call, callStep, setCall, answer]
  rw [run_append, e]
  have key := run_inv (f := ⟨.v1, true⟩) (Q := fun _ => True) (P := fun t => t.pkt = none ∧ t.socks = [true] ∧ t.started = [] ∧
      ∀ c ∈ t.calls, c.watcher = .idle ∧ (c.pc = .start ∨ c.pc = .opening ∨ c.pc = .returned false)) (by
    rintro t x - ⟨h1, h2, h3, h4⟩
    unfold step
    split
    · exact ⟨h1, h2, h3, h4⟩
    · cases hx : x.call with
      | none =>
        cases x with
        | enter c => exact ⟨h1, h2, h3, forall_snoc h4 ⟨rfl, Or.inl rfl⟩⟩
        | close => simp only; split <;> exact ⟨h1, h2, h3, h4⟩
        | use => simp only; exact ⟨h1, h2, h3, h4⟩
        | _ => first | exact ⟨h1, h2, h3, h4⟩ | (simp [Step.call] at hx)
      | some i =>
        simp only
        cases hi : t.calls[i]? with
        | none => exact ⟨h1, h2, h3, h4⟩
        | some c =>
          have hc := h4 c (List.mem_of_getElem? hi)
          have ha : ∀ r, answer ⟨.v1, true⟩ t r = .refused := by simp [answer, h2]
          simp only
          cases x <;> simp only [callStep, ha] <;> (repeat' split) <;>
            first
            | exact ⟨h1, h2, h3, h4⟩
            | exact ⟨h1, h2, h3, forall_set h4 ⟨by simp_all, by simp_all⟩⟩
            | exact ⟨rfl, h2, h3, forall_set h4 ⟨by simp_all, by simp_all⟩⟩
            | simp_all) (s := ⟨[], false, none, [true], [⟨ctx, .returned false, .idle⟩], [], false⟩)
    ⟨rfl, rfl, rfl, by simp⟩ l (fun _ _ => trivial)
  exact ⟨key.2.1, key.2.2.1, fun c hc => (key.2.2.2 c hc).2⟩

/-! ### panics -/

/-- the connection holds a socket, and no call is opening another -/
def Held (k : Nat) (s : State) : Prop := s.pkt = some k ∧ ∀ c ∈ s.calls, c.pc ≠ .opening

/-- not a Listen -/
def NoListen : Step → Prop
  | .listen _ => False
  | _ => True

theorem held_step (f : Cfg) (k : Nat) (s : State) (x : Step) (hx : NoListen x) (h : Held k s) (hc : s.crashed = false) :
    Held k (step f s x) ∧
    (x ≠ .close → (step f s x).crashed = false ∧ (step f s x).closed = s.closed) := by
  obtain ⟨h1, h2⟩ := h
  unfold step
  rw [if_neg (by simp [hc])]
  cases hx' : x.call with
  | none =>
    cases x with
    | enter c => cases f.kind <;> exact ⟨⟨h1, forall_snoc h2 (by simp)⟩, fun _ => ⟨hc, rfl⟩⟩
    | close => simp only; split <;> exact ⟨⟨h1, h2⟩, fun h => absurd rfl h⟩
    | use => simp only [h1]; exact ⟨⟨h1, h2⟩, fun _ => ⟨hc, rfl⟩⟩
    | listen r => exact absurd hx (by simp [NoListen])
    | _ => first | exact ⟨⟨h1, h2⟩, fun _ => ⟨hc, rfl⟩⟩ | (simp [Step.call] at hx')
  | some i =>
    simp only
    cases hi : s.calls[i]? with
    | none => exact ⟨⟨h1, h2⟩, fun _ => ⟨hc, rfl⟩⟩
    | some c =>
      have hco := h2 c (List.mem_of_getElem? hi)
      simp only
      cases x <;> simp only [callStep] <;> (repeat' split) <;>
        first
        | exact ⟨⟨h1, h2⟩, fun _ => ⟨hc, rfl⟩⟩
        | exact ⟨⟨h1, forall_set h2 (by simp_all)⟩, fun _ => ⟨hc, rfl⟩⟩
        | (simp [Step.call] at hx'; done)
        | simp_all

/-- C82: on a connection that holds a socket any number of calls may be made, served and stopped, in any order: as long as
Listen is not called the process panics exactly when Close is called a second time -/
theorem C82_no_panic (f : Cfg) (k : Nat) (s : State) (h : Held k s) (hc : s.crashed = false) (l : List Step)
    (hl : ∀ x ∈ l, NoListen x) :
    (run f s l).crashed = true ↔ 2 ≤ (if s.closed then 1 else 0) + l.count .close := by
  induction l generalizing s with
  | nil => simp [run, hc]; split <;> simp
  | cons x l ih =>
    rw [run_cons]
    have hl' : ∀ x ∈ l, NoListen x := fun y hy => hl y (by simp [hy])
    obtain ⟨e1, e2⟩ := held_step f k s x (hl x (by simp)) h hc
    by_cases hx : x = .close
    · subst hx
      cases hd : s.closed with
      | true =>
        have : (step f s .close).crashed = true := by simp [step, hc, hd, Step.call]
        rw [crashed_run f _ l this]
        simp [this]
        omega
      | false =>
        rw [ih _ e1 (by simp [step, hc, hd, Step.call]) hl']
        have : (step f s .close).closed = true := by simp [step, hc, hd, Step.call]
        simp only [this, if_true, Bool.false_eq_true, if_false, List.count_cons_self]
        omega
    · obtain ⟨e2, e3⟩ := e2 hx
      rw [ih _ e1 e2 hl', e3, List.count_cons_of_ne hx]

/-- C82 fails: using a connection that holds no socket - it was never listened on, or Listen failed - panics instead of
returning an error -/
theorem C82_unopened (f : Cfg) (s : State) (hk : s.pkt = none) : (step f s .use).crashed = true := by
  cases h : s.crashed <;> simp [step, h, Step.call, hk]

/-- C82 fails for GTPv2: Serve without Listen panics -/
theorem C82_v2_serve_unopened (fixed : Bool) (ctx : Nat) : (run ⟨.v2, fixed⟩ init [.enter ctx, .check 0]).crashed = true := by
  simp [run, step, init, Step.call, callStep]

/-- C82 fails for GTPv2: a Listen that is refused takes the socket away from a connection that is being served; the next datagram
that arrives there ends the process -/
theorem C82_v2_failed_listen (fixed : Bool) (s : State) (i k : Nat) (c : Call) (hi : s.calls[i]? = some c)
    (hp : c.pc = .reading k) (hs : s.socks[k]? = some true) (a : String) (b : Bytes) :
    (run ⟨.v2, fixed⟩ s [.listen .refused, .arrive i a b, .check i]).crashed = true := by
  cases hc : s.crashed with
  | true => rw [crashed_run _ _ _ hc]; exact hc
  | false =>
    have hl : i < s.calls.length := (List.getElem?_eq_some_iff.1 hi).1
    have ha : answer ⟨.v2, fixed⟩ s .refused = .refused := by simp [answer]
    have e1 : step ⟨.v2, fixed⟩ s (.listen .refused) = { s with pkt := none } := by simp [step, hc, Step.call, ha]
    have e2 : step ⟨.v2, fixed⟩ { s with pkt := none } (.arrive i a b) =
        setCall { s with pkt := none, started := s.started ++ [(k, a, b)] } i { c with pc := .top } := by
      simp [step, hc, Step.call, hi, callStep, hp, hs]
    rw [run_cons, run_cons, e1, e2]
    simp [run, step, hc, Step.call, callStep, setCall, hl]

/-- with a given port any second Listen is refused while the connection is being served, so it has that effect -/
theorem C82_v2_listen_twice (s : State) (i k : Nat) (c : Call) (hi : s.calls[i]? = some c)
    (hp : c.pc = .reading k) (hs : s.socks[k]? = some true) (r : Outcome) (a : String) (b : Bytes) :
    (run ⟨.v2, true⟩ s [.listen r, .arrive i a b, .check i]).crashed = true := by
  have ha : ∀ r, answer ⟨.v2, true⟩ s r = .refused := by
    intro r
    have : s.socks.any id = true := List.any_eq_true.2 ⟨true, List.mem_of_getElem? hs, rfl⟩
    simp [answer, this]
  have e : step ⟨.v2, true⟩ s (.listen r) = step ⟨.v2, true⟩ s (.listen .refused) := by simp [step, Step.call, ha]
  rw [run_cons, e, ← run_cons]
  exact C82_v2_failed_listen true s i k c hi hp hs a b

/-- C82 fails for GTPv2: after a Listen that is refused the process also ends when the context of a running call is cancelled,
when Close is called, or when the read fails -/
theorem C82_v2_failed_listen_stop (fixed : Bool) (s : State) (i : Nat) (c : Call) (hi : s.calls[i]? = some c) :
    (c.watcher = .waiting →
      (run ⟨.v2, fixed⟩ s [.listen .refused, .cancel c.ctx, .wake i, .sockClose i]).crashed = true ∧
      (run ⟨.v2, fixed⟩ s [.listen .refused, .close, .wake i, .sockClose i]).crashed = true) ∧
    (∀ k, c.pc = .reading k → s.socks[k]? = some true → (run ⟨.v2, fixed⟩ s [.listen .refused, .readErr i]).crashed = true) := by
  cases hc : s.crashed with
  | true => simp only [crashed_run _ _ _ hc]; simp [hc]
  | false =>
    have hl : i < s.calls.length := (List.getElem?_eq_some_iff.1 hi).1
    have ha : answer ⟨.v2, fixed⟩ s .refused = .refused := by simp [answer]
    have e1 : step ⟨.v2, fixed⟩ s (.listen .refused) = { s with pkt := none } := by simp [step, hc, Step.call, ha]
    refine ⟨fun hw => ⟨?_, ?_⟩, fun k hp hs => ?_⟩
    · have e2 : step ⟨.v2, fixed⟩ { s with pkt := none } (.cancel c.ctx) =
          { s with pkt := none, cancelled := s.cancelled ++ [c.ctx] } := by simp [step, hc, Step.call]
      have e3 : step ⟨.v2, fixed⟩ { s with pkt := none, cancelled := s.cancelled ++ [c.ctx] } (.wake i) =
          setCall { s with pkt := none, cancelled := s.cancelled ++ [c.ctx] } i { c with watcher := .woken } := by
        simp [step, hc, Step.call, hi, callStep, hw, asked]
      rw [run_cons, run_cons, run_cons, e1, e2, e3]
      simp [run, step, hc, Step.call, callStep, setCall, hl]
    · rw [run_cons, run_cons, run_cons, e1]
      rcases Bool.eq_false_or_eq_true s.closed with hd | hd
      · rw [← run_cons, ← run_cons]
        have : (step ⟨.v2, fixed⟩ { s with pkt := none } .close).crashed = true := by simp [step, hc, Step.call, hd]
        rw [run_cons, crashed_run _ _ _ this]; exact this
      · have e2 : step ⟨.v2, fixed⟩ { s with pkt := none } .close = { s with pkt := none, closed := true } := by
          simp [step, hc, Step.call, hd]
        have e3 : step ⟨.v2, fixed⟩ { s with pkt := none, closed := true } (.wake i) =
            setCall { s with pkt := none, closed := true } i { c with watcher := .woken } := by
          simp [step, hc, Step.call, hi, callStep, hw, asked]
        rw [e2, e3]
        simp [run, step, hc, Step.call, callStep, setCall, hl]
    · rw [run_cons, e1]
      simp [run, step, hc, Step.call, hi, callStep, hp, hs]

/-- in GTPv1 the goroutine that closes the socket never panics -/
theorem C82_v1_watcher (fixed : Bool) (s : State) (i : Nat) :
    (step ⟨.v1, fixed⟩ s (.wake i)).crashed = s.crashed ∧ (step ⟨.v1, fixed⟩ s (.sockClose i)).crashed = s.crashed := by
  constructor
  all_goals
    simp only [step, Step.call]
    split
    · rfl
    · cases s.calls[i]? with
      | none => rfl
      | some c => simp only [callStep]; (repeat' split) <;> first | rfl | simp_all [setCall]

/-- C82 fails for GTPv1: of two calls of ListenAndServe that begin at the same time on a given port the second is refused, but it
takes the socket away from the first, which panics; had it received nothing before or been reading already makes no difference -/
theorem C82_v1_race (c d : Nat) (r : Outcome) (a : String) (b : Bytes) :
    (run ⟨.v1, true⟩ init [.enter c, .enter d, .look 0, .look 1, .open 0 .opened, .open 1 r, .check 0]).crashed = true ∧
    (run ⟨.v1, true⟩ init [.enter c, .enter d, .look 0, .look 1, .open 0 .opened, .check 0, .open 1 r, .arrive 0 a b,
      .check 0]).crashed = true := by
  constructor <;> simp [run, step, init, Step.call, callStep, setCall, answer, asked]

/-! ### sockets that are lost -/

/-- C82 fails: a socket the connection holds no more - Listen was called again - is never closed, whatever happens -/
theorem C82_lost (f : Cfg) (s : State) (k : Nat) (hs : s.socks[k]? = some true) (hk : s.pkt ≠ some k) (l : List Step) :
    (run f s l).socks[k]? = some true ∧ (run f s l).pkt ≠ some k := by
  refine run_inv (f := f) (Q := fun _ => True) (P := fun t => t.socks[k]? = some true ∧ t.pkt ≠ some k) ?_ ⟨hs, hk⟩ l
    (fun _ _ => trivial)
  rintro t x - ⟨h1, h2⟩
  have hl : k < t.socks.length := (List.getElem?_eq_some_iff.1 h1).1
  have h3 : (t.socks ++ [true])[k]? = some true := by rw [List.getElem?_append_left hl]; exact h1
  have h4 : (some t.socks.length : Option Nat) ≠ some k := by simp; omega
  unfold step
  split
  · exact ⟨h1, h2⟩
  · cases hx : x.call with
    | none =>
      cases x with
      | listen r => simp only; (repeat' split) <;> first | exact ⟨h1, h2⟩ | exact ⟨h3, h4⟩ | exact ⟨h1, by simp⟩
      | enter c => cases f.kind <;> exact ⟨h1, h2⟩
      | close => simp only; split <;> exact ⟨h1, h2⟩
      | use => simp only; split <;> exact ⟨h1, h2⟩
      | _ => first | exact ⟨h1, h2⟩ | (simp [Step.call] at hx)
    | some i =>
      simp only
      cases hi : t.calls[i]? with
      | none => exact ⟨h1, h2⟩
      | some c =>
        simp only
        cases x with
        | sockClose j =>
          simp only [callStep]
          split
          · split
            · rename_i k' hk'
              have : k' ≠ k := by rintro rfl; exact h2 hk'
              refine ⟨?_, h2⟩
              simp only [setCall]
              rw [List.getElem?_set_ne this]; exact h1
            · exact ⟨h1, h2⟩
            · exact ⟨h1, h2⟩
          · exact ⟨h1, h2⟩
        | _ =>
          simp only [callStep]
          (repeat' split) <;> first | exact ⟨h1, h2⟩ | exact ⟨h3, h4⟩ | exact ⟨h1, by simp [setCall]⟩ | exact ⟨h3, by simp [setCall]⟩

/-- C82 fails: cancelling the context of a call closes whatever socket the connection holds by then, also if that call has long
returned with an error and the socket belongs to a later one -/
theorem C82_old_context (f : Cfg) (s : State) (hn : s.crashed = false) (i k : Nat) (c : Call) (hi : s.calls[i]? = some c)
    (hw : c.watcher = .waiting) (hk : s.pkt = some k) (hs : s.socks[k]? = some true) :
    (run f s [.cancel c.ctx, .wake i, .sockClose i]).socks[k]? = some false := by
  have hl : i < s.calls.length := (List.getElem?_eq_some_iff.1 hi).1
  have hl' : k < s.socks.length := (List.getElem?_eq_some_iff.1 hs).1
  have e1 : step f s (.cancel c.ctx) = { s with cancelled := s.cancelled ++ [c.ctx] } := by simp [step, hn, Step.call]
  have e2 : step f { s with cancelled := s.cancelled ++ [c.ctx] } (.wake i) =
      setCall { s with cancelled := s.cancelled ++ [c.ctx] } i { c with watcher := .woken } := by
    simp [step, hn, Step.call, hi, callStep, hw, asked]
  rw [run_cons, run_cons, e1, e2]
  simp [run, step, hn, Step.call, callStep, setCall, hl, hk, hl']

/-! ### stopping -/

/-- the connection holds socket k, and whoever reads reads from it -/
def Single (k : Nat) (s : State) : Prop :=
  s.pkt = some k ∧ k < s.socks.length ∧ ∀ c ∈ s.calls, c.pc ≠ .opening ∧ ∀ m, c.pc = .reading m → m = k

/-- what a step does to call j -/
def Later (k : Nat) (s t : State) (j : Nat) (c : Call) : Prop :=
  ∃ d, t.calls[j]? = some d ∧ d.ctx = c.ctx ∧
    (d.watcher = c.watcher ∨ c.pc = .start ∨ (c.watcher = .waiting ∧ d.watcher = .woken) ∨
      (c.watcher = .woken ∧ t.socks[k]? = some false)) ∧
    (c.pc ≠ .start → d.pc ≠ .start) ∧ (∀ r, c.pc = .returned r → d.pc = .returned r) ∧
    (s.socks[k]? = some false → c.pc = .reading k → d.pc = .reading k ∨ d.pc = .returned true)

theorem later_refl (k : Nat) (s t : State) (j : Nat) (c : Call) (h : t.calls[j]? = some c) : Later k s t j c :=
  ⟨c, h, rfl, Or.inl rfl, id, fun _ => id, fun _ => Or.inl⟩

theorem later_set (k : Nat) (s t : State) (i j : Nat) (c d e : Call) (hi : s.calls[i]? = some d) (hj : s.calls[j]? = some c)
    (ht : t.calls = s.calls.set i e)
    (h : e.ctx = d.ctx ∧ (e.watcher = d.watcher ∨ d.pc = .start ∨ (d.watcher = .waiting ∧ e.watcher = .woken) ∨
      (d.watcher = .woken ∧ t.socks[k]? = some false)) ∧
      (d.pc ≠ .start → e.pc ≠ .start) ∧ (∀ r, d.pc = .returned r → e.pc = .returned r) ∧
      (s.socks[k]? = some false → d.pc = .reading k → e.pc = .reading k ∨ e.pc = .returned true)) : Later k s t j c := by
  by_cases hij : i = j
  · subst hij
    rw [hi] at hj; cases hj
    have : i < s.calls.length := (List.getElem?_eq_some_iff.1 hi).1
    exact ⟨e, by rw [ht]; simp [this], h⟩
  · exact later_refl k s t j c (by rw [ht, List.getElem?_set_ne hij]; exact hj)

theorem single_step (f : Cfg) (k : Nat) (s : State) (x : Step) (hx : NoListen x) (h : Single k s) (hc : s.crashed = false) :
    (step f s x).crashed = true ∨
    (Single k (step f s x) ∧ (s.socks[k]? = some false → (step f s x).socks[k]? = some false) ∧
      (∀ c, asked s c = true → asked (step f s x) c = true) ∧
      ∀ j c, s.calls[j]? = some c → Later k s (step f s x) j c) := by
  have h' := h
  obtain ⟨h1, h2, h3⟩ := h
  have same : Single k s ∧ (s.socks[k]? = some false → s.socks[k]? = some false) ∧
      (∀ c, asked s c = true → asked s c = true) ∧ ∀ j c, s.calls[j]? = some c → Later k s s j c :=
    ⟨h', id, fun _ => id, fun j c hj => later_refl k s s j c hj⟩
  unfold step
  rw [if_neg (by simp [hc])]
  cases hx' : x.call with
  | none =>
    cases x with
    | enter c =>
      right
      cases f.kind <;> refine ⟨⟨h1, h2, forall_snoc h3 (by simp)⟩, id, fun _ => id, fun j c hj => later_refl _ _ _ _ _ ?_⟩ <;>
        (have : j < s.calls.length := (List.getElem?_eq_some_iff.1 hj).1; simp only; rw [List.getElem?_append_left this]; exact hj)
    | close =>
      simp only
      split
      · left; rfl
      · right; exact ⟨⟨h1, h2, h3⟩, id, fun c _ => by simp [asked], fun j c hj => later_refl _ _ _ _ _ hj⟩
    | cancel c' =>
      right
      refine ⟨⟨h1, h2, h3⟩, id, fun c hc => ?_, fun j c hj => later_refl _ _ _ _ _ hj⟩
      simp [asked] at hc ⊢
      rcases hc with hc | hc
      · exact Or.inl hc
      · exact Or.inr (Or.inl hc)
    | use => simp only; rw [if_neg (by simp [h1])]; exact Or.inr same
    | listen r => exact absurd hx (by simp [NoListen])
    | _ => first | exact Or.inr same | (simp [Step.call] at hx')
  | some i =>
    simp only
    cases hi : s.calls[i]? with
    | none => exact Or.inr same
    | some c =>
      obtain ⟨hco, hcr⟩ := h3 c (List.mem_of_getElem? hi)
      simp only
      have hset : (s.socks.set k false)[k]? = some false := by simp [h2]
      cases x <;> simp only [callStep] <;> (repeat' split) <;>
        first
        | exact Or.inr same
        | (simp [Step.call] at hx'; done)
        | exact Or.inr ⟨⟨h1, h2, forall_set h3 (by simp_all)⟩, id, fun _ => id, fun j d hj =>
            later_set k s _ i j d c _ hi hj rfl ⟨rfl, by simp_all, by simp_all, by simp_all, by simp_all⟩⟩
        | (rename_i hpk; rw [h1] at hpk; cases hpk
           exact Or.inr ⟨⟨h1, by simpa [setCall] using h2, forall_set h3 (by simp_all)⟩, fun _ => hset, fun _ => id, fun j d hj =>
            later_set k s _ i j d c _ hi hj rfl ⟨rfl, by simp_all [setCall], by simp_all, by simp_all, by simp_all⟩⟩)
        | simp_all

theorem stage {f : Cfg} {P Q : State → Prop} {x : Step} {xs l : List Step} (hP : ∀ s y, NoListen y → P s → P (step f s y))
    (hQ : ∀ s, P s → Q (step f s x)) {s : State} (h : P s) (hl : (x :: xs).Sublist l) (hn : ∀ y ∈ l, NoListen y) :
    ∃ s' l', run f s l = run f s' l' ∧ Q s' ∧ xs.Sublist l' ∧ ∀ y ∈ l', NoListen y := by
  induction l generalizing s with
  | nil => cases hl
  | cons y l ih =>
    have hn' : ∀ y ∈ l, NoListen y := fun z hz => hn z (by simp [hz])
    cases hl with
    | cons _ hl => exact ih (hP s y (hn y (by simp)) h) hl hn'
    | cons_cons _ hl => exact ⟨step f s x, l, rfl, hQ s h, hl, hn'⟩

theorem asked_ctx {s : State} {c d : Call} (h : d.ctx = c.ctx) : asked s d = asked s c := by simp [asked, h]

/-- call i was asked to stop, and its watcher is where p says, or the socket is closed -/
def Stopping (k i : Nat) (p : Watcher → Prop) (t : State) : Prop :=
  t.socks[k]? = some false ∨ ∃ e, t.calls[i]? = some e ∧ e.pc ≠ .start ∧ asked t e = true ∧ p e.watcher

theorem stopping_step (f : Cfg) (k i : Nat) (p : Watcher → Prop) (hp' : p .woken)
    (t : State) (y : Step) (hy : NoListen y) (hs : Single k t) (hc : t.crashed = false) (h : Stopping k i p t) :
    (step f t y).crashed = true ∨ Stopping k i p (step f t y) := by
  rcases single_step f k t y hy hs hc with e | ⟨_, e2, e3, e4⟩
  · exact Or.inl e
  · right
    rcases h with h | ⟨e, h1, h2, h3, h4⟩
    · exact Or.inl (e2 h)
    · obtain ⟨d, d1, d2, d3, d4, -⟩ := e4 i e h1
      have ha : asked (step f t y) d = true := by rw [asked_ctx d2]; exact e3 e h3
      rcases d3 with d3 | d3 | ⟨-, d3⟩ | ⟨-, d3⟩
      · exact Or.inr ⟨d, d1, d4 h2, ha, by rw [d3]; exact h4⟩
      · exact absurd d3 h2
      · exact Or.inr ⟨d, d1, d4 h2, ha, by rw [d3]; exact hp'⟩
      · exact Or.inl d3

/-- call j is beyond its start -/
def Begun (j : Nat) (p : Pc → Prop) (t : State) : Prop := ∃ e, t.calls[j]? = some e ∧ e.pc ≠ .start ∧ p e.pc

/-- C82: when the context of one call is cancelled or Close is called, every call on that socket returns - also those whose own
context goes on - as soon as the watcher of the first has run its two steps and the other its next two, whatever else happens
(a panic of a second Close apart) -/
theorem C82_stops (f : Cfg) (k : Nat) (s : State) (h : Single k s) (i : Nat) (c : Call) (hi : s.calls[i]? = some c)
    (hw : c.watcher = .waiting) (hp : c.pc ≠ .start) (ha : asked s c = true) (j : Nat) (d : Call) (hj : s.calls[j]? = some d)
    (hd : d.pc ≠ .start) (l : List Step) (hn : ∀ x ∈ l, NoListen x)
    (hl : [Step.wake i, .sockClose i, .check j, .closedErr j].Sublist l) :
    (run f s l).crashed = true ∨
    ((run f s l).socks[k]? = some false ∧ ∃ e, (run f s l).calls[j]? = some e ∧ ∃ r, e.pc = .returned r) := by
  have st : ∀ (P : State → Prop), (∀ t y, NoListen y → Single k t → t.crashed = false → P t →
      (step f t y).crashed = true ∨ P (step f t y)) → ∀ t y, NoListen y → (t.crashed = true ∨ (Single k t ∧ P t)) →
      ((step f t y).crashed = true ∨ (Single k (step f t y) ∧ P (step f t y))) := by
    intro P hP t y hy h
    cases hc : t.crashed with
    | true => left; rw [crashed_step f t y hc]; exact hc
    | false =>
      rw [hc] at h
      rcases h with h | ⟨h1, h2⟩
      · cases h
      · rcases hP t y hy h1 hc h2 with h | h
        · exact Or.inl h
        · rcases single_step f k t y hy h1 hc with e | ⟨e, _⟩
          · exact Or.inl e
          · exact Or.inr ⟨e, h⟩
  have begun : ∀ t y, NoListen y → Single k t → t.crashed = false → Begun j (fun _ => True) t →
      (step f t y).crashed = true ∨ Begun j (fun _ => True) (step f t y) := by
    intro t y hy h1 hc ⟨e, b1, b2, _⟩
    rcases single_step f k t y hy h1 hc with e | ⟨_, _, _, e4⟩
    · exact Or.inl e
    · obtain ⟨d, d1, d2, d3, d4, -⟩ := e4 j _ b1
      exact Or.inr ⟨d, d1, d4 b2, trivial⟩
  have both : ∀ (A B : State → Prop), (∀ t y, NoListen y → Single k t → t.crashed = false → A t →
      (step f t y).crashed = true ∨ A (step f t y)) → (∀ t y, NoListen y → Single k t → t.crashed = false → B t →
      (step f t y).crashed = true ∨ B (step f t y)) → ∀ t y, NoListen y → Single k t → t.crashed = false → A t ∧ B t →
      (step f t y).crashed = true ∨ (A (step f t y) ∧ B (step f t y)) := by
    intro A B hA hB t y hy h1 hc ⟨a, b⟩
    rcases hA t y hy h1 hc a with h | h
    · exact Or.inl h
    · rcases hB t y hy h1 hc b with h' | h'
      · exact Or.inl h'
      · exact Or.inr ⟨h, h'⟩
  have shut : ∀ t y, NoListen y → Single k t → t.crashed = false → t.socks[k]? = some false →
      (step f t y).crashed = true ∨ (step f t y).socks[k]? = some false := by
    intro t y hy h1 hc h
    rcases single_step f k t y hy h1 hc with e | ⟨_, e, _⟩
    · exact Or.inl e
    · exact Or.inr (e h)
  have kept1 := st (fun t => Stopping k i (fun w => w = .waiting ∨ w = .woken) t ∧ Begun j (fun _ => True) t)
    (both _ _ (stopping_step f k i _ (Or.inr rfl)) begun)
  have kept2 := st (fun t => Stopping k i (fun w => w = .woken) t ∧ Begun j (fun _ => True) t)
    (both _ _ (stopping_step f k i _ rfl) begun)
  have kept3 := st (fun t => t.socks[k]? = some false ∧ Begun j (fun _ => True) t) (both _ _ shut begun)
  have reading : ∀ t y, NoListen y → Single k t → t.crashed = false →
      (t.socks[k]? = some false ∧ Begun j (fun q => q = .reading k ∨ ∃ r, q = .returned r) t) →
      (step f t y).crashed = true ∨ ((step f t y).socks[k]? = some false ∧
        Begun j (fun q => q = .reading k ∨ ∃ r, q = .returned r) (step f t y)) := by
    rintro t y hy h1 hc ⟨h2, e, b1, b2, b3⟩
    rcases single_step f k t y hy h1 hc with e | ⟨_, e2, _, e4⟩
    · exact Or.inl e
    · obtain ⟨d, d1, d2, d3, d4, d5, d6⟩ := e4 j _ b1
      refine Or.inr ⟨e2 h2, d, d1, d4 b2, ?_⟩
      rcases b3 with b3 | ⟨r, b3⟩
      · rcases d6 h2 b3 with h | h
        · exact Or.inl h
        · exact Or.inr ⟨_, h⟩
      · exact Or.inr ⟨r, d5 r b3⟩
  have kept4 := st _ reading
  have ended : ∀ t y, NoListen y → Single k t → t.crashed = false →
      (t.socks[k]? = some false ∧ Begun j (fun q => ∃ r, q = .returned r) t) →
      (step f t y).crashed = true ∨ ((step f t y).socks[k]? = some false ∧
        Begun j (fun q => ∃ r, q = .returned r) (step f t y)) := by
    rintro t y hy h1 hc ⟨h2, e, b1, b2, r, b3⟩
    rcases single_step f k t y hy h1 hc with e | ⟨_, e2, _, e4⟩
    · exact Or.inl e
    · obtain ⟨d, d1, d2, d3, d4, d5, -⟩ := e4 j _ b1
      exact Or.inr ⟨e2 h2, d, d1, d4 b2, r, d5 r b3⟩
  have kept5 := st _ ended
  have start : s.crashed = true ∨ (Single k s ∧ (Stopping k i (fun w => w = .waiting ∨ w = .woken) s ∧ Begun j (fun _ => True) s)) :=
    Or.inr ⟨h, Or.inr ⟨c, hi, hp, ha, Or.inl hw⟩, ⟨d, hj, hd, trivial⟩⟩
  obtain ⟨s1, l1, e1, q1, hl1, hn1⟩ := stage (f := f) kept1
    (Q := fun t => t.crashed = true ∨ (Single k t ∧ (Stopping k i (fun w => w = .woken) t ∧ Begun j (fun _ => True) t)))
    (x := .wake i) (by
      intro t ht
      have := kept1 t (.wake i) trivial ht
      cases hc : t.crashed with
      | true => left; rw [crashed_step f t _ hc]; exact hc
      | false =>
        rcases ht with ht | ⟨t1, t2, t3⟩
        · rw [hc] at ht; cases ht
        rcases this with g | ⟨g1, g2, g3⟩
        · exact Or.inl g
        refine Or.inr ⟨g1, ?_, g3⟩
        rcases t2 with t2 | ⟨e, u1, u2, u3, u4⟩
        · left
          rcases shut t (.wake i) trivial t1 hc t2 with g | g
          · rcases single_step f k t (.wake i) trivial t1 hc with e | ⟨_, e, _⟩
            · simp [step, hc, Step.call] at e
              split at e
              · simp only [callStep] at e; split at e <;> simp_all [setCall]
              · simp_all
            · exact e t2
          · exact g
        · right
          have hl' : i < t.calls.length := (List.getElem?_eq_some_iff.1 u1).1
          rcases u4 with u4 | u4
          · have : step f t (.wake i) = setCall t i { e with watcher := .woken } := by
              simp [step, hc, Step.call, u1, callStep, u4, u3]
            rw [this]
            exact ⟨{ e with watcher := .woken }, by simp [setCall, hl'], u2, u3, rfl⟩
          · have : step f t (.wake i) = t := by simp [step, hc, Step.call, u1, callStep, u4]
            rw [this]; exact ⟨e, u1, u2, u3, u4⟩) start hl hn
  obtain ⟨s2, l2, e2, q2, hl2, hn2⟩ := stage (f := f) kept2
    (Q := fun t => t.crashed = true ∨ (Single k t ∧ (t.socks[k]? = some false ∧ Begun j (fun _ => True) t)))
    (x := .sockClose i) (by
      intro t ht
      have := kept2 t (.sockClose i) trivial ht
      cases hc : t.crashed with
      | true => left; rw [crashed_step f t _ hc]; exact hc
      | false =>
        rcases ht with ht | ⟨t1, t2, t3⟩
        · rw [hc] at ht; cases ht
        rcases this with g | ⟨g1, g2, g3⟩
        · exact Or.inl g
        rcases t2 with t2 | ⟨e, u1, u2, u3, u4⟩
        · rcases shut t (.sockClose i) trivial t1 hc t2 with g | g
          · exact Or.inl g
          · exact Or.inr ⟨g1, g, g3⟩
        · refine Or.inr ⟨g1, ?_, g3⟩
          simp [step, hc, Step.call, u1, callStep, u4, t1.1, setCall, t1.2.1]) q1 hl1 hn1
  obtain ⟨s3, l3, e3, q3, hl3, hn3⟩ := stage (f := f) kept3
    (Q := fun t => t.crashed = true ∨ (Single k t ∧ (t.socks[k]? = some false ∧ Begun j (fun q => q = .reading k ∨ ∃ r, q = .returned r) t)))
    (x := .check j) (by
      intro t ht
      have := kept3 t (.check j) trivial ht
      cases hc : t.crashed with
      | true => left; rw [crashed_step f t _ hc]; exact hc
      | false =>
        rcases ht with ht | ⟨t1, t2, e, u1, u2, -⟩
        · rw [hc] at ht; cases ht
        rcases this with g | ⟨g1, g2, g3⟩
        · exact Or.inl g
        refine Or.inr ⟨g1, g2, ?_⟩
        have hl' : j < t.calls.length := (List.getElem?_eq_some_iff.1 u1).1
        obtain ⟨t11, t12, t13⟩ := t1
        obtain ⟨v1, v2⟩ := t13 e (List.mem_of_getElem? u1)
        have e0 : step f t (.check j) = callStep f t j e (.check j) := by simp [step, hc, Step.call, u1]
        rw [e0]
        simp only [callStep, t11]
        cases hpc : e.pc with
        | start => exact absurd hpc u2
        | opening => exact absurd hpc v1
        | top =>
          simp only [if_true]
          split
          · exact ⟨{ e with pc := .returned true }, by simp [setCall, hl'], by simp, Or.inr ⟨true, rfl⟩⟩
          · exact ⟨{ e with pc := .reading k }, by simp [setCall, hl'], by simp, Or.inl rfl⟩
        | reading m =>
          have := v2 m hpc
          subst this
          exact ⟨e, by simpa using u1, u2, Or.inl hpc⟩
        | returned r => exact ⟨e, by simpa using u1, u2, Or.inr ⟨r, hpc⟩⟩) q2 hl2 hn2
  obtain ⟨s4, l4, e4, q4, hl4, hn4⟩ := stage (f := f) kept4
    (Q := fun t => t.crashed = true ∨ (Single k t ∧ (t.socks[k]? = some false ∧ Begun j (fun q => ∃ r, q = .returned r) t)))
    (x := .closedErr j) (by
      intro t ht
      have := kept4 t (.closedErr j) trivial ht
      cases hc : t.crashed with
      | true => left; rw [crashed_step f t _ hc]; exact hc
      | false =>
        rcases ht with ht | ⟨t1, t2, e, u1, u2, u3⟩
        · rw [hc] at ht; cases ht
        rcases this with g | ⟨g1, g2, g3⟩
        · exact Or.inl g
        refine Or.inr ⟨g1, g2, ?_⟩
        have hl' : j < t.calls.length := (List.getElem?_eq_some_iff.1 u1).1
        have e0 : step f t (.closedErr j) = callStep f t j e (.closedErr j) := by simp [step, hc, Step.call, u1]
        rw [e0]
        rcases u3 with u3 | ⟨r, u3⟩
        · simp only [callStep, u3, t2]
          exact ⟨{ e with pc := .returned true }, by simp [setCall, hl'], by simp, true, rfl⟩
        · simp only [callStep, u3]
          exact ⟨e, u1, u2, r, u3⟩) q3 hl3 hn3
  rw [e1, e2, e3, e4]
  have last := run_inv (f := f) (Q := NoListen) (fun t y hy h => kept5 t y hy h) q4 l4 hn4
  rcases last with g | ⟨_, g1, e, g2, _, g3⟩
  · exact Or.inl g
  · exact Or.inr ⟨g1, e, g2, g3⟩

/-! ### examples -/

-- GTPv2: listened on, served, stopped, and again
def cycle : List Step := [.listen .opened, .enter 0, .check 0, .arrive 0 "a" [1], .check 0, .cancel 0, .wake 0, .sockClose 0, .closedErr 0]

example : run ⟨.v2, true⟩ init cycle = ⟨[0], false, some 0, [false], [⟨0, .returned true, .done⟩], [(0, "a", [1])], false⟩ := by decide
example : Calm (run ⟨.v2, true⟩ init cycle) := ⟨by decide, by decide, by decide⟩
example : (run ⟨.v2, true⟩ init (cycle ++ [.listen .opened, .enter 1, .check 1, .arrive 1 "b" [2]])).started =
    [(0, "a", [1]), (1, "b", [2])] := by decide
-- GTPv1 is deaf the second time
example : (run ⟨.v1, true⟩ init [.enter 0, .look 0, .open 0 .opened, .check 0, .arrive 0 "a" [1], .cancel 0, .wake 0, .sockClose 0,
    .check 0, .enter 1, .look 1, .check 1, .arrive 1 "b" [2], .closedErr 1]) =
    ⟨[0], false, some 0, [false], [⟨0, .returned true, .done⟩, ⟨1, .returned true, .waiting⟩], [(0, "a", [1])], false⟩ := by decide
-- the context of a call that failed stops its successor
example : (run ⟨.v2, false⟩ init [.listen .opened, .enter 0, .check 0, .readErr 0, .listen .opened, .enter 1, .check 1, .cancel 0,
    .wake 0, .sockClose 0, .closedErr 1]) =
    ⟨[0], false, some 1, [true, false], [⟨0, .returned false, .done⟩, ⟨1, .returned true, .waiting⟩], [], false⟩ := by decide
-- two calls of ListenAndServe at once: the second, refused, takes the socket of the first
example : (run ⟨.v1, true⟩ init [.enter 0, .enter 1, .look 0, .look 1, .open 0 .opened, .open 1 .opened, .check 0]).crashed = true := by
  decide
example : Single 0 (run ⟨.v2, true⟩ init [.listen .opened, .enter 0, .enter 1, .check 0, .check 1]) := by
  refine ⟨by decide, by decide, ?_⟩
  have : (run ⟨.v2, true⟩ init [.listen .opened, .enter 0, .enter 1, .check 0, .check 1]).calls =
    [⟨0, .reading 0, .waiting⟩, ⟨1, .reading 0, .waiting⟩] := by decide
  rw [this]; simp
example : Held 0 (run ⟨.v1, true⟩ init [.enter 0, .look 0, .open 0 .opened]) := ⟨by decide, by decide⟩

end Verif.Listen

namespace Verif.Listen
/-! ### cases that meet the hypotheses -/

example := C82_v2_again_partial true (run ⟨.v2, true⟩ init cycle) ⟨by decide, by decide, by decide⟩ (by decide) .opened (by decide) 1 (by decide)
  [.check 1, .arrive 1 "b" [2]] (by intro x hx; simp at hx; rcases hx with rfl | rfl <;> exact ⟨trivial, by decide, by decide⟩) "c" [3]
example := C82_v1_first_partial true init ⟨by decide, by decide, by decide⟩ rfl (by decide) 1 (by decide)
  [.check 0, .arrive 0 "b" [2]] (by intro x hx; simp at hx; rcases hx with rfl | rfl <;> exact ⟨trivial, by decide, by decide⟩) "c" [3]
/-- a GTPv1 connection that has served and stopped -/
def stopped : State := run ⟨.v1, true⟩ init [.enter 0, .look 0, .open 0 .opened, .check 0, .arrive 0 "a" [1], .cancel 0, .wake 0, .sockClose 0, .check 0]
example := C82_v1_never_again true 0 stopped rfl rfl (by
  intro c hc
  have e : stopped.calls = [⟨0, .returned true, .done⟩] := by decide
  rw [e] at hc; simp at hc; subst hc; exact ⟨_, rfl⟩) [.enter 1, .look 1, .check 1, .arrive 1 "b" [2]]
example := C82_v1_again_nil true 0 stopped rfl rfl rfl 1
example := C82_no_panic ⟨.v1, true⟩ 0 (run ⟨.v1, true⟩ init [.enter 0, .look 0, .open 0 .opened]) ⟨by decide, by decide⟩ rfl
  [.check 0, .close, .close] (by intro x hx; simp at hx; rcases hx with rfl | rfl <;> trivial)
example := C82_unopened ⟨.v1, true⟩ init rfl
/-- a GTPv2 connection with two calls of Serve -/
def serving : State := run ⟨.v2, true⟩ init [.listen .opened, .enter 0, .enter 1, .check 0, .check 1]
theorem serving_eq : serving = ⟨[], false, some 0, [true], [⟨0, .reading 0, .waiting⟩, ⟨1, .reading 0, .waiting⟩], [], false⟩ := by decide
example := C82_v2_failed_listen true serving 0 0 _ rfl rfl rfl "a" [1]
example := C82_v2_listen_twice serving 0 0 _ rfl rfl rfl .opened "a" [1]
example := C82_v2_failed_listen_stop true serving 0 _ rfl
example := C82_lost ⟨.v2, false⟩ (run ⟨.v2, false⟩ serving [.listen .opened]) 0 rfl (by decide) [.enter 2, .close]
example := C82_old_context ⟨.v2, true⟩ serving rfl 0 0 _ rfl rfl rfl rfl
example := C82_stops ⟨.v2, true⟩ 0 { serving with cancelled := [0] } (by
    refine ⟨rfl, by decide, ?_⟩
    show ∀ c ∈ serving.calls, _
    rw [serving_eq]; simp) 0 _ rfl rfl (by decide) rfl 1 _ rfl (by decide)
  [.wake 0, .sockClose 0, .check 1, .closedErr 1] (by intro x hx; simp at hx; rcases hx with rfl | rfl | rfl | rfl <;> trivial)
  (List.Sublist.refl _)
end Verif.Listen
