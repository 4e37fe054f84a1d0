import Verif.Model.URead
import Mathlib.Data.List.Perm.Basic
/-
C38 (the reader's side) and C40.
-/
namespace Verif.V1.URead

theorem perm_erase {l : List TPDU} {i : Nat} {x : TPDU} (h : l[i]? = some x) : l.Perm (x :: l.eraseIdx i) := by
  induction l generalizing i with
  | nil => simp at h
  | cons y l ih =>
    cases i with
    | zero => simp only [List.getElem?_cons_zero, Option.some.injEq] at h; subst h; exact List.Perm.refl _
    | succ i =>
      simp only [List.getElem?_cons_succ] at h
      exact ((ih h).cons y).trans (List.Perm.swap x y _)

/-- the T-PDUs readers took -/
def taken (s : State) : List TPDU := s.reads.filterMap Prod.fst

structure Inv (s : State) : Prop where
  all : s.offered.Perm (taken s ++ s.dropped ++ s.waiting)
  res : ∀ e ∈ s.reads, (∃ x p, e = (some x, result p x)) ∨ (s.closed = true ∧ ∃ p, e = (none, ⟨0, p, none, 0⟩))

theorem inv_step (s : State) (h : Inv s) (x : Step) : Inv (step s x) := by
  obtain ⟨h1, h2⟩ := h
  cases x with
  | offer x =>
    refine ⟨?_, h2⟩
    show (s.offered ++ [x]).Perm (taken s ++ s.dropped ++ (s.waiting ++ [x]))
    rw [← List.append_assoc]
    exact h1.append_right [x]
  | close =>
    refine ⟨h1, fun e he => ?_⟩
    rcases h2 e he with h | ⟨_, h⟩
    · exact Or.inl h
    · exact Or.inr ⟨rfl, h⟩
  | readClosed p =>
    simp only [step]
    split
    · rename_i hc
      refine ⟨?_, ?_⟩
      · simpa [taken] using h1
      · intro e he
        rcases List.mem_append.1 he with he | he
        · exact h2 e he
        · exact Or.inr ⟨hc, p, List.mem_singleton.1 he⟩
    · exact ⟨h1, h2⟩
  | read p i =>
    simp only [step]
    split
    · exact ⟨h1, h2⟩
    · rename_i x hx
      refine ⟨?_, ?_⟩
      · refine h1.trans ?_
        simp only [taken, List.filterMap_append, List.filterMap_cons, List.filterMap_nil, List.append_assoc]
        refine List.Perm.append_left _ ?_
        refine ((perm_erase hx).append_left _).trans ?_
        exact List.perm_middle
      · intro e he
        rcases List.mem_append.1 he with he | he
        · exact h2 e he
        · exact Or.inl ⟨x, p, List.mem_singleton.1 he⟩
  | timeout i =>
    simp only [step]
    split
    · exact ⟨h1, h2⟩
    · rename_i x hx
      refine ⟨?_, h2⟩
      refine h1.trans ?_
      simp only [taken, List.append_assoc]
      refine List.Perm.append_left _ (List.Perm.append_left _ (perm_erase hx))

theorem inv_run (l : List Step) (s : State) (h : Inv s) : Inv (run s l) := by
  induction l generalizing s with
  | nil => exact h
  | cons x l ih => exact ih _ (inv_step s h x)

/-- C38, the reader's side, for every interleaving of arriving T-PDUs, readers, timeouts and Close: each T-PDU offered is
taken by exactly one ReadFromGTP, or was dropped after the timeout, or still waits. -/
theorem C38_exactly_once (l : List Step) :
    (run init l).offered.Perm ((run init l).reads.filterMap Prod.fst ++ (run init l).dropped ++ (run init l).waiting) :=
  (inv_run l init ⟨List.Perm.nil, by simp [init]⟩).all

/-- C38, the reader's side: a ReadFromGTP that took a T-PDU returns its sender and TEID, and its payload if the buffer has
room for it (the first octets otherwise); before Close, every ReadFromGTP that returns has taken one. -/
theorem C38_read (l : List Step) (o : Option TPDU) (r : Result) (h : (o, r) ∈ (run init l).reads) :
    (∃ x, o = some x ∧ r.addr = some x.raddr ∧ r.teid = x.teid ∧ r.n ≤ x.payload.length ∧
      r.buf.take r.n = x.payload.take r.n ∧ (x.payload.length ≤ r.buf.length → r.buf.take r.n = x.payload)) ∨
    (o = none ∧ (run init l).closed = true ∧ r.addr = none ∧ r.n = 0) := by
  have hl : ∀ (p q : Bytes), (q.take p.length ++ p.drop q.length).length = p.length := by
    intro p q; simp; omega
  rcases (inv_run l init ⟨List.Perm.nil, by simp [init]⟩).res _ h with ⟨x, p, he⟩ | ⟨hc, p, he⟩
  · left
    simp only [Prod.mk.injEq] at he
    obtain ⟨rfl, rfl⟩ := he
    refine ⟨x, rfl, rfl, rfl, by simp only [result]; omega, ?_, ?_⟩
    · simp only [result]
      rw [List.take_append, List.take_take]
      simp only [List.length_take]
      rw [show min p.length x.payload.length - min p.length x.payload.length = 0 by omega]
      simp
    · intro hle
      simp only [result, hl] at hle ⊢
      rw [List.take_append, List.take_take]
      simp only [List.length_take]
      rw [show min p.length x.payload.length - min p.length x.payload.length = 0 by omega]
      simp only [List.take_zero, List.append_nil]
      exact List.take_of_length_le (by omega)
  · right
    simp only [Prod.mk.injEq] at he
    obtain ⟨rfl, rfl⟩ := he
    exact ⟨rfl, hc, rfl, rfl⟩

example : (run init [.offer ⟨"a", 1, 0, [1, 2, 3]⟩, .offer ⟨"b", 2, 0, [4]⟩, .read [0, 0] 1, .read [0, 0] 0]).reads.map Prod.snd =
    [⟨1, [4, 0], some "b", 2⟩, ⟨2, [1, 2], some "a", 1⟩] := by decide +kernel

end Verif.V1.URead

namespace Verif.V1.Dscp

/-- the goroutine is between Lock and Unlock -/
def Pc.inside : Pc → Bool
  | .idle => false
  | .blocked _ => false
  | _ => true

/-- what holds of the socket option while a goroutine is at p; `o` is the value before the first call -/
def Good (o : Int) (s : State) : Pc → Prop
  | .idle => True
  | .blocked _ => True
  | .locked _ => s.restoreFailed = false → s.opt = o
  | .got _ old => s.restoreFailed = false → s.opt = o ∧ old = o
  | .set c old => s.opt = c.dscp ∧ (s.restoreFailed = false → old = o)
  | .wrote _ old _ => s.restoreFailed = false → old = o
  | .done _ _ => s.restoreFailed = false → s.opt = o

theorem good_outside (o : Int) (s : State) (p : Pc) (h : p.inside = false) : Good o s p := by
  cases p <;> simp_all [Pc.inside, Good]

structure Inv (o : Int) (s : State) : Prop where
  excl : ∀ t, (s.pc t).inside = true ↔ s.owner = some t
  good : ∀ t, Good o s (s.pc t)
  free : s.restoreFailed = false → s.owner = none → s.opt = o
  sent : ∀ e ∈ s.sent, e.2.2 = e.2.1.dscp

theorem inv_init (o : Int) : Inv o (init o) := by
  constructor <;> simp [init, Pc.inside, Good]

/-- the holder of the lock moves on, keeping it -/
theorem inv_inside (o : Int) (s s' : State) (h : Inv o s) (t : Nat) (p : Pc) (hin : (s.pc t).inside = true)
    (hpc : s'.pc = fun j => if j = t then p else s.pc j) (hp : p.inside = true) (ho : s'.owner = s.owner)
    (hg : Good o s' p) (hs : ∀ e ∈ s'.sent, e.2.2 = e.2.1.dscp) : Inv o s' := by
  obtain ⟨h1, h2, h3, h4⟩ := h
  have hown := (h1 t).1 hin
  refine ⟨?_, ?_, ?_, hs⟩
  · intro j
    rw [ho, hpc]
    by_cases hj : j = t
    · subst hj; simp [hp, hown]
    · simp only [hj, if_false]; exact h1 j
  · intro j
    rw [hpc]
    by_cases hj : j = t
    · subst hj; simpa using hg
    · simp only [hj, if_false]
      apply good_outside
      cases hi : (s.pc j).inside with
      | false => rfl
      | true =>
        have b := (h1 j).1 hi
        rw [hown] at b
        simp only [Option.some.injEq] at b
        exact absurd b.symm hj
  · intro _ hn
    rw [ho, hown] at hn; cases hn

theorem inv_step (o : Int) (s : State) (h : Inv o s) (x : Step) : Inv o (step s x) := by
  have hh := h
  obtain ⟨h1, h2, h3, h4⟩ := h
  cases x with
  | call t c =>
    simp only [step]
    split
    · rename_i hpc
      refine ⟨?_, ?_, h3, h4⟩
      · intro j
        by_cases hj : j = t
        · subst hj
          have := h1 j
          rw [hpc] at this
          simpa [setPc, Pc.inside] using this
        · simpa [setPc, hj] using h1 j
      · intro j
        by_cases hj : j = t
        · subst hj; simp [setPc, Good]
        · have e : (setPc s t (.blocked c)).pc j = s.pc j := by simp [setPc, hj]
          rw [e]
          have := h2 j
          revert this
          cases s.pc j <;> exact id
    · exact hh
  | lock t =>
    simp only [step]
    split
    · rename_i c hpc ho
      have hout : ∀ j, (s.pc j).inside = false := by
        intro j
        cases hi : (s.pc j).inside with
        | false => rfl
        | true => have := (h1 j).1 hi; rw [ho] at this; cases this
      refine ⟨?_, ?_, ?_, h4⟩
      · intro j
        by_cases hj : j = t
        · subst hj; simp [setPc, Pc.inside]
        · have hj' : ¬ t = j := fun e => hj e.symm
          simp [setPc, hj, hj', hout j]
      · intro j
        by_cases hj : j = t
        · subst hj
          simp only [setPc, if_true, Good]
          intro hr; exact h3 hr ho
        · have : (setPc s t (.locked c)).pc j = s.pc j := by simp [setPc, hj]
          show Good o _ ((setPc s t (.locked c)).pc j)
          rw [this]
          exact good_outside _ _ _ (hout j)
      · intro _ hn; cases hn
    · exact hh
  | get t b =>
    simp only [step]
    split
    · rename_i c hpc
      have hg := h2 t
      rw [hpc] at hg
      split
      · exact inv_inside o s _ hh t _ (by rw [hpc]; rfl) rfl rfl rfl (fun hr => ⟨hg hr, hg hr⟩) h4
      · exact inv_inside o s _ hh t _ (by rw [hpc]; rfl) rfl rfl rfl (fun hr => hg hr) h4
    · exact hh
  | set t b =>
    simp only [step]
    split
    · rename_i c old hpc
      have hg := h2 t
      rw [hpc] at hg
      split
      · exact inv_inside o s _ hh t _ (by rw [hpc]; rfl) rfl rfl rfl ⟨rfl, fun hr => (hg hr).2⟩ h4
      · exact inv_inside o s _ hh t _ (by rw [hpc]; rfl) rfl rfl rfl (fun hr => (hg hr).1) h4
    · exact hh
  | write t b =>
    simp only [step]
    split
    · rename_i c old hpc
      have hg := h2 t
      rw [hpc] at hg
      split
      · refine inv_inside o s _ hh t _ (by rw [hpc]; rfl) rfl rfl rfl (fun hr => hg.2 hr) ?_
        intro e he
        rcases List.mem_append.1 he with he | he
        · exact h4 e he
        · rw [List.mem_singleton.1 he]; exact hg.1
      · exact inv_inside o s _ hh t _ (by rw [hpc]; rfl) rfl rfl rfl (fun hr => hg.2 hr) h4
    · exact hh
  | restore t b =>
    simp only [step]
    split
    · rename_i c old r hpc
      have hg := h2 t
      rw [hpc] at hg
      split
      · exact inv_inside o s _ hh t _ (by rw [hpc]; rfl) rfl rfl rfl (fun hr => hg hr) h4
      · exact inv_inside o s _ hh t _ (by rw [hpc]; rfl) rfl rfl rfl (fun hr => by cases hr) h4
    · exact hh
  | unlock t =>
    simp only [step]
    split
    · rename_i c r hpc
      have hg := h2 t
      rw [hpc] at hg
      have hown := (h1 t).1 (by rw [hpc]; rfl)
      have hout : ∀ j, j ≠ t → (s.pc j).inside = false := by
        intro j hj
        cases hi : (s.pc j).inside with
        | false => rfl
        | true =>
          have b := (h1 j).1 hi
          rw [hown] at b
          simp only [Option.some.injEq] at b
          exact absurd b.symm hj
      refine ⟨?_, ?_, fun hr _ => hg hr, h4⟩
      · intro j
        by_cases hj : j = t
        · subst hj; simp [setPc, Pc.inside]
        · simp [setPc, hj, hout j hj]
      · intro j
        by_cases hj : j = t
        · subst hj; simp [setPc, Good]
        · have : (setPc s t .idle).pc j = s.pc j := by simp [setPc, hj]
          show Good o _ ((setPc s t .idle).pc j)
          rw [this]
          exact good_outside _ _ _ (hout j hj)
    · exact hh

theorem inv_run (o : Int) (l : List Step) (s : State) (h : Inv o s) : Inv o (run s l) := by
  induction l generalizing s with
  | nil => exact h
  | cons x l ih => exact ih _ (inv_step o s h x)

/-- C40: however writers interleave and whichever system calls fail, every datagram that leaves does so with the DSCP/ECN value
its own call asked for. -/
theorem C40_own_value (o : Int) (l : List Step) (t : Nat) (c : Call) (v : Int) (h : (t, c, v) ∈ (run (init o) l).sent) :
    v = c.dscp := (inv_run o l _ (inv_init o)).sent _ h

/-- C40: whenever no goroutine is inside WriteToWithDSCPECN, the socket option has the value it had at first, unless
setting it back failed at some time. -/
theorem C40_restored (o : Int) (l : List Step) (hr : (run (init o) l).restoreFailed = false)
    (hq : ∀ t, ((run (init o) l).pc t).inside = false) : (run (init o) l).opt = o := by
  have h := inv_run o l _ (inv_init o)
  refine h.free hr ?_
  cases ho : (run (init o) l).owner with
  | none => rfl
  | some t => have := (h.excl t).2 ho; rw [hq t] at this; cases this

/-- every goroutine sends at most what it was asked to: each datagram belongs to a call that returned success or is about to -/
structure Acc (s : State) : Prop where
  acc : ∀ e : Nat × Call, (s.sent.map (fun x => (x.1, x.2.1))).count e =
    (s.rets.filter (fun r => r.2.2)).countP (fun r => decide ((r.1, r.2.1) = e)) +
      (match s.pc e.1 with
        | .wrote c _ true => if c = e.2 then 1 else 0
        | .done c true => if c = e.2 then 1 else 0
        | _ => 0)

theorem acc_step (s : State) (h : Acc s) (x : Step) : Acc (step s x) := by
  obtain ⟨h⟩ := h
  -- a goroutine moves to p; nothing sent, nothing returned
  have move : ∀ (s' : State) (t : Nat) (p : Pc), s'.sent = s.sent → s'.rets = s.rets →
      s'.pc = (fun j => if j = t then p else s.pc j) →
      (∀ c : Call, (match p with
        | .wrote d _ true => if d = c then 1 else 0
        | .done d true => if d = c then 1 else 0
        | _ => 0) = (match s.pc t with
        | .wrote d _ true => if d = c then 1 else 0
        | .done d true => if d = c then 1 else 0
        | _ => 0 : Nat)) → Acc s' := by
    intro s' t p hs hr hp hm
    refine ⟨fun e => ?_⟩
    rw [hs, hr, hp, h e]
    congr 1
    by_cases hj : e.1 = t
    · simp only [hj, if_true]
      rw [hm e.2]
    · simp only [hj, if_false]
  cases x with
  | call t c =>
    simp only [step]
    split
    · rename_i hpc
      exact move _ t _ rfl rfl rfl (fun c' => by rw [hpc])
    · exact ⟨h⟩
  | lock t =>
    simp only [step]
    split
    · rename_i c hpc _
      exact move _ t _ rfl rfl rfl (fun c' => by rw [hpc])
    · exact ⟨h⟩
  | get t b =>
    simp only [step]
    split
    · rename_i c hpc
      split
      · exact move _ t _ rfl rfl rfl (fun c' => by rw [hpc])
      · exact move _ t _ rfl rfl rfl (fun c' => by rw [hpc])
    · exact ⟨h⟩
  | set t b =>
    simp only [step]
    split
    · rename_i c old hpc
      split
      · exact move _ t _ rfl rfl rfl (fun c' => by rw [hpc])
      · exact move _ t _ rfl rfl rfl (fun c' => by rw [hpc])
    · exact ⟨h⟩
  | restore t b =>
    simp only [step]
    split
    · rename_i c old r hpc
      split
      · exact move _ t _ rfl rfl rfl (fun c' => by rw [hpc]; cases r <;> rfl)
      · exact move _ t _ rfl rfl rfl (fun c' => by rw [hpc]; cases r <;> rfl)
    · exact ⟨h⟩
  | write t b =>
    simp only [step]
    split
    · rename_i c old hpc
      split
      · refine ⟨fun e => ?_⟩
        have he := h e
        simp only [List.map_append, List.map_cons, List.map_nil, List.count_append, List.count_singleton]
        rw [he]
        obtain ⟨e1, e2⟩ := e
        by_cases hj : e1 = t
        · subst hj
          simp only [setPc, if_true, hpc]
          by_cases hc : c = e2
          · simp [hc]
          · simp [hc]
        · have hj' : ¬ t = e1 := fun e => hj e.symm
          simp [setPc, hj, hj']
      · exact move _ t _ rfl rfl rfl (fun c' => by rw [hpc])
    · exact ⟨h⟩
  | unlock t =>
    simp only [step]
    split
    · rename_i c r hpc
      refine ⟨fun e => ?_⟩
      have he := h e
      simp only [setPc]
      rw [he]
      obtain ⟨e1, e2⟩ := e
      cases r with
      | false =>
        simp only [List.filter_append, List.filter_cons, Bool.false_eq_true, if_false, List.filter_nil, List.append_nil]
        by_cases hj : e1 = t
        · subst hj; simp [hpc]
        · simp [hj]
      | true =>
        simp only [List.filter_append, List.filter_cons, if_true, List.filter_nil, List.countP_append, List.countP_singleton]
        by_cases hj : e1 = t
        · subst hj
          by_cases hc : c = e2
          · simp [hpc, hc]
          · simp [hpc, hc]
        · have hj' : ¬ t = e1 := fun e => hj e.symm
          simp [hj, hj']
    · exact ⟨h⟩

/-- C40: a call that returned without error has sent its datagram exactly once, a call that returned an error has not:
when all is quiet, the datagrams a goroutine sent are as many as its successful calls, call by call. -/
theorem C40_once (o : Int) (l : List Step) (hq : ∀ t, ((run (init o) l).pc t).inside = false) (t : Nat) (c : Call) :
    ((run (init o) l).sent.map (fun x => (x.1, x.2.1))).count (t, c) = (run (init o) l).rets.count (t, c, true) := by
  have hacc : ∀ (l : List Step) (s : State), Acc s → Acc (run s l) := by
    intro l
    induction l with
    | nil => exact fun s h => h
    | cons x l ih => exact fun s h => ih _ (acc_step s h x)
  have h := (hacc l (init o) ⟨fun e => by simp [init]⟩).acc (t, c)
  rw [h]
  have hz : (match (run (init o) l).pc t with
        | .wrote d _ true => if d = c then 1 else 0
        | .done d true => if d = c then 1 else 0
        | _ => 0 : Nat) = 0 := by
    have := hq t
    cases hp : (run (init o) l).pc t <;> simp_all [Pc.inside]
  simp only [hz, Nat.add_zero]
  rw [List.countP_filter, List.count]
  apply List.countP_congr
  rintro ⟨a, b, r⟩ _
  cases r <;> simp

/-- two writers, interleaved as far as the lock permits; the second cannot enter while the first is inside -/
example : (run (init 0) [.call 1 ⟨[1], "a", 46⟩, .call 2 ⟨[2], "b", 10⟩, .lock 1, .get 1 true, .set 1 true, .lock 2, .get 2 true,
      .set 2 true, .write 2 true, .write 1 true, .restore 1 true, .unlock 1, .lock 2, .get 2 true, .set 2 true,
      .write 2 true, .restore 2 true, .unlock 2]).sent =
    [(1, ⟨[1], "a", 46⟩, 46), (2, ⟨[2], "b", 10⟩, 10)] := by decide +kernel

end Verif.V1.Dscp

namespace Verif.V1.URead
/-! ### cases that meet the hypotheses -/

example := C38_read [.offer ⟨"a", 1, 0, [1, 2, 3]⟩, .offer ⟨"b", 2, 0, [4]⟩, .read [0, 0] 1, .read [0, 0] 0]
  (some ⟨"a", 1, 0, [1, 2, 3]⟩) ⟨2, [1, 2], some "a", 1⟩ (by decide +kernel)
end Verif.V1.URead

namespace Verif.V1.Dscp

/-- two overlapping calls, each with its own value -/
def exCalls : List Step := [.call 1 ⟨[1], "a", 46⟩, .call 2 ⟨[2], "b", 10⟩, .lock 1, .get 1 true, .set 1 true, .lock 2,
  .write 1 true, .restore 1 true, .unlock 1, .lock 2, .get 2 true, .set 2 true, .write 2 true, .restore 2 true, .unlock 2]
theorem exCalls_idle (t : Nat) : ((run (init 0) exCalls).pc t).inside = false := by
  have h : (run (init 0) exCalls).owner = none := by decide +kernel
  have e := (inv_run 0 exCalls _ (inv_init 0)).excl t
  rw [h] at e
  simpa using e
example := C40_own_value 0 exCalls 2 ⟨[2], "b", 10⟩ 10 (by decide +kernel)
example := C40_restored 0 exCalls (by decide +kernel) exCalls_idle
example := C40_once 0 exCalls exCalls_idle 2 ⟨[2], "b", 10⟩
end Verif.V1.Dscp
