import Verif.Model.V2Queue
import Verif.Props.V2Send
/-
C36: the message queue of a session (gtpv2/session.go).
-/
namespace Verif.V2.Queue

/-- the sequence number of the message a wait took off the queue -/
def Ret.took : Ret → Option UInt32
  | .msg m => some m.hdr.sequence
  | .invalidSequence n => some n
  | .timeout => none

/-- Every message that was passed is either still queued, or was taken by exactly one call of WaitMessage; calls take
the messages in the order passed.  `taken` are the messages taken, each with the number its waiter asked for. -/
structure Inv (s : State) where
  taken : List (UInt32 × Message)
  fifo : s.passed = taken.map Prod.snd ++ s.queue
  waits : s.waits.filter (fun e => match e.2 with | .timeout => false | _ => true) =
    taken.map (fun e => (e.1, if e.2.hdr.sequence = e.1 then Ret.msg e.2 else Ret.invalidSequence e.2.hdr.sequence))
  bound : s.queue.length ≤ s.cap

def inv_init (cap : Nat) : Inv (init cap) := ⟨[], rfl, rfl, Nat.zero_le _⟩

theorem inv_step (s : State) (h : Nonempty (Inv s)) (x : Step) : Nonempty (Inv (step s x)) := by
  obtain ⟨taken, fifo, waits, bound⟩ := h
  cases x with
  | pass m =>
    simp only [step]
    split
    · rename_i hl
      exact ⟨⟨taken, by simp [fifo], waits, by simp; omega⟩⟩
    · exact ⟨⟨taken, fifo, waits, bound⟩⟩
  | passTimeout m => exact ⟨⟨taken, fifo, waits, bound⟩⟩
  | waitTimeout q => exact ⟨⟨taken, fifo, by simp [step, List.filter_append, waits], bound⟩⟩
  | wait q =>
    simp only [step]
    split
    · exact ⟨⟨taken, fifo, waits, bound⟩⟩
    · rename_i m l hq
      rw [hq] at fifo bound
      have hb : l.length ≤ s.cap := by simp at bound; omega
      split
      · rename_i hne
        exact ⟨⟨taken ++ [(q, m)], by simp [fifo], by simp [List.filter_append, waits, if_neg hne], hb⟩⟩
      · rename_i he
        have he := Classical.not_not.1 he
        exact ⟨⟨taken ++ [(q, m)], by simp [fifo], by simp [List.filter_append, waits, he], hb⟩⟩

theorem inv_run (s : State) (h : Nonempty (Inv s)) (l : List Step) : Nonempty (Inv (run s l)) := by
  induction l generalizing s with
  | nil => exact h
  | cons x l ih => exact ih _ (inv_step s h x)

theorem filterMap_filter {α β} (f : α → Option β) (p : α → Bool) (h : ∀ x, p x = false → f x = none) (l : List α) :
    (l.filter p).filterMap f = l.filterMap f := by
  induction l with
  | nil => rfl
  | cons x l ih =>
    cases hp : p x with
    | true => rw [List.filter_cons_of_pos hp, List.filterMap_cons, List.filterMap_cons, ih]
    | false => rw [List.filter_cons_of_neg (by simp [hp]), ih, List.filterMap_cons_none (h x hp)]

/-- C36, order and exact accounting, for every interleaving: the messages passed are, in order, those taken by waiters
followed by those still queued; every waiter that took one either returned it, its number being the one asked for, or
returned InvalidSequenceError with the number of the message. -/
theorem C36_accounting (cap : Nat) (sched : List Step) (s : State) (hs : s = run (init cap) sched) :
    ∃ taken : List (UInt32 × Message),
      s.passed = taken.map Prod.snd ++ s.queue ∧
      s.waits.filter (fun e => match e.2 with | .timeout => false | _ => true) =
        taken.map (fun e => (e.1, if e.2.hdr.sequence = e.1 then Ret.msg e.2 else Ret.invalidSequence e.2.hdr.sequence)) ∧
      delivered s = (taken.filter (fun e => e.2.hdr.sequence == e.1)).map Prod.snd := by
  obtain ⟨i⟩ := inv_run _ ⟨inv_init cap⟩ sched
  rw [← hs] at i
  refine ⟨i.taken, i.fifo, i.waits, ?_⟩
  unfold delivered
  rw [← filterMap_filter _ (fun e => match e.2 with | .timeout => false | _ => true) (by
    rintro ⟨q, r⟩ h; cases r <;> simp_all), i.waits]
  generalize i.taken = l
  induction l with
  | nil => rfl
  | cons e l ih =>
    obtain ⟨q, m⟩ := e
    by_cases h : m.hdr.sequence = q
    · simp [h, ih]
    · simp [h, ih]

/-- C36: a message that WaitMessage returns carries the number asked for, and was passed to the session. -/
theorem C36_match (cap : Nat) (sched : List Step) (q : UInt32) (m : Message)
    (h : (q, Ret.msg m) ∈ (run (init cap) sched).waits) :
    m.hdr.sequence = q ∧ m ∈ (run (init cap) sched).passed := by
  obtain ⟨taken, h1, h2, _⟩ := C36_accounting cap sched _ rfl
  have : (q, Ret.msg m) ∈ (run (init cap) sched).waits.filter (fun e => match e.2 with | .timeout => false | _ => true) :=
    List.mem_filter.2 ⟨h, rfl⟩
  rw [h2, List.mem_map] at this
  obtain ⟨⟨q', m'⟩, hm, he⟩ := this
  simp only [Prod.mk.injEq] at he
  obtain ⟨rfl, he⟩ := he
  split at he
  · rename_i hq
    simp only [Ret.msg.injEq] at he
    subst he
    exact ⟨hq, by rw [h1]; exact List.mem_append_left _ (List.mem_map.2 ⟨_, hm, rfl⟩)⟩
  · cases he

/-- C36: messages are handed out in the order passed, none twice: those returned form a subsequence of those passed. -/
theorem C36_order (cap : Nat) (sched : List Step) :
    List.Sublist (delivered (run (init cap) sched)) (run (init cap) sched).passed := by
  obtain ⟨taken, h1, _, h3⟩ := C36_accounting cap sched _ rfl
  rw [h1, h3]
  exact (List.filter_sublist.map _).trans (List.sublist_append_left _ _)

/-- C36, no loss, the part that holds: as long as no waiter got InvalidSequenceError, every message passed was returned
to exactly one waiter, in order, or is still queued.  Missing: a waiter who asks for another number loses the message
for everybody, see `C36_loses`. -/
theorem C36_no_loss_partial (cap : Nat) (sched : List Step)
    (h : ∀ q n, (q, Ret.invalidSequence n) ∉ (run (init cap) sched).waits) :
    (run (init cap) sched).passed = delivered (run (init cap) sched) ++ (run (init cap) sched).queue := by
  obtain ⟨taken, h1, h2, h3⟩ := C36_accounting cap sched _ rfl
  rw [h1, h3]
  congr 1
  congr 1
  rw [eq_comm, List.filter_eq_self]
  rintro ⟨q, m⟩ hm
  by_contra hc
  have hne : ¬ m.hdr.sequence = q := by simpa using hc
  refine h q m.hdr.sequence ((List.mem_filter (p := fun e => match e.2 with | .timeout => false | _ => true)).1 ?_).1
  rw [h2, List.mem_map]
  exact ⟨_, hm, by simp [hne]⟩

/-- Queueing never blocks below the capacity and never exceeds it. -/
theorem C36_capacity (cap : Nat) (sched : List Step) (m : Message) :
    (run (init cap) sched).queue.length ≤ cap ∧
    ((run (init cap) sched).queue.length < cap →
      (run (init cap) (sched ++ [.pass m])).passed = (run (init cap) sched).passed ++ [m]) := by
  obtain ⟨i⟩ := inv_run _ ⟨inv_init cap⟩ sched
  have hcap : (run (init cap) sched).cap = cap := by
    have : ∀ (l : List Step) (s : State), (run s l).cap = s.cap := by
      intro l
      induction l with
      | nil => intro s; rfl
      | cons x l ih =>
        intro s
        refine (ih _).trans ?_
        cases x with
        | pass m => simp only [step]; split <;> rfl
        | passTimeout m => rfl
        | waitTimeout q => rfl
        | wait q =>
          simp only [step]; split
          · rfl
          · split <;> rfl
    exact this sched (init cap)
  have := i.bound
  rw [hcap] at this
  refine ⟨this, fun hl => ?_⟩
  have e : run (init cap) (sched ++ [.pass m]) = step (run (init cap) sched) (.pass m) := by simp [run]
  rw [e]
  simp only [step, hcap, if_pos hl]

/-- an Echo Request with the sequence number given -/
def exMsg (n : UInt32) : Message := Send.setSeq Send.exEcho n

/-- C36 fails: two goroutines wait for numbers 1 and 2, the messages arrive in the other order; both waiters get an error,
both messages are gone. -/
theorem C36_loses :
    (run (init 1000) [.pass (exMsg 2), .pass (exMsg 1), .wait 1, .wait 2]).queue.length = 0 ∧
    (run (init 1000) [.pass (exMsg 2), .pass (exMsg 1), .wait 1, .wait 2]).waits.map (fun e => (e.1, e.2.took)) =
      [(1, some 2), (2, some 1)] ∧
    (delivered (run (init 1000) [.pass (exMsg 2), .pass (exMsg 1), .wait 1, .wait 2])).length = 0 := by decide +kernel

example : (delivered (run (init 1000) [.pass (exMsg 2), .pass (exMsg 1), .wait 2, .waitTimeout 7, .wait 1])).map
    (fun m => m.hdr.sequence) = [2, 1] := by decide +kernel

end Verif.V2.Queue

namespace Verif.V2.Queue
/-! ### cases that meet the hypotheses -/

example := C36_accounting 2 [.pass (exMsg 2), .pass (exMsg 1), .wait 1, .wait 1, .waitTimeout 7] _ rfl
example := C36_match 2 [.pass (exMsg 2), .wait 2] 2 (exMsg 2) (by
  have h : (Send.exEcho.hdr.setSequence 2).sequence = 2 := by decide
  simp [run, step, init, exMsg, Send.setSeq, h])
example := C36_no_loss_partial 2 [.pass (exMsg 2), .pass (exMsg 1), .wait 2, .waitTimeout 7] (by
  intro q n
  have h : (Send.exEcho.hdr.setSequence 2).sequence = 2 := by decide
  simp [run, step, init, exMsg, Send.setSeq, h])

end Verif.V2.Queue
