import Verif.Model.Exchange
import Verif.Props.V2Send
import Verif.Props.V2Queue
/-
C83: a goroutine that waits for the answer to its request gets that answer and no other (gtpv2/conn.go, session.go).
-/
namespace Verif.V2.Exchange
open Res Spec Send

/-- the steps of the requesting Conn among those of the whole system -/
def own : List Step → List Send.Step := List.filterMap fun | .a x => some x | _ => none

/-- the numbers that calls of SendMessageTo returned with a nil error, in the order in which the datagrams left -/
def numbers (s : State) : List UInt32 := s.a.rets.filterMap fun r => match r.2 with | .ok q => some q | .err _ => none

theorem sent_step (g : UInt8 → Bool) (s : Send.State) (x : Send.Step) : s.sent <+: (Send.step g s x).sent := by
  cases x <;> simp only [Send.step] <;> repeat' split
  all_goals first | exact List.prefix_rfl | exact List.prefix_append _ _

theorem parse_seq {g : UInt8 → Bool} {b : Bytes} {m : Message} (h : parseMsg g b = ok m) :
    seqField b = be24 m.hdr.sequence ∧ m.hdr.sequence.toNat < 2 ^ 24 := by
  refine ⟨?_, ?_⟩
  · obtain ⟨_, ⟨tail, ht⟩, _⟩ := C12_dispatch_faithful g b m h
    rw [ht, seqField_encH]; rfl
  · obtain ⟨t, ht', hp, hs, _⟩ := parseMsg_ok g h
    obtain ⟨_, _, _, h, _⟩ := (C10_parse_total_faithful b).2 _ hp
    exact h

theorem answered_ok {g : UInt8 → Bool} {b : Bytes} {r : Message} {out : Bytes} (h : answered g b r = some out) :
    ∃ received m', parseMsg g b = ok received ∧ marshalMsg g (setSeq r received.hdr.sequence) = ok (m', out) := by
  unfold answered at h
  split at h
  · rename_i received hp
    split at h
    · rename_i m' o hm
      simp only [Option.some.injEq] at h; subst h
      exact ⟨received, m', hp, hm⟩
    · cases h
  · cases h

theorem answered_seq {g : UInt8 → Bool} {b : Bytes} {r : Message} {out : Bytes} (h : answered g b r = some out) :
    seqField out = seqField b := by
  obtain ⟨received, m', hp, hm⟩ := answered_ok h
  rw [marshal_seqField g _ _ _ hm, (parse_seq hp).1]; rfl

structure Inv (g : UInt8 → Bool) (n : UInt32) (l : List Step) (s : State) : Prop where
  a : s.a = Send.run g (Send.init n) (own l)
  answers : ∀ e ∈ s.answers, ∃ d, s.a.sent[e.1]? = some d ∧ answered g d.2.2 e.2.1 = some e.2.2
  q : ∀ k, ∃ ql, s.q k = Queue.run Queue.init ql
  passed : ∀ k, ∀ m ∈ (s.q k).passed, ∃ e ∈ s.answers, parseMsg g e.2.2 = ok m

theorem passed_step (s : Queue.State) (x : Queue.Step) (h : ∀ m, x ≠ .pass m) : (Queue.step s x).passed = s.passed := by
  cases x with
  | pass m => exact absurd rfl (h m)
  | wait q => simp only [Queue.step]; repeat' split
              all_goals rfl
  | _ => rfl

theorem passed_pass (s : Queue.State) (m : Message) :
    ∀ x ∈ (Queue.step s (.pass m)).passed, x ∈ s.passed ∨ x = m := by
  intro x hx
  simp only [Queue.step] at hx
  split at hx
  · simpa using hx
  · exact Or.inl hx

theorem queue_upd (q : Nat → Queue.State) (k : Nat) (x : Queue.Step)
    (h : ∀ k, ∃ ql, q k = Queue.run Queue.init ql) : ∀ k', ∃ ql, upd q k x k' = Queue.run Queue.init ql := by
  intro k'
  unfold upd
  split
  · obtain ⟨ql, e⟩ := h k
    exact ⟨ql ++ [x], by rw [e]; simp [Queue.run]⟩
  · exact h k'

theorem passed_upd (q : Nat → Queue.State) (k : Nat) (x : Queue.Step) (h : ∀ m, x ≠ .pass m) (k' : Nat) :
    (upd q k x k').passed = (q k').passed := by
  unfold upd
  split
  · rename_i e; rw [passed_step _ _ h, e]
  · rfl

theorem inv_step {g : UInt8 → Bool} {n : UInt32} {l : List Step} {s : State} (h : Inv g n l s) (x : Step) :
    Inv g n (l ++ [x]) (step g s x) := by
  have keep : ∀ x, (∀ y, x ≠ Step.a y) → own (l ++ [x]) = own l := by
    intro x hx
    simp only [own, List.filterMap_append]
    cases x with
    | a y => exact absurd rfl (hx y)
    | _ => simp
  have same : ∀ x, (∀ y, x ≠ Step.a y) → Inv g n (l ++ [x]) s := fun x hx =>
    ⟨by rw [keep x hx]; exact h.a, h.answers, h.q, h.passed⟩
  have quiet : ∀ x k y, (∀ y, x ≠ Step.a y) → (∀ m, y ≠ Queue.Step.pass m) →
      Inv g n (l ++ [x]) { s with q := upd s.q k y } := fun x k y hx hy =>
    ⟨by rw [keep x hx]; exact h.a, h.answers, queue_upd _ _ _ h.q,
      fun k' m hm => h.passed k' m (by rw [← passed_upd s.q k y hy k']; exact hm)⟩
  cases x with
  | a y =>
    refine ⟨?_, ?_, h.q, h.passed⟩
    · show Send.step g s.a y = _
      rw [h.a]
      simp [own, Send.run]
    · intro e he
      obtain ⟨d, hd, ha⟩ := h.answers e he
      obtain ⟨t, ht⟩ := sent_step g s.a y
      refine ⟨d, ?_, ha⟩
      show (Send.step g s.a y).sent[e.1]? = _
      rw [← ht, List.getElem?_append_left (List.getElem?_eq_some_iff.1 hd).1]
      exact hd
  | answer i r =>
    simp only [step]
    split
    · exact same _ (by simp)
    · rename_i d a b hd
      split
      · rename_i out ho
        refine ⟨by rw [keep _ (by simp)]; exact h.a, ?_, h.q, ?_⟩
        · intro e he
          rcases List.mem_append.1 he with he | he
          · exact h.answers e he
          · simp only [List.mem_singleton] at he; subst he
            exact ⟨_, hd, ho⟩
        · intro k m hm
          obtain ⟨e, he, hp⟩ := h.passed k m hm
          exact ⟨e, List.mem_append_left _ he, hp⟩
      · exact same _ (by simp)
  | deliver j k =>
    simp only [step]
    split
    · exact same _ (by simp)
    · rename_i i r out hj
      split
      · rename_i m hm
        refine ⟨by rw [keep _ (by simp)]; exact h.a, h.answers, queue_upd _ _ _ h.q, ?_⟩
        intro k' x hx
        by_cases e : k' = k
        · subst e
          simp only [upd, if_true] at hx
          rcases passed_pass _ _ x hx with hx | rfl
          · exact h.passed _ _ hx
          · exact ⟨_, List.mem_of_getElem? hj, hm⟩
        · simp only [upd, if_neg e] at hx
          exact h.passed _ _ hx
      · exact same _ (by simp)
  | passTimeout k m => exact quiet _ _ _ (by simp) (by simp)
  | wait k m => exact quiet _ _ _ (by simp) (by simp)
  | waitTimeout k m => exact quiet _ _ _ (by simp) (by simp)

theorem inv_run (g : UInt8 → Bool) (n : UInt32) (l : List Step) : Inv g n l (run g (init n) l) := by
  have : ∀ (l' l : List Step) (s : State), Inv g n l s → Inv g n (l ++ l') (run g s l') := by
    intro l'
    induction l' with
    | nil => intro l s h; simpa [run] using h
    | cons x l' ih =>
      intro l s h
      have := ih _ _ (inv_step h x)
      simpa [run] using this
  exact this l [] _ ⟨rfl, by simp [init], fun k => ⟨[], rfl⟩, by simp [init, Queue.init]⟩

/-- what the answer `m` to the request in datagram `i` is: the request went out with the number `w`, which is the one
the call of SendMessageTo that wrote it returned; a node that received it gave RespondTo the message `r`; and `m` is
what the datagram RespondTo wrote parses to -/
def Answers (g : UInt8 → Bool) (s : State) (w : UInt32) (m : Message) (i : Nat) : Prop :=
  ∃ d r m' out, s.a.sent[i]? = some d ∧ (numbers s)[i]? = some w ∧ seqField d.2.2 = be24 w ∧
    (i, r, out) ∈ s.answers ∧ marshalMsg g (setSeq r w) = ok (m', out) ∧ parseMsg g out = ok m

theorem numbers_be24 (g : UInt8 → Bool) (n : UInt32) (sched : List Step) :
    (run g (init n) sched).a.sent.map (fun e => seqField e.2.2) =
      (numbers (run g (init n) sched)).map be24 := by
  have h := inv_run g n sched
  obtain ⟨_, _, h3⟩ := C29_wire g n (own sched)
  rw [← h.a] at h3
  rw [h3, numbers, List.map_filterMap]
  congr 1
  funext r
  rcases r with ⟨t, r⟩
  cases r <;> rfl

theorem inc_le (x : UInt32) : inc x ≤ 0x7fffff := by
  unfold inc
  split
  · decide
  · rename_i h; exact UInt32.not_lt.1 h

theorem draws_le (g : UInt8 → Bool) (n : UInt32) (l : List Send.Step) :
    ∀ x ∈ (Send.run g (Send.init n) l).draws, x ≤ 0x7fffff := by
  have : ∀ (l : List Send.Step) (s : Send.State), (∀ x ∈ s.draws, x ≤ 0x7fffff) →
      ∀ x ∈ (Send.run g s l).draws, x ≤ 0x7fffff := by
    intro l
    induction l with
    | nil => intro s h; exact h
    | cons y l ih =>
      intro s h
      refine ih _ ?_
      have snoc : ∀ x ∈ s.draws ++ [inc s.seq], x ≤ 0x7fffff := by
        intro x hx
        rcases List.mem_append.1 hx with hx | hx
        · exact h x hx
        · simp only [List.mem_singleton] at hx; subst hx; exact inc_le _
      cases y <;> simp only [Send.step] <;> repeat' split
      all_goals first | exact h | exact snoc
  exact this l _ (by simp [Send.init])

/-- C83.  Whatever the goroutines, the peers and the network do, a message returned by a WaitMessage for the number `w`
answers a request that this Conn sent and whose SendMessageTo returned `w`. -/
theorem C83_answers (g : UInt8 → Bool) (n : UInt32) (sched : List Step) (s : State)
    (hs : s = run g (init n) sched) (k : Nat) (w : UInt32) (m : Message)
    (h : (w, Queue.Ret.msg m) ∈ (s.q k).waits) : ∃ i, Answers g s w m i := by
  have hi := inv_run g n sched
  rw [← hs] at hi
  obtain ⟨ql, hq⟩ := hi.q k
  rw [hq] at h
  obtain ⟨h1, h2⟩ := Queue.C36_match _ ql w m h
  rw [← hq] at h2
  obtain ⟨⟨i, r, out⟩, he, hp⟩ := hi.passed k m h2
  obtain ⟨d, hd, ha⟩ := hi.answers _ he
  simp only at hp hd ha
  have hsq : seqField d.2.2 = be24 w := by rw [← answered_seq ha, (parse_seq hp).1, h1]
  have hw24 : w.toNat < 2 ^ 24 := h1 ▸ (parse_seq hp).2
  have hb := numbers_be24 g n sched
  rw [← hs] at hb
  have at_i : ((numbers s).map be24)[i]? = some (be24 w) := by
    rw [← hb, List.getElem?_map, hd]; simp [hsq]
  obtain ⟨received, m', hpr, hm⟩ := answered_ok ha
  have hrw : received.hdr.sequence = w := by
    have := (parse_seq hpr).1
    rw [hsq] at this
    exact (be24_inj hw24 (parse_seq hpr).2 this).symm
  rw [hrw] at hm
  have small : ∀ x ∈ numbers s, x.toNat < 2 ^ 24 := by
    intro x hx
    have hwr := (wire_run g n (own sched)).rets
    have hle := draws_le g n (own sched)
    rw [← hi.a] at hwr hle
    have : some x ∈ s.a.sent.map (fun e => s.a.draws[e.1]?) := by
      rw [hwr]; exact List.mem_map_of_mem hx
    obtain ⟨e, _, he⟩ := List.mem_map.1 this
    have := UInt32.le_iff_toNat_le.1 (hle x (List.mem_of_getElem? he))
    have e : (0x7fffff : UInt32).toNat = 0x7fffff := rfl
    simp only [Nat.reducePow]; omega
  have ni : (numbers s)[i]? = some w := by
    rw [List.getElem?_map] at at_i
    cases hx : (numbers s)[i]? with
    | none => rw [hx] at at_i; cases at_i
    | some x =>
      rw [hx] at at_i
      simp only [Option.map_some, Option.some.injEq] at at_i
      rw [be24_inj (small x (List.mem_of_getElem? hx)) hw24 at_i]
  exact ⟨i, d, r, m', out, hd, ni, hsq, he, hm, hp⟩

/-- C83, the part that holds: if no SendMessageTo failed and at most 2^23 numbers were drawn, there is only one call of
SendMessageTo that returned `w`, so a message returned by a WaitMessage for `w` answers the request of that call and no
other.
Missing: failed sends (their numbers may be drawn again, `C30_collision`, `C83_stolen`), and that the waiter gets the answer
at all: see `C83_delivered_partial`, `C83_late` and `C83_duplicate`. -/
theorem C83_own_partial (g : UInt8 → Bool) (n : UInt32) (hn : n ≤ 0x7fffff) (sched : List Step) (s : State)
    (hs : s = run g (init n) sched) (hok : ∀ t q, (t, Ret.err q) ∉ s.a.rets) (hfew : s.a.draws.length ≤ 2 ^ 23)
    (k : Nat) (w : UInt32) (m : Message) (h : (w, Queue.Ret.msg m) ∈ (s.q k).waits) :
    ∃ i, Answers g s w m i ∧ ∀ i', (numbers s)[i']? = some w → i' = i := by
  obtain ⟨i, d, r, m', out, hd, ni, hrest⟩ := C83_answers g n sched s hs k w m h
  refine ⟨i, ⟨d, r, m', out, hd, ni, hrest⟩, ?_⟩
  have hi := inv_run g n sched
  rw [← hs] at hi
  have hb := numbers_be24 g n sched
  rw [← hs] at hb
  have hnd := C29_datagrams_distinct g n hn (own sched) (by rw [← hi.a]; exact hok) (by rw [← hi.a]; exact hfew)
  rw [← hi.a, hb] at hnd
  have at' : ∀ i' : Nat, (numbers s)[i']? = some w → ((numbers s).map be24)[i']? = some (be24 w) := by
    intro i' hi'; rw [List.getElem?_map, hi']; rfl
  intro i' hi'
  exact (List.getElem?_inj (List.getElem?_eq_some_iff.1 (at' i' hi')).1 hnd).1 ((at' i' hi').trans (at' i ni).symm)

/-! ### whether the waiter gets the answer -/

/-- the message the j-th answer parses to -/
def Arrives (g : UInt8 → Bool) (s : State) (j : Nat) (m : Message) : Prop :=
  ∃ e, s.answers[j]? = some e ∧ parseMsg g e.2.2 = ok m

/-- an answer to the last request of a session arrives and the requester takes it, over and over -/
def rounds (k : Nat) (l : List (Nat × Message)) : List Step :=
  l.flatMap fun e => [.deliver e.1 k, .wait k e.2.hdr.sequence]

theorem deliver_eq {g : UInt8 → Bool} {s : State} {j : Nat} {m : Message} (h : Arrives g s j m) (k : Nat) :
    step g s (.deliver j k) = { s with q := upd s.q k (.pass m) } := by
  obtain ⟨⟨i, r, out⟩, h1, h2⟩ := h
  simp only [step, h1]
  simp only at h2
  rw [h2]

theorem deliver_queue {g : UInt8 → Bool} {s : State} {j : Nat} {m : Message} (h : Arrives g s j m) (k : Nat)
    (hl : (s.q k).queue.length < (s.q k).cap) :
    (step g s (.deliver j k)).q k = { s.q k with queue := (s.q k).queue ++ [m], passed := (s.q k).passed ++ [m] } := by
  rw [deliver_eq h]
  simp only [upd, if_true, Queue.step, if_pos hl]

theorem wait_queue {s : State} (g : UInt8 → Bool) (k : Nat) (w : UInt32) (m : Message) (r : List Message)
    (h : (s.q k).queue = m :: r) :
    ((step g s (.wait k w)).q k).queue = r ∧ ((step g s (.wait k w)).q k).cap = (s.q k).cap ∧
    ((step g s (.wait k w)).q k).waits = (s.q k).waits ++
      [(w, if m.hdr.sequence = w then .msg m else .invalidSequence m.hdr.sequence)] := by
  simp only [step, upd, if_true, Queue.step, h]
  by_cases e : m.hdr.sequence = w
  · simp [e]
  · simp [e]

theorem answers_step (g : UInt8 → Bool) (s : State) (j k : Nat) (w : UInt32) :
    (step g (step g s (.deliver j k)) (.wait k w)).answers = s.answers := by
  simp only [step]
  repeat' split
  all_goals rfl

/-- one round: an answer arrives while the queue of the session holds the messages `l` -/
theorem round {g : UInt8 → Bool} {s : State} {j : Nat} {m x : Message} {l : List Message} (h : Arrives g s j m) (k : Nat)
    (w : UInt32) (hl : (s.q k).queue.length < (s.q k).cap) (hx : (s.q k).queue ++ [m] = x :: l) :
    let s' := step g (step g s (.deliver j k)) (.wait k w)
    (s'.q k).queue = l ∧ (s'.q k).cap = (s.q k).cap ∧ s'.answers = s.answers ∧
    (s'.q k).waits = (s.q k).waits ++ [(w, if x.hdr.sequence = w then .msg x else .invalidSequence x.hdr.sequence)] := by
  intro s'
  have hq := deliver_queue h k hl
  obtain ⟨h1, h2, h3⟩ := wait_queue (s := step g s (.deliver j k)) g k w x l (by rw [hq]; exact hx)
  refine ⟨h1, by rw [h2, hq], answers_step g s j k w, by rw [h3, hq]⟩

theorem rounds_cons (g : UInt8 → Bool) (s : State) (k : Nat) (e : Nat × Message) (l : List (Nat × Message)) :
    run g s (rounds k (e :: l)) = run g (step g (step g s (.deliver e.1 k)) (.wait k e.2.hdr.sequence)) (rounds k l) := rfl

/-- C83, the answer reaches the waiter, the part that holds: if nothing is left over in the session and every answer is
handed over once, before the next request's, each waiter gets the answer to its request.
Missing: answers that come late or twice, see `C83_late` and `C83_duplicate`. -/
theorem C83_delivered_partial (g : UInt8 → Bool) (s : State) (k : Nat) (l : List (Nat × Message))
    (hl : ∀ e ∈ l, Arrives g s e.1 e.2) (hc : 0 < (s.q k).cap) (hq : (s.q k).queue = []) :
    ((run g s (rounds k l)).q k).waits = (s.q k).waits ++ l.map (fun e => (e.2.hdr.sequence, .msg e.2)) ∧
    ((run g s (rounds k l)).q k).queue = [] := by
  induction l generalizing s with
  | nil => simp [rounds, run, hq]
  | cons e l ih =>
    obtain ⟨h1, h2, h3, h4⟩ := round (hl e (by simp)) k e.2.hdr.sequence (x := e.2) (l := [])
      (by rw [hq]; exact hc) (by rw [hq]; rfl)
    rw [rounds_cons]
    obtain ⟨i1, i2⟩ := ih _ (fun e' he' => by
      obtain ⟨a, ha⟩ := hl e' (by simp [he'])
      exact ⟨a, by rw [h3]; exact ha.1, ha.2⟩) (by rw [h2]; exact hc) h1
    refine ⟨?_, i2⟩
    rw [i1, h4]
    simp

/-- neighbours in the list have different numbers -/
def Changing : Message → List (Nat × Message) → Prop
  | _, [] => True
  | x, e :: l => x.hdr.sequence ≠ e.2.hdr.sequence ∧ Changing e.2 l

/-- C83 fails for good once a message is left over in a session: from then on, in every exchange, although the answer
is there before the requester waits, WaitMessage returns InvalidSequenceError with the number of the exchange before, and
the answer is left over for the next one. -/
theorem C83_leftover (g : UInt8 → Bool) (s : State) (k : Nat) (x : Message) (l : List (Nat × Message))
    (hl : ∀ e ∈ l, Arrives g s e.1 e.2) (hc : 1 < (s.q k).cap) (hq : (s.q k).queue = [x]) (hd : Changing x l) :
    ((run g s (rounds k l)).q k).waits = (s.q k).waits ++
      (l.zip (x :: l.map Prod.snd)).map (fun e => (e.1.2.hdr.sequence, .invalidSequence e.2.hdr.sequence)) ∧
    ((run g s (rounds k l)).q k).queue.length = 1 := by
  induction l generalizing s x with
  | nil => simp [rounds, run, hq]
  | cons e l ih =>
    obtain ⟨h1, h2, h3, h4⟩ := round (hl e (by simp)) k e.2.hdr.sequence (x := x) (l := [e.2])
      (by rw [hq]; exact hc) (by rw [hq]; rfl)
    rw [rounds_cons]
    obtain ⟨i1, i2⟩ := ih _ e.2 (fun e' he' => by
      obtain ⟨a, ha⟩ := hl e' (by simp [he'])
      exact ⟨a, by rw [h3]; exact ha.1, ha.2⟩) (by rw [h2]; exact hc) h1 hd.2
    refine ⟨?_, i2⟩
    rw [i1, h4, if_neg hd.1]
    simp

/-- C83 fails when the network duplicates one answer: the requester gets its answer, and every later exchange in the
session fails. -/
theorem C83_duplicate (g : UInt8 → Bool) (s : State) (k j : Nat) (m : Message) (l : List (Nat × Message))
    (hm : Arrives g s j m) (hl : ∀ e ∈ l, Arrives g s e.1 e.2) (hc : 1 < (s.q k).cap) (hq : (s.q k).queue = [])
    (hd : Changing m l) :
    ((run g s (.deliver j k :: rounds k ((j, m) :: l))).q k).waits = (s.q k).waits ++ (m.hdr.sequence, .msg m) ::
      (l.zip (m :: l.map Prod.snd)).map (fun e => (e.1.2.hdr.sequence, .invalidSequence e.2.hdr.sequence)) := by
  have hq1 := deliver_queue hm k (by rw [hq]; exact Nat.lt_trans Nat.one_pos hc)
  have ha1 : (step g s (.deliver j k)).answers = s.answers := by rw [deliver_eq hm]
  have keep : ∀ {s' : State}, s'.answers = s.answers → ∀ {j m}, Arrives g s j m → Arrives g s' j m := by
    rintro s' e j m ⟨a, h1, h2⟩
    exact ⟨a, by rw [e]; exact h1, h2⟩
  obtain ⟨h1, h2, h3, h4⟩ := round (keep ha1 hm) k m.hdr.sequence (x := m) (l := [m])
    (by rw [hq1, hq]; exact hc) (by rw [hq1, hq]; rfl)
  show ((run g (step g s (.deliver j k)) (rounds k ((j, m) :: l))).q k).waits = _
  rw [rounds_cons]
  obtain ⟨i1, _⟩ := C83_leftover g _ k m l (fun e he => keep (h3.trans ha1) (hl e he))
    (by rw [h2, hq1]; exact hc) h1 hd
  rw [i1, h4, hq1]
  simp

/-- C83 fails when one answer comes after its requester gave up waiting: every later exchange in the session fails. -/
theorem C83_late (g : UInt8 → Bool) (s : State) (k j : Nat) (m : Message) (l : List (Nat × Message))
    (hm : Arrives g s j m) (hl : ∀ e ∈ l, Arrives g s e.1 e.2) (hc : 1 < (s.q k).cap) (hq : (s.q k).queue = [])
    (hd : Changing m l) :
    ((run g s (.waitTimeout k m.hdr.sequence :: .deliver j k :: rounds k l)).q k).waits =
      (s.q k).waits ++ (m.hdr.sequence, .timeout) ::
      (l.zip (m :: l.map Prod.snd)).map (fun e => (e.1.2.hdr.sequence, .invalidSequence e.2.hdr.sequence)) := by
  have e0 : (step g s (.waitTimeout k m.hdr.sequence)).q k =
      { s.q k with waits := (s.q k).waits ++ [(m.hdr.sequence, .timeout)] } := by
    simp only [step, upd, if_true, Queue.step]
  have keep : ∀ {s' : State}, s'.answers = s.answers → ∀ {j m}, Arrives g s j m → Arrives g s' j m := by
    rintro s' e j m ⟨a, h1, h2⟩
    exact ⟨a, by rw [e]; exact h1, h2⟩
  have hm0 : Arrives g (step g s (.waitTimeout k m.hdr.sequence)) j m := keep rfl hm
  have hq1 := deliver_queue hm0 k (by rw [e0]; simp only [hq]; exact Nat.lt_trans Nat.one_pos hc)
  have ha1 := congrArg State.answers (deliver_eq hm0 k)
  show ((run g (step g (step g s (.waitTimeout k m.hdr.sequence)) (.deliver j k)) (rounds k l)).q k).waits = _
  obtain ⟨i1, _⟩ := C83_leftover g _ k m l (fun e he => keep ha1 (hl e he))
    (by rw [hq1, e0]; exact hc) (by rw [hq1, e0, hq]; rfl) hd
  rw [i1, hq1, e0]
  simp

/-- what a waiter got, by numbers -/
def _root_.Verif.V2.Queue.Ret.num : Queue.Ret → Option UInt32
  | .msg m => some m.hdr.sequence
  | _ => none

/-- two requests overtake each other on the way out; the answer to the first reaches its requester first -/
example : ((run defaultGrouped (init 0x7ffffe) [.a (.send 0 exEcho "p"), .a (.send 1 exEcho "p"), .a (.marshal 1),
      .a (.write 1 true), .a (.marshal 0), .a (.write 0 true), .answer 1 exEcho, .answer 0 exEcho,
      .deliver 1 7, .deliver 0 5, .wait 7 0, .wait 5 0x7fffff]).q 5).waits.map
        (fun e => (e.1, e.2.num)) = [(0x7fffff, some 0x7fffff)] := by decide +kernel

/-- C83 fails after a failed send that overlapped another: two requests went out with the number 2, one was
answered, and whoever waits for 2 is given that answer, whichever of the two requests it sent. -/
theorem C83_stolen :
    ∃ sched, let s := run defaultGrouped (init 0) sched
      numbers s = [2, 2] ∧ s.answers.map Prod.fst = [0] ∧ (s.q 1).waits.map (fun e => (e.1, e.2.num)) = [(2, some 2)] :=
  ⟨[.a (.send 0 exEcho "p"), .a (.send 1 exEcho "p"), .a (.marshal 1), .a (.write 1 true), .a (.marshal 0),
    .a (.write 0 false), .a (.rollback 0), .a (.send 2 exEcho "p"), .a (.marshal 2), .a (.write 2 true),
    .answer 0 exEcho, .deliver 0 1, .wait 1 2], by decide +kernel⟩

/-- one duplicated answer and two more exchanges -/
example : ((run defaultGrouped { init 3 with answers := [(0, exEcho, [0x40, 1, 0, 9, 0, 0, 1, 0, 3, 0, 1, 0, 7]),
        (1, exEcho, [0x40, 1, 0, 9, 0, 0, 2, 0, 3, 0, 1, 0, 7]), (2, exEcho, [0x40, 1, 0, 9, 0, 0, 3, 0, 3, 0, 1, 0, 7])] }
      [.deliver 0 4, .deliver 0 4, .wait 4 1, .deliver 1 4, .wait 4 2, .deliver 2 4, .wait 4 3]).q 4).waits.map
        (fun e => (e.1, e.2.took, e.2.num)) = [(1, some 1, some 1), (2, some 1, none), (3, some 2, none)] := by decide +kernel

end Verif.V2.Exchange

namespace Verif.V2.Exchange
open Res Spec Send
/-! ### cases that meet the hypotheses: two requests that overtake each other, their answers, and three answers that arrive -/

def exRunSteps : List Step := [.a (.send 0 exEcho "p"), .a (.send 1 exEcho "p"), .a (.marshal 1),
  .a (.write 1 true), .a (.marshal 0), .a (.write 0 true), .answer 1 exEcho, .answer 0 exEcho, .deliver 1 7, .deliver 0 5, .wait 7 0,
  .wait 5 0x7fffff]
def exRun : State := run defaultGrouped (init 0x7ffffe) exRunSteps
theorem exRun_nums : (exRun.q 5).waits.map (fun e => (e.1, e.2.num)) = [(0x7fffff, some 0x7fffff)] := by decide +kernel
theorem exRun_waits : ∃ m, (exRun.q 5).waits = [(0x7fffff, .msg m)] := by
  have h := exRun_nums
  generalize (exRun.q 5).waits = l at h
  rcases l with _ | ⟨⟨w, r⟩, _ | ⟨y, l⟩⟩
  · simp at h
  · simp only [List.map_cons, List.map_nil, List.cons.injEq, Prod.mk.injEq, and_true] at h
    obtain ⟨rfl, h⟩ := h
    cases r with
    | msg m => exact ⟨m, rfl⟩
    | _ => simp [Queue.Ret.num] at h
  · simp at h
example : ∃ m i, Answers defaultGrouped exRun 0x7fffff m i :=
  have ⟨m, h⟩ := exRun_waits
  have ⟨i, hi⟩ := C83_answers defaultGrouped 0x7ffffe exRunSteps exRun rfl 5 0x7fffff m (by rw [h]; exact .head _)
  ⟨m, i, hi⟩
theorem exRun_rets : exRun.a.rets = [(1, .ok 0), (0, .ok 0x7fffff)] := by decide +kernel
example : ∃ m i, Answers defaultGrouped exRun 0x7fffff m i ∧ ∀ i', (numbers exRun)[i']? = some 0x7fffff → i' = i :=
  have ⟨m, h⟩ := exRun_waits
  have ⟨i, hi⟩ := C83_own_partial defaultGrouped 0x7ffffe (by decide) exRunSteps exRun rfl (by intro t q; rw [exRun_rets]; simp) (by decide +kernel) 5 0x7fffff m
    (by rw [h]; exact .head _)
  ⟨m, i, hi⟩

def exThree : State := { init 3 with answers := [(0, exEcho, [0x40, 1, 0, 9, 0, 0, 1, 0, 3, 0, 1, 0, 7]),
  (1, exEcho, [0x40, 1, 0, 9, 0, 0, 2, 0, 3, 0, 1, 0, 7]), (2, exEcho, [0x40, 1, 0, 9, 0, 0, 3, 0, 3, 0, 1, 0, 7])] }
def exAns (n : UInt8) : Message := match parseMsg defaultGrouped [0x40, 1, 0, 9, 0, 0, n, 0, 3, 0, 1, 0, 7] with | ok m => m | _ => exEcho
theorem exAns_parse : ∀ n ∈ [(1 : UInt8), 2, 3], parseMsg defaultGrouped [0x40, 1, 0, 9, 0, 0, n, 0, 3, 0, 1, 0, 7] = ok (exAns n) := by
  intro n hn
  have h : ∀ n ∈ [(1 : UInt8), 2, 3], (match parseMsg defaultGrouped [0x40, 1, 0, 9, 0, 0, n, 0, 3, 0, 1, 0, 7] with
    | ok _ => true | _ => false) = true := by decide +kernel
  have := h n hn
  unfold exAns
  split at this
  · next e => rw [e]
  · cases this
theorem exThree_first : Arrives defaultGrouped exThree 0 (exAns 1) := ⟨_, rfl, exAns_parse 1 (by simp)⟩
theorem exThree_arrives : ∀ e ∈ [(1, exAns 2), (2, exAns 3)], Arrives defaultGrouped exThree e.1 e.2 := by
  intro e he
  simp only [List.mem_cons, List.not_mem_nil, or_false] at he
  rcases he with rfl | rfl
  · exact ⟨_, rfl, exAns_parse 2 (by simp)⟩
  · exact ⟨_, rfl, exAns_parse 3 (by simp)⟩
theorem exThree_changing : Changing (exAns 1) [(1, exAns 2), (2, exAns 3)] :=
  ⟨by decide +kernel, by show (exAns 2).hdr.sequence ≠ (exAns 3).hdr.sequence; decide +kernel, trivial⟩
example := C83_delivered_partial defaultGrouped exThree 4 _ exThree_arrives (by decide) rfl
example := C83_leftover defaultGrouped { exThree with q := fun _ => { Queue.init with queue := [exAns 1] } } 4 (exAns 1) [(1, exAns 2), (2, exAns 3)]
  exThree_arrives (by decide) rfl exThree_changing
example := C83_duplicate defaultGrouped exThree 4 0 (exAns 1) _ exThree_first exThree_arrives (by decide) rfl exThree_changing
example := C83_late defaultGrouped exThree 4 0 (exAns 1) _ exThree_first exThree_arrives (by decide) rfl exThree_changing
end Verif.V2.Exchange
