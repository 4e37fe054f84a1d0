import Verif.Model.Alloc
import Mathlib.Data.List.Induction
/-
C32: allocation of local TEIDs.
-/
namespace Verif.Alloc

/-- whether TEID k is in use after the events `l`, if `u` says whether it was in use before: taken by an allocation or a
registration, free again after a removal -/
def inUse (k : UInt32) : List Ev → Bool → Bool
  | [], u => u
  | .alloc _ j :: l, u => inUse k l (u || j == k)
  | .stored j :: l, u => inUse k l (u || j == k)
  | .deleted j :: l, u => inUse k l (u && j != k)
  | .fail _ :: l, u => inUse k l u

theorem inUse_append (k : UInt32) (a b : List Ev) (u : Bool) : inUse k (a ++ b) u = inUse k b (inUse k a u) := by
  induction a generalizing u with
  | nil => rfl
  | cons e a ih => cases e <;> simp [inUse, ih]

/-- bookkeeping: the log describes the table; every allocation was of a free non-zero TEID; loop counters are in range -/
structure Inv {V} (m0 : SyncMap UInt32 V) (s : State V) : Prop where
  table : ∀ k, (s.map.load k).isSome = inUse k s.log (m0.load k).isSome
  alloc : ∀ a t k b, s.log = a ++ .alloc t k :: b → k ≠ 0 ∧ inUse k a (m0.load k).isSome = false
  range : ∀ t n, s.pc t = some n → n < 0xffff

theorem inv_snoc {V} {m0 : SyncMap UInt32 V} {s s' : State V} (h : Inv m0 s) (e : Ev) (hl : s'.log = s.log ++ [e])
    (hn : ∀ t k, e = .alloc t k → k ≠ 0 ∧ (s.map.load k).isSome = false) :
    ∀ a t k b, s'.log = a ++ .alloc t k :: b → k ≠ 0 ∧ inUse k a (m0.load k).isSome = false := by
  intro a t k b hb
  rw [hl] at hb
  rcases List.eq_nil_or_concat b with rfl | ⟨b', x, rfl⟩
  · have := List.append_inj' hb rfl
    simp only [List.cons.injEq, and_true] at this
    obtain ⟨rfl, rfl⟩ := this
    have := hn t k rfl
    rw [h.table k] at this
    exact this
  · rw [List.concat_eq_append, ← List.cons_append, ← List.append_assoc] at hb
    exact h.alloc a t k b' (List.append_inj' hb rfl).1

theorem inv_step {V} (mark : V) (m0 : SyncMap UInt32 V) (s : State V) (x : Step V) (h : Inv m0 s) : Inv m0 (step mark s x) := by
  have hnext : ∀ t n, s.pc t = some n → Inv m0 (next s t n) := by
    intro t n hn
    unfold next
    split
    · rename_i hlt
      refine ⟨h.table, h.alloc, ?_⟩
      intro u k hk
      simp only [setPc] at hk
      split at hk
      · simp only [Option.some.injEq] at hk; omega
      · exact h.range u k hk
    · refine ⟨?_, inv_snoc h (.fail t) rfl (by simp), ?_⟩
      · intro k; rw [h.table k]; simp [inUse_append, inUse]
      · intro u k hk
        simp only [setPc] at hk
        split at hk
        · cases hk
        · exact h.range u k hk
  cases x with
  | start t =>
    simp only [step]; split
    · refine ⟨h.table, h.alloc, ?_⟩
      intro u k hk
      simp only [setPc] at hk
      split at hk
      · simp only [Option.some.injEq] at hk; omega
      · exact h.range u k hk
    · exact h
  | attempt t r =>
    simp only [step]; split
    · exact h
    · rename_i n hn
      split
      · exact hnext t n hn
      · rename_i hr
        split
        · exact hnext t n hn
        · rename_i m hm
          unfold SyncMap.loadOrStore at hm
          split at hm
          · cases hm
          · rename_i hload
            simp only [Prod.mk.injEq, and_true] at hm
            subst hm
            refine ⟨?_, inv_snoc h (.alloc t r) rfl ?_, ?_⟩
            · intro k
              simp only [SyncMap.load_store, inUse_append, inUse, ← h.table k]
              by_cases hk : k = r
              · subst hk; simp
              · have : ¬ r = k := fun e => hk e.symm
                simp [hk, this]
            · intro u k e
              simp only [Ev.alloc.injEq] at e
              obtain ⟨rfl, rfl⟩ := e
              exact ⟨hr, by rw [hload]; rfl⟩
            · intro u k hk
              simp only [setPc] at hk
              split at hk
              · cases hk
              · exact h.range u k hk
  | store k v =>
    refine ⟨?_, inv_snoc h (.stored k) rfl (by simp), h.range⟩
    intro j
    simp only [step, SyncMap.load_store, inUse_append, inUse, ← h.table j]
    by_cases hk : j = k
    · subst hk; simp
    · have : ¬ k = j := fun e => hk e.symm
      simp [hk, this]
  | delete k =>
    refine ⟨?_, inv_snoc h (.deleted k) rfl (by simp), h.range⟩
    intro j
    simp only [step, SyncMap.load_delete, inUse_append, inUse, ← h.table j]
    by_cases hk : j = k
    · subst hk; simp
    · have : ¬ k = j := fun e => hk e.symm
      simp [hk, this]

theorem inv_run {V} (mark : V) (m0 : SyncMap UInt32 V) (s : State V) (h : Inv m0 s) (sched : List (Step V)) :
    Inv m0 (run mark s sched) := by
  induction sched generalizing s with
  | nil => exact h
  | cons x xs ih => exact ih _ (inv_step mark m0 s x h)

/-- nobody is allocating, nothing logged yet -/
def init {V} (m0 : SyncMap UInt32 V) : State V := ⟨m0, fun _ => none, []⟩

theorem inv_init {V} (m0 : SyncMap UInt32 V) : Inv m0 (init m0) :=
  ⟨fun _ => rfl, by intro a t k b h; simp [init] at h, by intro t n h; cases h⟩

/-- C32.  Whatever random numbers are drawn, whatever the table contains, and however allocations, registrations and
removals interleave: an allocated TEID is not 0 and was not in use (not in the table at the start and not allocated or
registered since, unless removed in between). -/
theorem C32_unique {V} (mark : V) (m0 : SyncMap UInt32 V) (sched : List (Step V)) (before after : List Ev) (t : Nat)
    (k : UInt32) (h : (run mark (init m0) sched).log = before ++ .alloc t k :: after) :
    k ≠ 0 ∧ inUse k before (m0.load k).isSome = false :=
  (inv_run mark m0 _ (inv_init m0) sched).alloc before t k after h

/-- C32 for pairs: between two allocations of the same TEID it was removed. -/
theorem C32_no_double {V} (mark : V) (m0 : SyncMap UInt32 V) (sched : List (Step V)) (a b c : List Ev) (t u : Nat)
    (k : UInt32) (h : (run mark (init m0) sched).log = a ++ .alloc t k :: (b ++ .alloc u k :: c)) :
    Ev.deleted k ∈ b := by
  have h2 := (C32_unique mark m0 sched (a ++ .alloc t k :: b) c u k (by rw [h]; simp)).2
  rw [inUse_append] at h2
  simp only [inUse, beq_self_eq_true, Bool.or_true] at h2
  by_contra hc
  have : ∀ l : List Ev, Ev.deleted k ∉ l → inUse k l true = true := by
    intro l
    induction l with
    | nil => intro _; rfl
    | cons e l ih =>
      intro hl
      rw [List.mem_cons, not_or] at hl
      cases e with
      | deleted j =>
        have : (j != k) = true := by rw [bne_iff_ne]; rintro rfl; exact hl.1 rfl
        simp [inUse, this, ih hl.2]
      | _ => simp [inUse, ih hl.2]
  rw [this b hc] at h2
  cases h2

/-- the allocated TEID is recorded as taken, whatever the other goroutines do, until somebody removes it -/
theorem C32_stays_taken {V} (mark : V) (m0 : SyncMap UInt32 V) (sched : List (Step V)) (a b : List Ev) (t : Nat) (k : UInt32)
    (h : (run mark (init m0) sched).log = a ++ .alloc t k :: b) (hd : Ev.deleted k ∉ b) :
    ((run mark (init m0) sched).map.load k).isSome = true := by
  rw [(inv_run mark m0 _ (inv_init m0) sched).table k, h, inUse_append]
  simp only [inUse, beq_self_eq_true, Bool.or_true]
  clear h
  induction b with
  | nil => rfl
  | cons e l ih =>
    rw [List.mem_cons, not_or] at hd
    cases e with
    | deleted j =>
      have : (j != k) = true := by rw [bne_iff_ne]; rintro rfl; exact hd.1 rfl
      simp [inUse, this, ih hd.2]
    | _ => simp [inUse, ih hd.2]

/-- the result of an allocation by goroutine t -/
def Ev.isResultOf (t : Nat) : Ev → Bool
  | .alloc u _ => u == t
  | .fail u => u == t
  | _ => false

/-- the random numbers goroutine t draws in a schedule -/
def Step.isAttemptOf {V} (t : Nat) : Step V → Bool
  | .attempt u _ => u == t
  | _ => false

theorem log_mono {V} (mark : V) (s : State V) (x : Step V) : ∃ l, (step mark s x).log = s.log ++ l := by
  have hnext : ∀ t n, ∃ l, (next s t n).log = s.log ++ l := by
    intro t n; unfold next; split
    · exact ⟨[], by simp⟩
    · exact ⟨_, rfl⟩
  cases x with
  | start t => simp only [step]; split <;> exact ⟨[], by simp⟩
  | attempt t r =>
    simp only [step]; split
    · exact ⟨[], by simp⟩
    · split
      · exact hnext _ _
      · split
        · exact hnext _ _
        · exact ⟨_, rfl⟩
  | store k v => exact ⟨_, rfl⟩
  | delete k => exact ⟨_, rfl⟩

theorem run_log_mono {V} (mark : V) (s : State V) (xs : List (Step V)) : ∃ l, (run mark s xs).log = s.log ++ l := by
  induction xs generalizing s with
  | nil => exact ⟨[], by simp [run]⟩
  | cons x xs ih =>
    obtain ⟨l1, h1⟩ := log_mono mark s x
    obtain ⟨l2, h2⟩ := ih (step mark s x)
    refine ⟨l1 ++ l2, ?_⟩
    show (run mark (step mark s x) xs).log = _
    rw [h2, h1, List.append_assoc]

/-- C32, termination: an allocation in progress has finished, successfully or not, after at most 65535 numbers drawn, no
matter what other goroutines do in between. -/
theorem C32_terminates {V} (mark : V) (s : State V) (t n : Nat) (h : s.pc t = some n) (hn : n < 0xffff) (sched : List (Step V))
    (hs : 0xffff - n ≤ sched.countP (Step.isAttemptOf t)) :
    ∃ l, (run mark s sched).log = s.log ++ l ∧ ∃ e ∈ l, e.isResultOf t = true := by
  induction sched generalizing s n with
  | nil => simp at hs; omega
  | cons x xs ih =>
    have keep : (step mark s x).pc t = some n → x.isAttemptOf t = false → ∃ l, (run mark s (x :: xs)).log = s.log ++ l ∧
        ∃ e ∈ l, e.isResultOf t = true := by
      intro hp hx
      obtain ⟨l, hl, e, he, hr⟩ := ih (step mark s x) n hp hn (by
        rw [List.countP_cons, hx] at hs; simpa using hs)
      obtain ⟨l1, h1⟩ := log_mono mark s x
      refine ⟨l1 ++ l, ?_, e, List.mem_append_right _ he, hr⟩
      show (run mark (step mark s x) xs).log = _
      rw [hl, h1, List.append_assoc]
    have stop : ∀ e : Ev, (step mark s x).log = s.log ++ [e] → e.isResultOf t = true →
        ∃ l, (run mark s (x :: xs)).log = s.log ++ l ∧ ∃ e ∈ l, e.isResultOf t = true := by
      intro e h1 h2
      obtain ⟨l, hl⟩ := run_log_mono mark (step mark s x) xs
      refine ⟨[e] ++ l, ?_, e, by simp, h2⟩
      show (run mark (step mark s x) xs).log = _
      rw [hl, h1, List.append_assoc]
    have again : step mark s x = next s t n → x.isAttemptOf t = true → ∃ l, (run mark s (x :: xs)).log = s.log ++ l ∧
        ∃ e ∈ l, e.isResultOf t = true := by
      intro hx ha
      by_cases hlt : n + 1 < 0xffff
      · have hp : (step mark s x).pc t = some (n + 1) := by rw [hx]; unfold next; rw [if_pos hlt]; simp [setPc]
        obtain ⟨l, hl, e, he, hr⟩ := ih (step mark s x) (n + 1) hp hlt (by
          rw [List.countP_cons, ha] at hs; simp only [if_true] at hs; omega)
        refine ⟨l, ?_, e, he, hr⟩
        show (run mark (step mark s x) xs).log = _
        rw [hl, hx]; unfold next; rw [if_pos hlt]
      · refine stop (.fail t) ?_ (by simp [Ev.isResultOf])
        rw [hx]; unfold next; rw [if_neg hlt]
    cases x with
    | start u =>
      refine keep ?_ rfl
      simp only [step]; split
      · rename_i hu
        have : ¬ t = u := by rintro rfl; rw [h] at hu; cases hu
        simp [setPc, this, h]
      · exact h
    | store k v => exact keep h rfl
    | delete k => exact keep h rfl
    | attempt u r =>
      by_cases hu : u = t
      · subst hu
        have ha : (Step.attempt u r : Step V).isAttemptOf u = true := by simp [Step.isAttemptOf]
        by_cases hr : r = 0
        · exact again (by simp [step, h, hr]) ha
        · cases hl : s.map.loadOrStore r mark with
          | mk m b =>
            cases b with
            | true => exact again (by simp [step, h, hr, hl]) ha
            | false => exact stop (.alloc u r) (by simp [step, h, hr, hl]) (by simp [Ev.isResultOf])
      · have hu' : ¬ t = u := fun e => hu e.symm
        refine keep ?_ (by simp [Step.isAttemptOf, hu])
        have hnext : ∀ n', (next s u n').pc t = some n := by
          intro n'; unfold next; split <;> simp [setPc, hu', h]
        simp only [step]; split
        · exact h
        · split
          · exact hnext _
          · split
            · exact hnext _
            · simp [setPc, hu', h]

/-- two goroutines draw the same number; the second tries again, the number 0 is skipped, a registered TEID is skipped -/
example : (run () (init [(7, ())]) [.start 0, .start 1, .attempt 0 5, .attempt 1 5, .attempt 1 0, .attempt 1 7, .delete 5,
      .attempt 1 5]).log = [.alloc 0 5, .deleted 5, .alloc 1 5] := by decide

end Verif.Alloc

namespace Verif.Alloc
/-! ### cases that meet the hypotheses: TEID 7 is in use; two goroutines draw 5, it is released in between -/

def exSched : List (Step Unit) := [.start 0, .start 1, .attempt 0 5, .attempt 1 5, .attempt 1 0, .attempt 1 7, .delete 5, .attempt 1 5]
example := C32_unique () [(7, ())] exSched [.alloc 0 5, .deleted 5] [] 1 5 (by decide)
example := C32_no_double () [(7, ())] exSched [] [.deleted 5] [] 0 1 5 (by decide)
example := C32_stays_taken () [(7, ())] exSched [.alloc 0 5, .deleted 5] [] 1 5 (by decide) (by decide)
/-- a goroutine that has failed 65533 times before fails again twice: it gives up -/
example := C32_terminates () ⟨[(7, ())], fun t => if t = 0 then some 65533 else none, []⟩ 0 65533 (by decide) (by decide)
  [.attempt 0 7, .store 3 (), .attempt 0 0] (by decide)
end Verif.Alloc
