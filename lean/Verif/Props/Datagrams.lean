import Verif.Model.Datagrams
import Verif.Model.V2Conn
/-
C74: datagrams are handled one by one, each exactly once with its own octets and sender, whatever else arrives, is handled or
is written meanwhile.
-/
namespace Verif.Datagrams
open Verif.Res

/-! ### invariant -/

/-- arrays are as long as when they were made, apart from each other, and hold the datagram until written by their owner -/
structure Inv (s : State) : Prop where
  buf : (array s 0).length = 1500
  heap : 0 < s.heap.length
  /-- goroutine i has array i + 1 -/
  own : ∀ i g, s.gors[i]? = some g → g.raw = i + 1 ∧ g.raw < s.heap.length ∧
    ∃ d, s.arrived[i]? = some (g.addr, d) ∧ g.n = (d.take 1500).length ∧
      (array s g.raw).length = g.n ∧ (g.begun = false → array s g.raw = d.take 1500)
  /-- the loop -/
  loop : match s.pc with
    | .reading => s.arrived.length = s.gors.length ∧ s.heap.length = s.gors.length + 1
    | .got n a => s.arrived.length = s.gors.length + 1 ∧ s.heap.length = s.gors.length + 1 ∧
        ∃ d, s.arrived[s.gors.length]? = some (a, d) ∧ n = (d.take 1500).length ∧ (array s 0).take n = d.take 1500
    | .made n a r => s.arrived.length = s.gors.length + 1 ∧ s.heap.length = s.gors.length + 2 ∧ r = s.gors.length + 1 ∧
        ∃ d, s.arrived[s.gors.length]? = some (a, d) ∧ n = (d.take 1500).length ∧ (array s 0).take n = d.take 1500 ∧
          (array s r).length = n
    | .copied n a r => s.arrived.length = s.gors.length + 1 ∧ s.heap.length = s.gors.length + 2 ∧ r = s.gors.length + 1 ∧
        ∃ d, s.arrived[s.gors.length]? = some (a, d) ∧ n = (d.take 1500).length ∧ array s r = d.take 1500
  hand : ∀ e ∈ s.handled, ∃ g d, s.gors[e.1]? = some g ∧ g.begun = true ∧ s.arrived[e.1]? = some (e.2.1, d) ∧
    e.2.2 = d.take 1500
  once : (s.handled.map (·.1)).Nodup
  all : ∀ i g, s.gors[i]? = some g → g.begun = true → i ∈ s.handled.map (·.1)

theorem array_set (s : State) (h : List Bytes) (hs : s.heap = h) (r q : Nat) (x : Bytes) (hr : r < h.length) :
    ((h.set r x)[q]?).getD [] = if q = r then x else array s q := by
  subst hs
  unfold array
  rw [List.getElem?_set]
  by_cases e : r = q
  · subst e; simp [hr]
  · simp [e, Ne.symm e]

theorem overwrite_length (a b : Bytes) : (overwrite a b).length = a.length := by
  simp [overwrite]; omega

theorem inv_init : Inv init := by
  have h : (array init 0).length = 1500 := List.length_replicate
  refine ⟨h, Nat.one_pos, ?_, ⟨rfl, rfl⟩, ?_, List.nodup_nil, ?_⟩
  · intro i g hg; cases hg
  · intro e he; cases he
  · intro i g hg; cases hg

theorem inv_step (s : State) (x : Step) (I : Inv s) : Inv (step s x) := by
  obtain ⟨buf, heap, own, loop, hand, once, all⟩ := I
  cases x with
  | arrive a d =>
    simp only [step]
    split
    next hpc =>
      rw [hpc] at loop
      obtain ⟨l1, l2⟩ := loop
      have A : ∀ q, ((s.heap.set 0 (overwrite (array s 0) d))[q]?).getD [] =
          if q = 0 then overwrite (array s 0) d else array s q := fun q => array_set s _ rfl 0 q _ heap
      constructor
      · simp only [array] at A ⊢; rw [A]; simp only [if_true]; rw [overwrite_length]; exact buf
      · simpa using heap
      · intro i g hg
        obtain ⟨h1, h2, e, h3, h4, h5, h6⟩ := own i g hg
        refine ⟨h1, by simpa using h2, e, ?_, h4, ?_, ?_⟩
        · rw [List.getElem?_append_left]
          · exact h3
          · exact (List.getElem?_eq_some_iff.1 h3).1
        · have := A g.raw; simp only [array] at this ⊢; rw [this, if_neg (by omega)]; exact h5
        · intro hb; have := A g.raw; simp only [array] at this ⊢; rw [this, if_neg (by omega)]; exact h6 hb
      · refine ⟨by simp [l1], by simpa using l2, d, ?_, ?_, ?_⟩
        · simp [← l1]
        · simp [buf]; omega
        · have := A 0
          rw [if_pos rfl] at this
          show List.take (min d.length (array s 0).length) ((s.heap.set 0 (overwrite (array s 0) d))[0]?.getD []) = _
          rw [this]
          simp only [overwrite, buf]
          rw [List.take_append_of_le_length (by simp; omega), List.take_take]
          rw [List.take_eq_take_iff]; omega
      · intro e he
        obtain ⟨g, d', h1, h2, h3, h4⟩ := hand e he
        refine ⟨g, d', h1, h2, ?_, h4⟩
        rw [List.getElem?_append_left]
        · exact h3
        · exact (List.getElem?_eq_some_iff.1 h3).1
      · exact once
      · exact all
    next => exact ⟨buf, heap, own, loop, hand, once, all⟩
  | make =>
    simp only [step]
    split
    next n a hpc =>
      rw [hpc] at loop
      obtain ⟨l1, l2, d, l3, l4, l5⟩ := loop
      have A : ∀ q, q < s.heap.length → ((s.heap ++ [List.replicate n 0])[q]?).getD [] = array s q := by
        intro q hq; unfold array; rw [List.getElem?_append_left hq]
      constructor
      · have := A 0 heap; simp only [array] at this ⊢; rw [this]; exact buf
      · simp
      · intro i g hg
        obtain ⟨h1, h2, e, h3, h4, h5, h6⟩ := own i g hg
        have := A g.raw h2
        refine ⟨h1, by simp; omega, e, h3, h4, ?_, ?_⟩
        · simp only [array] at this ⊢; rw [this]; exact h5
        · intro hb; simp only [array] at this ⊢; rw [this]; exact h6 hb
      · refine ⟨l1, by simp [l2], l2, d, l3, l4, ?_, ?_⟩
        · have := A 0 heap; simp only [array] at this ⊢; rw [this]; exact l5
        · simp [array]
      · exact hand
      · exact once
      · exact all
    next => exact ⟨buf, heap, own, loop, hand, once, all⟩
  | copy =>
    simp only [step]
    split
    next n a r hpc =>
      rw [hpc] at loop
      obtain ⟨l1, l2, l3, d, l4, l5, l6, l7⟩ := loop
      have A : ∀ q, ((s.heap.set r (overwrite (array s r) (array s 0)))[q]?).getD [] =
          if q = r then overwrite (array s r) (array s 0) else array s q := fun q => array_set s _ rfl r q _ (by omega)
      constructor
      · have := A 0; simp only [array] at this ⊢; rw [this, if_neg (by omega)]; exact buf
      · simpa using heap
      · intro i g hg
        obtain ⟨h1, h2, e, h3, h4, h5, h6⟩ := own i g hg
        have hi : i < s.gors.length := (List.getElem?_eq_some_iff.1 hg).1
        have := A g.raw
        refine ⟨h1, by simpa using h2, e, h3, h4, ?_, ?_⟩
        · simp only [array] at this ⊢; rw [this, if_neg (by omega)]; exact h5
        · intro hb; simp only [array] at this ⊢; rw [this, if_neg (by omega)]; exact h6 hb
      · refine ⟨l1, by simpa using l2, l3, d, l4, l5, ?_⟩
        have h := A r; rw [if_pos rfl] at h
        have h' : array s r = s.heap[r]?.getD [] := rfl
        show ((s.heap.set r (overwrite (array s r) (array s 0)))[r]?).getD [] = _
        rw [h]
        have hn : n ≤ 1500 := by rw [l5]; simp; omega
        simp only [overwrite, l7]
        rw [l6, List.drop_eq_nil_of_le (by omega), List.append_nil]
      · exact hand
      · exact once
      · exact all
    next => exact ⟨buf, heap, own, loop, hand, once, all⟩
  | go =>
    simp only [step]
    split
    next n a r hpc =>
      rw [hpc] at loop
      obtain ⟨l1, l2, l3, d, l4, l5, l6⟩ := loop
      constructor
      · exact buf
      · exact heap
      · intro i g hg
        dsimp only at hg ⊢
        rw [List.getElem?_append] at hg
        split at hg
        · exact own i g hg
        · next hi =>
          have : i = s.gors.length := by
            rcases Nat.lt_or_ge (i - s.gors.length) 1 with h | h
            · omega
            · rw [List.getElem?_eq_none (by simpa using h)] at hg; cases hg
          subst this
          simp only [Nat.sub_self, List.getElem?_cons_zero, Option.some.injEq] at hg
          subst hg
          exact ⟨l3, by dsimp only; omega, d, l4, l5, (congrArg List.length l6).trans l5.symm, fun _ => l6⟩
      · simp [l1, l2]
      · intro e he
        obtain ⟨g, d', h1, h2⟩ := hand e he
        refine ⟨g, d', ?_, h2⟩
        dsimp only
        rw [List.getElem?_append_left (List.getElem?_eq_some_iff.1 h1).1]; exact h1
      · exact once
      · intro i g hg hb
        dsimp only at hg
        rw [List.getElem?_append] at hg
        split at hg
        · exact all i g hg hb
        · rcases Nat.lt_or_ge (i - s.gors.length) 1 with h | h
          · rw [show i - s.gors.length = 0 by omega] at hg
            simp only [List.getElem?_cons_zero, Option.some.injEq] at hg
            subst hg; cases hb
          · rw [List.getElem?_eq_none (by simpa using h)] at hg; cases hg
    next => exact ⟨buf, heap, own, loop, hand, once, all⟩
  | begin i =>
    simp only [step]
    split
    next g hg =>
      split
      · exact ⟨buf, heap, own, loop, hand, once, all⟩
      next hb =>
      have hb : g.begun = false := by simpa using hb
      have hi := (List.getElem?_eq_some_iff.1 hg).1
      have G : ∀ j, (s.gors.set i { g with begun := true })[j]? =
          if j = i then some { g with begun := true } else s.gors[j]? := by
        intro j; rw [List.getElem?_set]
        by_cases e : i = j
        · subst e; simp [hi]
        · simp [e, Ne.symm e]
      have hn : i ∉ s.handled.map (·.1) := by
        intro h
        obtain ⟨e, he, rfl⟩ := List.mem_map.1 h
        obtain ⟨g', _, h1, h2, _⟩ := hand e he
        rw [hg] at h1; cases h1; rw [hb] at h2; cases h2
      constructor
      · exact buf
      · exact heap
      · intro j g' hg'
        dsimp only at hg'
        rw [G] at hg'
        split at hg'
        · next e =>
          subst e; cases hg'
          obtain ⟨h1, h2, d, h3, h4, h5, _⟩ := own j g hg
          exact ⟨h1, h2, d, h3, h4, h5, fun h => by cases h⟩
        · exact own j g' hg'
      · dsimp only; rw [List.length_set]; exact loop
      · intro e he
        dsimp only at he ⊢
        rcases List.mem_append.1 he with he' | he'
        · clear he; have he := he'; obtain ⟨g', d', h1, h2, h3⟩ := hand e he
          refine ⟨g', d', ?_, h2, h3⟩
          rw [G, if_neg]
          · exact h1
          · intro e'; exact hn (e' ▸ List.mem_map_of_mem (f := (·.1)) he)
        · clear he; have he := he'; simp only [List.mem_singleton] at he
          subst he
          obtain ⟨h1, h2, d, h3, h4, h5, h6⟩ := own i g hg
          refine ⟨{ g with begun := true }, d, by rw [G, if_pos rfl], rfl, h3, ?_⟩
          rw [h6 hb, h4, List.take_length]
      · dsimp only
        rw [List.map_append, List.nodup_append]
        refine ⟨once, by simp, ?_⟩
        intro x hx y hy
        simp only [List.map_cons, List.map_nil, List.mem_singleton] at hy
        subst hy; rintro rfl; exact hn hx
      · intro j g' hg' hb'
        dsimp only at hg' ⊢
        rw [List.map_append, List.mem_append]
        rw [G] at hg'
        split at hg'
        · next e => right; simp [e]
        · left; exact all j g' hg' hb'
    next => exact ⟨buf, heap, own, loop, hand, once, all⟩
  | write i k x =>
    simp only [step]
    split
    next g hg =>
      split
      next hb =>
        obtain ⟨o1, o2, od, o3, o4, o5, o6⟩ := own i g hg
        have hi := (List.getElem?_eq_some_iff.1 hg).1
        have A : ∀ q, ((s.heap.set g.raw ((array s g.raw).set k x))[q]?).getD [] =
            if q = g.raw then (array s g.raw).set k x else array s q := fun q => array_set s _ rfl _ q _ o2
        have A0 := A 0
        rw [if_neg (by omega)] at A0
        constructor
        · exact (congrArg List.length A0).trans buf
        · simpa using heap
        · intro j g' hg'
          obtain ⟨h1, h2, d, h3, h4, h5, h6⟩ := own j g' hg'
          refine ⟨h1, by simpa using h2, d, h3, h4, ?_, ?_⟩
          · refine (congrArg List.length (A g'.raw)).trans ?_
            split
            · next e => rw [List.length_set, ← e]; exact h5
            · exact h5
          · intro hf
            refine (A g'.raw).trans ?_
            rw [if_neg]
            · exact h6 hf
            · intro e
              have : j = i := by omega
              subst this
              have hg'' : s.gors[j]? = some g' := hg'
              rw [hg] at hg''; cases hg''; rw [hb] at hf; cases hf
        · dsimp only
          split
          · next h => rw [h] at loop; simpa using loop
          · next n a h =>
            rw [h] at loop
            obtain ⟨l1, l2, d, l3, l4, l5⟩ := loop
            exact ⟨l1, by simpa using l2, d, l3, l4, (congrArg (List.take n) A0).trans l5⟩
          · next n a r h =>
            rw [h] at loop
            obtain ⟨l1, l2, l3, d, l4, l5, l6, l7⟩ := loop
            refine ⟨l1, by simpa using l2, l3, d, l4, l5, (congrArg (List.take n) A0).trans l6, ?_⟩
            refine (congrArg List.length (A r)).trans ?_
            rw [if_neg (by omega)]; exact l7
          · next n a r h =>
            rw [h] at loop
            obtain ⟨l1, l2, l3, d, l4, l5, l6⟩ := loop
            refine ⟨l1, by simpa using l2, l3, d, l4, l5, (A r).trans ?_⟩
            rw [if_neg (by omega)]; exact l6
        · exact hand
        · exact once
        · exact all
      next => exact ⟨buf, heap, own, loop, hand, once, all⟩
    next => exact ⟨buf, heap, own, loop, hand, once, all⟩

theorem inv_foldl (l : List Step) : ∀ s, Inv s → Inv (l.foldl step s) := by
  induction l with
  | nil => exact fun s h => h
  | cons x l ih => exact fun s h => ih _ (inv_step s x h)

theorem inv_run (l : List Step) : Inv (run l) := inv_foldl l _ inv_init

/-! ### the property -/

/-- C74: what is handled is a datagram that arrived, with its own sender and its own octets (the first 1500 of them), whatever
arrived, was handled or was written since -/
theorem C74_own_octets (l : List Step) (i : Nat) (a : Addr) (b : Bytes) (h : (i, a, b) ∈ (run l).handled) :
    ∃ d, (run l).arrived[i]? = some (a, d) ∧ b = d.take 1500 ∧ (d.length ≤ 1500 → b = d) := by
  obtain ⟨_, d, _, _, h1, h2⟩ := (inv_run l).hand _ h
  exact ⟨d, h1, h2, fun hd => h2.trans (List.take_of_length_le hd)⟩

/-- C74: no datagram is handled twice -/
theorem C74_once (l : List Step) : ((run l).handled.map (·.1)).Nodup := (inv_run l).once

theorem begin_arrived (s : State) (i : Nat) : (step s (.begin i)).arrived = s.arrived ∧
    (step s (.begin i)).gors.length = s.gors.length ∧ (step s (.begin i)).pc = s.pc := by
  simp only [step]; split
  · split <;> simp
  · simp

/-- every goroutine begins -/
theorem begin_all (n : Nat) : ∀ s, Inv s → n ≤ s.gors.length →
    let s' := ((List.range n).map Step.begin).foldl step s
    Inv s' ∧ s'.arrived = s.arrived ∧ s'.gors.length = s.gors.length ∧ ∀ i < n, i ∈ s'.handled.map (·.1) := by
  induction n with
  | zero => intro s I _; exact ⟨I, rfl, rfl, fun i h => absurd h (Nat.not_lt_zero _)⟩
  | succ n ih =>
    intro s I hn
    obtain ⟨J, h1, h2, h3⟩ := ih s I (by omega)
    simp only [List.range_succ, List.map_append, List.map_cons, List.map_nil, List.foldl_append, List.foldl_cons, List.foldl_nil]
    generalize ((List.range n).map Step.begin).foldl step s = s' at J h1 h2 h3
    obtain ⟨b1, b2, _⟩ := begin_arrived s' n
    refine ⟨inv_step _ _ J, b1.trans h1, b2.trans h2, ?_⟩
    intro i hi
    have hl : n < s'.gors.length := by omega
    have hg : s'.gors[n]? = some s'.gors[n] := List.getElem?_eq_getElem hl
    simp only [step, hg]
    split
    next hb =>
      rcases Nat.lt_or_ge i n with h | h
      · exact h3 i h
      · rw [show i = n by omega]; exact J.all n _ hg hb
    next =>
      rw [List.map_append, List.mem_append]
      rcases Nat.lt_or_ge i n with h | h
      · exact Or.inl (h3 i h)
      · right; simp; omega

/-- C74: no datagram is lost: whatever has happened, when the goroutines go on, all that arrived is handled -/
theorem C74_none_lost (l : List Step) : ∃ l' : List Step, (∀ a d, Step.arrive a d ∉ l') ∧
    (run (l ++ l')).arrived = (run l).arrived ∧ (run (l ++ l')).pc = .reading ∧
    ∀ i a d, (run l).arrived[i]? = some (a, d) → (i, a, d.take 1500) ∈ (run (l ++ l')).handled := by
  -- the loop first goes back to reading
  have key : ∃ l1 : List Step, (∀ a d, Step.arrive a d ∉ l1) ∧ (run (l ++ l1)).arrived = (run l).arrived ∧
      (run (l ++ l1)).pc = .reading := by
    simp only [run, List.foldl_append]
    generalize l.foldl step init = s
    cases h : s.pc with
    | reading => exact ⟨[], by simp, rfl, h⟩
    | got n a => exact ⟨[.make, .copy, .go], by simp, by simp [step, h], by simp [step, h]⟩
    | made n a r => exact ⟨[.copy, .go], by simp, by simp [step, h], by simp [step, h]⟩
    | copied n a r => exact ⟨[.go], by simp, by simp [step, h], by simp [step, h]⟩
  obtain ⟨l1, k1, k2, k3⟩ := key
  have I := inv_run (l ++ l1)
  have hl := I.loop
  rw [k3] at hl
  obtain ⟨J, h1, h2, h3⟩ := begin_all _ _ I (Nat.le_refl _)
  have hr : run (l ++ (l1 ++ (List.range (run (l ++ l1)).gors.length).map Step.begin)) =
      ((List.range (run (l ++ l1)).gors.length).map Step.begin).foldl step (run (l ++ l1)) := by
    rw [← List.append_assoc, run, List.foldl_append]; rfl
  refine ⟨l1 ++ (List.range (run (l ++ l1)).gors.length).map Step.begin, ?_, ?_, ?_, ?_⟩
  · intro a d h
    rcases List.mem_append.1 h with h | h
    · exact k1 a d h
    · obtain ⟨_, _, h⟩ := List.mem_map.1 h; cases h
  · rw [hr, h1, k2]
  · rw [hr]
    have : ∀ (m : List Nat) (s : State), ((m.map Step.begin).foldl step s).pc = s.pc := by
      intro m
      induction m with
      | nil => exact fun _ => rfl
      | cons x m ih => intro s; exact (ih _).trans (begin_arrived s x).2.2
    rw [this, k3]
  · intro i a d hi
    have hlt : i < (run (l ++ l1)).gors.length := by
      rw [← k2] at hi
      have := (List.getElem?_eq_some_iff.1 hi).1
      omega
    rw [hr]
    obtain ⟨⟨j, a', b⟩, he, rfl⟩ := List.mem_map.1 (h3 i hlt)
    obtain ⟨_, d', _, _, q1, q2⟩ := J.hand _ he
    rw [h1, k2] at q1
    dsimp only at q1 q2 hi
    rw [hi] at q1
    cases q1
    rw [q2] at he; exact he

/-- C74: the octets a goroutine works on are changed by nobody else: neither by datagrams that arrive later nor by other
goroutines, handlers or holders of other messages -/
theorem C74_no_interference (l : List Step) (i : Nat) (g : Gor) (x : Step) (hg : (run l).gors[i]? = some g)
    (hx : ∀ k v, x ≠ .write i k v) : array (run (l ++ [x])) g.raw = array (run l) g.raw := by
  have I := inv_run l
  have e : run (l ++ [x]) = step (run l) x := by simp [run, List.foldl_append]
  rw [e]
  generalize run l = s at hg I
  obtain ⟨o1, o2, _⟩ := I.own i g hg
  have hi : i < s.gors.length := (List.getElem?_eq_some_iff.1 hg).1
  cases x with
  | arrive a d =>
    simp only [step]; split
    · refine (array_set s _ rfl 0 g.raw _ I.heap).trans ?_; rw [if_neg (by omega)]
    · rfl
  | make =>
    simp only [step]; split
    · simp only [array]; rw [List.getElem?_append_left o2]
    · rfl
  | copy =>
    simp only [step]; split
    next n a r hpc =>
      have hl := I.loop
      rw [hpc] at hl
      refine (array_set s _ rfl r g.raw _ (by omega)).trans ?_; rw [if_neg (by omega)]
    next => rfl
  | go => simp only [step]; split <;> rfl
  | begin j =>
    simp only [step]; split
    · split <;> rfl
    · rfl
  | write j k v =>
    simp only [step]; split
    next g' hg' =>
      split
      next =>
        obtain ⟨p1, p2, _⟩ := I.own j g' hg'
        refine (array_set s _ rfl g'.raw g.raw _ p2).trans ?_
        rw [if_neg]
        intro h
        exact hx k v (by rw [show j = i by omega])
      next => rfl
    next => rfl

/-- two datagrams and a message kept and written by its handler -/
def twoTrace : List Step :=
  [.arrive "a" [1, 2, 3], .make, .copy, .go, .arrive "b" [9], .begin 0, .write 0 1 7, .make, .copy, .go, .begin 1]

example : (run twoTrace).handled = [(0, "a", [1, 2, 3]), (1, "b", [9])] ∧ array (run twoTrace) 1 = [1, 7, 3] ∧
    (array (run twoTrace) 0).take 4 = [9, 2, 3, 0] := by decide +kernel

/-- Departure: datagrams are not handled in the order in which they arrive, not even those of one sender -/
theorem C74_order_wrong : ∃ l : List Step, (run l).arrived = [("a", [1]), ("a", [2])] ∧
    (run l).handled = [(1, "a", [2]), (0, "a", [1])] :=
  ⟨[.arrive "a" [1], .make, .copy, .go, .arrive "a" [2], .make, .copy, .go, .begin 1, .begin 0], by decide +kernel⟩

/-- an Echo Request with a private extension of 1488 octets and a Recovery: 1505 octets, of which the first 1500 are the message
without its last element -/
def longEcho : Bytes :=
  [0x40, 1, 5, 221, 0, 0, 1, 0, 255, 5, 208, 0] ++ List.replicate 1488 0 ++ [3, 0, 1, 0, 42]

/-- lengths of the elements in the fields Recovery and PrivateExtension of the message the octets are parsed to -/
def shape (b : Bytes) : Option (List (List Nat)) :=
  match V2.parseMsg V2.defaultGrouped b with
  | ok m => some ([0, 2].map fun f => (m.fields f).map fun x => V2.IE.marshalLen V2.defaultGrouped x)
  | _ => none

/-- Departure: of a datagram of more than 1500 octets the rest is lost without notice. When the cut falls between two elements
the message is handled as if the sender had left out the elements after it, although its Length says otherwise -/
theorem C74_long_wrong : longEcho.length = 1505 ∧ shape longEcho = some [[5], [1492]] ∧
    shape (longEcho.take 1500) = some [[], [1492]] ∧
    ∃ l, (run l).arrived = [("a", longEcho)] ∧ (run l).handled = [(0, "a", longEcho.take 1500)] := by
  refine ⟨by decide +kernel, by decide +kernel, by decide +kernel,
    [.arrive "a" longEcho, .make, .copy, .go, .begin 0], ?_⟩
  decide +kernel

end Verif.Datagrams

namespace Verif.Datagrams
open Verif.Res
/-! ### cases that meet the hypotheses -/

example := C74_own_octets twoTrace 0 "a" [1, 2, 3] (by decide +kernel)
/-- the second goroutine writes while the first one holds its datagram -/
example := C74_no_interference twoTrace 0 ⟨1, 3, "a", true⟩ (.write 1 0 5) (by decide +kernel) (by intro k v; simp)

end Verif.Datagrams
