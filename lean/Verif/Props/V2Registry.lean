import Verif.Model.V2Conn
import Mathlib.Data.List.Induction
import Mathlib.Data.List.Nodup
/-
C33: the session registry (gtpv2/conn.go, gtpv2/session.go).
-/
namespace Verif.V2.Conn
open Res

/-! ### what the application believes -/

/-- the application's view: which session it registered under which TEID (most recent first) and not removed since, the
data of its sessions, and the TEIDs reserved by NewSenderFTEID but not (yet) registered -/
structure View where
  reg : List (UInt32 × Nat)
  reserved : List UInt32
  imsi : Nat → Bytes
  peer : Nat → String
  active : Nat → Bool

/-- the most recent registration for an IMSI -/
def View.byIMSI (v : View) (i : Bytes) : Option Nat := (v.reg.find? (fun e => v.imsi e.2 = i)).map Prod.snd
/-- the most recent registration for a TEID -/
def View.byTEID (v : View) (t : UInt32) : Option Nat := (v.reg.find? (fun e => e.1 = t)).map Prod.snd

def View.remove (v : View) (s : Nat) : View :=
  { v with reg := v.reg.filter (fun e => e.2 ≠ s) }

def View.apply (v : View) : Op → View
  | .register t s => { v with reg := (t, s) :: v.reg, reserved := v.reserved.filter (· ≠ t) }
  | .remove s => v.remove s
  | .removeByIMSI i => match v.byIMSI i with
    | some s => v.remove s
    | none => v
  | .activate s => if v.imsi s = [] then v else { v with active := fun j => if j = s then true else v.active j }
  | .deactivate s => { v with active := fun j => if j = s then false else v.active j }
  | .updatePeer s a => { v with peer := fun j => if j = s then a else v.peer j }
  | .setIMSI s i => { v with imsi := fun j => if j = s then i else v.imsi j }
  | .reserve k => if k = 0 ∨ k ∈ v.reserved ∨ (v.byTEID k).isSome then v else { v with reserved := k :: v.reserved }
  | _ => v

/-- the discipline under which the registry keeps up with the view: a session is registered under a TEID and with an IMSI
that no registered session has; only a registered session is removed; the IMSI of a registered session is not changed;
the TEID for the local interface is only set by registering -/
def View.allows (localIf : UInt8) (v : View) : Op → Prop
  | .register t s => ∀ e ∈ v.reg, e.1 ≠ t ∧ v.imsi e.2 ≠ v.imsi s
  | .remove s => ∃ t, (t, s) ∈ v.reg
  | .setIMSI s _ => ∀ t, (t, s) ∉ v.reg
  | .addTEID _ f _ => f ≠ localIf
  | _ => True

def View.allowsAll (localIf : UInt8) (v : View) : List Op → Prop
  | [] => True
  | op :: ops => v.allows localIf op ∧ (v.apply op).allowsAll localIf ops

def View.applyAll (v : View) (ops : List Op) : View := ops.foldl View.apply v

/-- a connection without sessions, and the view of it -/
def start (c : Conn) : View := ⟨[], [], fun s => (c.heap s).imsi, fun s => (c.heap s).peer, fun s => (c.heap s).active⟩

/-! ### the relation between the two -/

structure Rel (c : Conn) (v : View) : Prop where
  imsi : ∀ s, (c.heap s).imsi = v.imsi s
  peer : ∀ s, (c.heap s).peer = v.peer s
  active : ∀ s, (c.heap s).active = v.active s
  teid : ∀ t, c.byTeid.load t = match v.byTEID t with
    | some s => some (some s)
    | none => if t ∈ v.reserved then some none else none
  byImsi : ∀ i, c.byImsi.load i = v.byIMSI i
  own : ∀ t s, (t, s) ∈ v.reg → (c.heap s).teids.load c.localIf = some t
  tnodup : (v.reg.map Prod.fst).Nodup
  inodup : (v.reg.map (fun e => v.imsi e.2)).Nodup
  wf : SyncMap.WF c.byImsi
  excl : ∀ t s, (t, s) ∈ v.reg → t ∉ v.reserved

theorem find_unique {α β} [DecidableEq β] (f : α → β) {l : List α} (h : (l.map f).Nodup) {x : α} (hx : x ∈ l) :
    l.find? (fun e => f e = f x) = some x := by
  induction l with
  | nil => cases hx
  | cons y l ih =>
    rw [List.map_cons, List.nodup_cons] at h
    rcases List.mem_cons.1 hx with rfl | hx
    · simp
    · have : ¬ f y = f x := fun e => h.1 (e ▸ List.mem_map_of_mem hx)
      simp [this, ih h.2 hx]

theorem byTEID_eq {v : View} (h : (v.reg.map Prod.fst).Nodup) (t : UInt32) (s : Nat) : v.byTEID t = some s ↔ (t, s) ∈ v.reg := by
  unfold View.byTEID
  rw [Option.map_eq_some_iff]
  constructor
  · rintro ⟨e, he, rfl⟩
    have h1 := List.mem_of_find?_eq_some he
    have h2 := List.find?_some he
    simp only [decide_eq_true_eq] at h2
    rw [← h2]; exact h1
  · intro hm
    exact ⟨(t, s), find_unique Prod.fst h hm, rfl⟩

theorem byIMSI_eq {v : View} (h : (v.reg.map (fun e => v.imsi e.2)).Nodup) (i : Bytes) (s : Nat) :
    v.byIMSI i = some s ↔ ∃ t, (t, s) ∈ v.reg ∧ v.imsi s = i := by
  unfold View.byIMSI
  rw [Option.map_eq_some_iff]
  constructor
  · rintro ⟨e, he, rfl⟩
    have h1 := List.mem_of_find?_eq_some he
    have h2 := List.find?_some he
    simp only [decide_eq_true_eq] at h2
    exact ⟨e.1, h1, h2⟩
  · rintro ⟨t, hm, rfl⟩
    exact ⟨(t, s), find_unique (fun e => v.imsi e.2) h hm, rfl⟩

theorem byIMSI_none {v : View} (i : Bytes) : v.byIMSI i = none ↔ ∀ e ∈ v.reg, v.imsi e.2 ≠ i := by
  unfold View.byIMSI
  rw [Option.map_eq_none_iff, List.find?_eq_none]
  simp

/-- two entries of a registered session are the same -/
theorem sess_unique {v : View} (h : (v.reg.map (fun e => v.imsi e.2)).Nodup) {t t' : UInt32} {s : Nat}
    (h1 : (t, s) ∈ v.reg) (h2 : (t', s) ∈ v.reg) : t = t' := by
  have a := find_unique (fun e => v.imsi e.2) h h1
  have b := find_unique (fun e => v.imsi e.2) h h2
  rw [a] at b
  simp only [Option.some.injEq, Prod.mk.injEq, and_true] at b
  exact b

theorem rel_update {c : Conn} {v v' : View} (h : Rel c v) (s : Nat) (f : Sess → Sess)
    (h1 : v'.reg = v.reg) (h2 : v'.reserved = v.reserved)
    (hi : ∀ j, (if j = s then f (c.heap j) else c.heap j).imsi = v'.imsi j)
    (hp : ∀ j, (if j = s then f (c.heap j) else c.heap j).peer = v'.peer j)
    (ha : ∀ j, (if j = s then f (c.heap j) else c.heap j).active = v'.active j)
    (ht : (f (c.heap s)).teids.load c.localIf = (c.heap s).teids.load c.localIf)
    (hv : ∀ e ∈ v.reg, v'.imsi e.2 = v.imsi e.2) : Rel (update c s f) v' := by
  have hfind : ∀ i, v'.byIMSI i = v.byIMSI i := by
    intro i
    unfold View.byIMSI
    rw [h1]
    congr 1
    have : ∀ l : List (UInt32 × Nat), (∀ e ∈ l, v'.imsi e.2 = v.imsi e.2) →
        l.find? (fun e => v'.imsi e.2 = i) = l.find? (fun e => v.imsi e.2 = i) := by
      intro l
      induction l with
      | nil => intro _; rfl
      | cons e l ih =>
        intro hl
        rw [List.find?_cons, List.find?_cons, hl e (by simp), ih (fun e he => hl e (List.mem_cons_of_mem _ he))]
    exact this _ hv
  refine ⟨hi, hp, ha, ?_, ?_, ?_, by rw [h1]; exact h.tnodup, ?_, h.wf, ?_⟩
  · intro t
    have : v'.byTEID t = v.byTEID t := by unfold View.byTEID; rw [h1]
    rw [this, h2]; exact h.teid t
  · intro i; rw [hfind i]; exact h.byImsi i
  · intro t j hj
    rw [h1] at hj
    have := h.own t j hj
    unfold update
    simp only
    by_cases hjs : j = s
    · subst hjs; simp only [if_true]; rw [ht]; exact this
    · simp only [hjs, if_false]; exact this
  · rw [h1]
    have : v.reg.map (fun e => v'.imsi e.2) = v.reg.map (fun e => v.imsi e.2) := List.map_congr_left hv
    rw [this]; exact h.inodup
  · rw [h1, h2]; exact h.excl

theorem rel_register {c : Conn} {v : View} (h : Rel c v) (t : UInt32) (s : Nat)
    (hd : ∀ e ∈ v.reg, e.1 ≠ t ∧ v.imsi e.2 ≠ v.imsi s) :
    Rel (registerSession c t s) (v.apply (.register t s)) := by
  have himsi : ∀ j, ((registerSession c t s).heap j).imsi = v.imsi j := by
    intro j; simp only [registerSession, addTEID, update]; split <;> exact h.imsi j
  refine ⟨himsi, ?_, ?_, ?_, ?_, ?_, ?_, ?_, ?_, ?_⟩
  · intro j; simp only [registerSession, addTEID, update, View.apply]; split <;> exact h.peer j
  · intro j; simp only [registerSession, addTEID, update, View.apply]; split <;> exact h.active j
  · intro u
    have e1 : (registerSession c t s).byTeid = c.byTeid.store t (some s) := rfl
    rw [e1, SyncMap.load_store]
    by_cases hu : u = t
    · subst hu; simp [View.byTEID, View.apply]
    · have hu' : ¬ t = u := fun e => hu e.symm
      rw [if_neg hu, h.teid u]
      have : (v.apply (.register t s)).byTEID u = v.byTEID u := by
        simp [View.byTEID, View.apply, hu']
      rw [this]
      have : u ∈ (v.apply (.register t s)).reserved ↔ u ∈ v.reserved := by
        simp [View.apply, hu]
      simp only [this]
  · intro i
    have e1 : (registerSession c t s).byImsi = c.byImsi.store (c.heap s).imsi s := rfl
    rw [e1, SyncMap.load_store, h.imsi s]
    by_cases hi : i = v.imsi s
    · subst hi; simp [View.byIMSI, View.apply]
    · have hi' : ¬ v.imsi s = i := fun e => hi e.symm
      rw [if_neg hi, h.byImsi i]
      simp [View.byIMSI, View.apply, hi']
  · intro u j hj
    simp only [View.apply, List.mem_cons, Prod.mk.injEq] at hj
    have e2 : (registerSession c t s).localIf = c.localIf := rfl
    rw [e2]
    rcases hj with ⟨rfl, rfl⟩ | hj
    · simp [registerSession, addTEID, update, SyncMap.load_store]
    · have hne : ¬ j = s := by
        rintro rfl
        exact (hd (u, j) hj).2 rfl
      have := h.own u j hj
      simp only [registerSession, addTEID, update, hne, if_false]
      exact this
  · simp only [View.apply, List.map_cons, List.nodup_cons]
    refine ⟨?_, h.tnodup⟩
    intro hc
    obtain ⟨e, he, hk⟩ := List.mem_map.1 hc
    exact (hd e he).1 hk
  · simp only [View.apply, List.map_cons, List.nodup_cons]
    refine ⟨?_, h.inodup⟩
    intro hc
    obtain ⟨e, he, hk⟩ := List.mem_map.1 hc
    exact (hd e he).2 hk
  · exact SyncMap.wf_store h.wf _ _
  · intro u j hj
    simp only [View.apply, List.mem_cons, Prod.mk.injEq] at hj
    simp only [View.apply, List.mem_filter, decide_eq_true_eq, not_and, Classical.not_not]
    rcases hj with ⟨rfl, rfl⟩ | hj
    · intro _; rfl
    · intro hr; exact absurd hr (h.excl u j hj)

theorem find_filter {α} (p q : α → Bool) (l : List α) (h : ∀ x ∈ l, p x = true → q x = true) :
    (l.filter q).find? p = l.find? p := by
  induction l with
  | nil => rfl
  | cons x l ih =>
    have ih := ih (fun y hy => h y (List.mem_cons_of_mem _ hy))
    by_cases hq : q x = true
    · rw [List.filter_cons_of_pos hq, List.find?_cons, List.find?_cons, ih]
    · have hp : p x = false := by
        by_contra hc
        exact hq (h x (by simp) (by simpa using hc))
      rw [List.filter_cons_of_neg hq, List.find?_cons, hp, ih]

theorem rel_remove {c : Conn} {v : View} (h : Rel c v) (t : UInt32) (s : Nat) (hr : (t, s) ∈ v.reg) :
    ∃ c', removeSession c s = ok c' ∧ Rel c' (v.remove s) ∧ c'.localIf = c.localIf := by
  have ho := h.own t s hr
  refine ⟨{ c with byTeid := c.byTeid.delete t, byImsi := c.byImsi.delete (c.heap s).imsi },
    by unfold removeSession; simp only [ho], ?_, rfl⟩
  have hother : ∀ e ∈ v.reg, e.2 ≠ s → e.1 ≠ t ∧ v.imsi e.2 ≠ v.imsi s := by
    intro e he hne
    constructor
    · rintro rfl
      have a := find_unique Prod.fst h.tnodup hr
      have b := find_unique Prod.fst h.tnodup he
      rw [a] at b
      simp only [Option.some.injEq] at b
      exact hne (by rw [← b])
    · intro hi
      have a := find_unique (fun e => v.imsi e.2) h.inodup hr
      have b := find_unique (fun e => v.imsi e.2) h.inodup he
      simp only [] at a b
      rw [hi, a] at b
      simp only [Option.some.injEq] at b
      exact hne (by rw [← b])
  have hsub : ∀ e ∈ (v.remove s).reg, e ∈ v.reg ∧ e.2 ≠ s := by
    intro e he
    simpa [View.remove] using he
  refine ⟨h.imsi, h.peer, h.active, ?_, ?_, ?_, ?_, ?_, SyncMap.wf_delete h.wf _, ?_⟩
  · intro u
    simp only [SyncMap.load_delete]
    by_cases hu : u = t
    · subst hu
      rw [if_pos rfl]
      have : (v.remove s).byTEID u = none := by
        unfold View.byTEID
        rw [Option.map_eq_none_iff, List.find?_eq_none]
        intro e he
        obtain ⟨h1, h2⟩ := hsub e he
        simpa using (hother e h1 h2).1
      rw [this]
      have : u ∉ (v.remove s).reserved := h.excl u s hr
      simp only [this, if_false]
    · rw [if_neg hu, h.teid u]
      have : (v.remove s).byTEID u = v.byTEID u := by
        unfold View.byTEID View.remove
        simp only
        rw [find_filter]
        intro e he hp
        simp only [decide_eq_true_eq] at hp
        simp only [ne_eq, decide_not, Bool.not_eq_eq_eq_not, Bool.not_true, decide_eq_false_iff_not]
        rintro hes
        have : (e.1, s) ∈ v.reg := by rw [← hes]; exact he
        have := sess_unique h.inodup this hr
        exact hu (hp ▸ this)
      rw [this]
      rfl
  · intro i
    simp only [SyncMap.load_delete, h.imsi s]
    by_cases hi : i = v.imsi s
    · subst hi
      rw [if_pos rfl]
      symm
      rw [byIMSI_none]
      intro e he
      obtain ⟨h1, h2⟩ := hsub e he
      exact (hother e h1 h2).2
    · rw [if_neg hi, h.byImsi i]
      unfold View.byIMSI View.remove
      simp only
      rw [find_filter]
      intro e he hp
      simp only [decide_eq_true_eq] at hp
      simp only [ne_eq, decide_not, Bool.not_eq_eq_eq_not, Bool.not_true, decide_eq_false_iff_not]
      rintro hes
      exact hi (by rw [← hp, hes])
  · intro u j hj
    exact h.own u j (hsub _ hj).1
  · exact (List.filter_sublist.map _).nodup h.tnodup
  · exact (List.filter_sublist.map _).nodup h.inodup
  · intro u j hj
    exact h.excl u j (hsub _ hj).1

theorem rel_apply {c : Conn} {v : View} (h : Rel c v) (op : Op) (hd : v.allows c.localIf op) :
    ∃ c', apply c op = ok c' ∧ Rel c' (v.apply op) ∧ c'.localIf = c.localIf := by
  cases op with
  | register t s => exact ⟨_, rfl, rel_register h t s hd, rfl⟩
  | remove s =>
    obtain ⟨t, ht⟩ := hd
    exact rel_remove h t s ht
  | removeByIMSI i =>
    simp only [apply, removeSessionByIMSI, View.apply, h.byImsi i]
    cases hb : v.byIMSI i with
    | none => exact ⟨c, rfl, h, rfl⟩
    | some s =>
      obtain ⟨t, ht, _⟩ := (byIMSI_eq h.inodup i s).1 hb
      exact rel_remove h t s ht
  | activate s =>
    refine ⟨_, rfl, ?_, ?_⟩
    · simp only [activate, View.apply, h.imsi s]
      split
      · exact h
      · refine rel_update h s _ rfl rfl ?_ ?_ ?_ rfl (fun _ _ => rfl)
        · intro j; split <;> exact h.imsi j
        · intro j; split <;> exact h.peer j
        · intro j; dsimp only; split
          · rfl
          · exact h.active j
    · simp only [activate]; split <;> rfl
  | deactivate s =>
    refine ⟨_, rfl, ?_, rfl⟩
    refine rel_update h s _ rfl rfl ?_ ?_ ?_ rfl (fun _ _ => rfl)
    · intro j; split <;> exact h.imsi j
    · intro j; split <;> exact h.peer j
    · intro j; simp only [View.apply]; split
      · rfl
      · exact h.active j
  | addTEID s f t =>
    refine ⟨_, rfl, ?_, rfl⟩
    refine rel_update h s _ rfl rfl ?_ ?_ ?_ ?_ (fun _ _ => rfl)
    · intro j; split <;> exact h.imsi j
    · intro j; split <;> exact h.peer j
    · intro j; split <;> exact h.active j
    · simp only [SyncMap.load_store]
      rw [if_neg]
      exact fun e => hd e.symm
  | updatePeer s a =>
    refine ⟨_, rfl, ?_, rfl⟩
    refine rel_update h s _ rfl rfl ?_ ?_ ?_ rfl (fun _ _ => rfl)
    · intro j; split <;> exact h.imsi j
    · intro j; simp only [View.apply]; split
      · rfl
      · exact h.peer j
    · intro j; split <;> exact h.active j
  | setIMSI s i =>
    refine ⟨_, rfl, ?_, rfl⟩
    refine rel_update h s _ rfl rfl ?_ ?_ ?_ rfl ?_
    · intro j; simp only [View.apply]; split
      · rfl
      · exact h.imsi j
    · intro j; split <;> exact h.peer j
    · intro j; split <;> exact h.active j
    · intro e he
      have : ¬ e.2 = s := by
        rintro rfl
        exact hd e.1 he
      simp [View.apply, this]
  | reserve k =>
    refine ⟨_, rfl, ?_, ?_⟩
    · simp only [reserve, View.apply]
      by_cases hk : k = 0
      · simp only [hk, if_true, true_or]; exact h
      · simp only [hk, if_false, false_or, SyncMap.loadOrStore]
        have hl := h.teid k
        cases hb : v.byTEID k with
        | some s =>
          rw [hb] at hl
          simp only [hl, Option.isSome_some, or_true, if_true]
          exact h
        | none =>
          rw [hb] at hl
          by_cases hm : k ∈ v.reserved
          · simp only [hm, if_true] at hl
            simp only [hl, hm, true_or, if_true]
            exact h
          · simp only [hm, if_false] at hl
            simp only [hl, hm, Option.isSome_none, Bool.false_eq_true, or_self, if_false]
            refine ⟨h.imsi, h.peer, h.active, ?_, h.byImsi, h.own, h.tnodup, h.inodup, h.wf, ?_⟩
            · intro u
              simp only [SyncMap.load_store]
              have e : ({ v with reserved := k :: v.reserved } : View).byTEID u = v.byTEID u := rfl
              rw [e]
              by_cases hu : u = k
              · subst hu; rw [hb]; simp
              · rw [if_neg hu, h.teid u]
                simp only [List.mem_cons, hu, false_or]
            · intro u j hj hc
              rcases List.mem_cons.1 hc with rfl | hc
              · rw [(byTEID_eq h.tnodup u j).2 hj] at hb; cases hb
              · exact h.excl u j hj hc
    · simp only [reserve]; split <;> rfl
  | addHandler t id => exact ⟨_, rfl, ⟨h.imsi, h.peer, h.active, h.teid, h.byImsi, h.own, h.tnodup, h.inodup, h.wf, h.excl⟩, rfl⟩
  | setValidation on => exact ⟨_, rfl, ⟨h.imsi, h.peer, h.active, h.teid, h.byImsi, h.own, h.tnodup, h.inodup, h.wf, h.excl⟩, rfl⟩

theorem rel_applyAll {c : Conn} {v : View} (h : Rel c v) (ops : List Op) (hd : v.allowsAll c.localIf ops) :
    ∃ c', applyAll c ops = ok c' ∧ Rel c' (v.applyAll ops) := by
  induction ops generalizing c v with
  | nil => exact ⟨c, rfl, h⟩
  | cons op ops ih =>
    obtain ⟨c1, h1, h2, h3⟩ := rel_apply h op hd.1
    obtain ⟨c2, h4, h5⟩ := ih h2 (by rw [h3]; exact hd.2)
    refine ⟨c2, ?_, h5⟩
    simp only [applyAll, h1, bind_ok]
    exact h4

theorem rel_start (localIf counter : UInt8) (heap : Nat → Sess) :
    Rel (newConn localIf counter heap) (start (newConn localIf counter heap)) where
  imsi _ := rfl
  peer _ := rfl
  active _ := rfl
  teid t := by simp [newConn, start, SyncMap.load, View.byTEID]
  byImsi i := by simp [newConn, start, SyncMap.load, View.byIMSI]
  own t s h := by simp [start] at h
  tnodup := by simp [start]
  inodup := by simp [start]
  wf := SyncMap.wf_nil
  excl t s h := by simp [start] at h

/-- C33, the part that holds: for every sequence of operations that follows the discipline `View.allows`, no operation
panics, and afterwards: lookup by IMSI gives the registered session with that IMSI; lookup by TEID gives the session
registered under it if the peer is the session's and an error if the TEID is not registered or the peer differs (and
panics if the TEID is only reserved); the session count is the number of registered active sessions and Sessions lists
exactly the registered ones.  Missing: sequences outside the discipline, see the counterexamples below. -/
theorem C33_registry_partial (localIf counter : UInt8) (heap : Nat → Sess) (ops : List Op) (v : View)
    (hd : (start (newConn localIf counter heap)).allowsAll localIf ops)
    (hv : v = (start (newConn localIf counter heap)).applyAll ops) :
    ∃ c, applyAll (newConn localIf counter heap) ops = ok c ∧
      (∀ i, getSessionByIMSI c i = match v.byIMSI i with
        | some s => ok s
        | none => err .notFound) ∧
      (∀ t p, getSessionByTEID c t p = match v.byTEID t with
        | some s => if p = v.peer s then ok s else err .notFound
        | none => if t ∈ v.reserved then .panic else err .notFound) ∧
      sessionCount c = (v.reg.filter (fun e => v.active e.2)).length ∧
      (sessions c).Perm (v.reg.map Prod.snd) := by
  obtain ⟨c, h1, h⟩ := rel_applyAll (rel_start localIf counter heap) ops hd
  rw [← hv] at h
  have hperm : c.byImsi.Perm (v.reg.map (fun e => (v.imsi e.2, e.2))) := by
    have n1 : c.byImsi.Nodup := List.Nodup.of_map Prod.fst h.wf
    have n2 : (v.reg.map (fun e => (v.imsi e.2, e.2))).Nodup := by
      apply List.Nodup.of_map Prod.fst
      rw [List.map_map]
      exact h.inodup
    rw [List.perm_ext_iff_of_nodup n1 n2]
    rintro ⟨i, s⟩
    rw [SyncMap.mem_iff h.wf, h.byImsi i, byIMSI_eq h.inodup]
    simp only [List.mem_map, Prod.mk.injEq]
    constructor
    · rintro ⟨t, ht, hi⟩; exact ⟨(t, s), ht, hi, rfl⟩
    · rintro ⟨e, he, hi, rfl⟩; exact ⟨e.1, he, hi⟩
  refine ⟨c, h1, ?_, ?_, ?_, ?_⟩
  · intro i
    unfold getSessionByIMSI
    rw [h.byImsi i]
    cases v.byIMSI i <;> rfl
  · intro t p
    unfold getSessionByTEID
    rw [h.teid t]
    cases v.byTEID t with
    | some s =>
      simp only [h.peer s, ne_eq]
      by_cases hp : p = v.peer s
      · simp [hp]
      · simp [hp]
    | none =>
      by_cases hm : t ∈ v.reserved
      · simp [hm]
      · simp [hm]
  · unfold sessionCount
    have := (hperm.filter (fun e => (c.heap e.2).active)).length_eq
    rw [this, List.filter_map, List.length_map]
    congr 2
    funext e
    simp only [Function.comp, h.active]
  · have := hperm.map Prod.snd
    unfold sessions
    rw [List.map_map] at this
    exact this

/-! ### all sequences -/

/-- C33 for the lookup by IMSI, for all sequences of operations in which no IMSI is changed (whatever else they do): it
returns session s iff s was registered, has that IMSI, and since then no session with that IMSI was registered or
removed.  ("Removed" is by IMSI: removing another session with the same IMSI also counts.) -/
theorem C33_imsi_history (c0 c : Conn) (ops : List Op) (hc : c0.byImsi = [])
    (hfix : ∀ s i, Op.setIMSI s i ∉ ops) (h : applyAll c0 ops = ok c) (i : Bytes) (s : Nat) :
    getSessionByIMSI c i = ok s ↔
      ∃ pre t post, ops = pre ++ Op.register t s :: post ∧ (c0.heap s).imsi = i ∧
        (∀ t' s', Op.register t' s' ∈ post → (c0.heap s').imsi ≠ i) ∧
        (∀ s', Op.remove s' ∈ post → (c0.heap s').imsi ≠ i) ∧ Op.removeByIMSI i ∉ post := by
  -- one operation
  have hstep : ∀ (d c : Conn) (op : Op), (∀ s i, op ≠ .setIMSI s i) → apply d op = ok c →
      (∀ j, (c.heap j).imsi = (d.heap j).imsi) ∧
      ∀ i, c.byImsi.load i = (match op with
        | .register _ s' => if i = (d.heap s').imsi then some s' else d.byImsi.load i
        | .remove s' => if i = (d.heap s').imsi then none else d.byImsi.load i
        | .removeByIMSI i' => (match d.byImsi.load i' with
          | some s' => if i = (d.heap s').imsi then none else d.byImsi.load i
          | none => d.byImsi.load i)
        | _ => d.byImsi.load i) := by
    have hrem : ∀ (d c : Conn) (s' : Nat), removeSession d s' = ok c → (∀ j, (c.heap j).imsi = (d.heap j).imsi) ∧
        ∀ i, c.byImsi.load i = if i = (d.heap s').imsi then none else d.byImsi.load i := by
      intro d c s' hr
      unfold removeSession at hr
      simp only at hr
      split at hr
      · simp only [ok.injEq] at hr; subst hr
        exact ⟨fun _ => rfl, fun i => SyncMap.load_delete _ _ _⟩
      · split at hr
        · cases hr
        · simp only [ok.injEq] at hr; subst hr
          exact ⟨fun _ => rfl, fun i => SyncMap.load_delete _ _ _⟩
    have hupd : ∀ (d : Conn) (s' : Nat) (f : Sess → Sess), (∀ x, (f x).imsi = x.imsi) →
        (∀ j, ((update d s' f).heap j).imsi = (d.heap j).imsi) := by
      intro d s' f hf j
      simp only [update]; split
      · exact hf _
      · rfl
    intro d c op hns ha
    cases op with
    | register t s' =>
      simp only [apply, ok.injEq] at ha; subst ha
      exact ⟨fun j => by simp only [registerSession, addTEID, update]; split <;> rfl, fun i => SyncMap.load_store _ _ _ _⟩
    | remove s' => exact hrem d c s' ha
    | removeByIMSI i' =>
      simp only [apply, removeSessionByIMSI] at ha
      dsimp only
      cases hl : d.byImsi.load i' with
      | none => rw [hl] at ha; simp only [ok.injEq] at ha; subst ha; exact ⟨fun _ => rfl, fun _ => rfl⟩
      | some s' => rw [hl] at ha; exact hrem d c s' ha
    | activate s' =>
      simp only [apply, ok.injEq] at ha; subst ha
      refine ⟨?_, ?_⟩
      · unfold activate; split
        · intro j; rfl
        · exact hupd _ _ _ (fun _ => rfl)
      · intro i; unfold activate; split <;> rfl
    | deactivate s' => simp only [apply, ok.injEq] at ha; subst ha; exact ⟨hupd _ _ _ (fun _ => rfl), fun _ => rfl⟩
    | addTEID s' f t => simp only [apply, ok.injEq] at ha; subst ha; exact ⟨hupd _ _ _ (fun _ => rfl), fun _ => rfl⟩
    | updatePeer s' a => simp only [apply, ok.injEq] at ha; subst ha; exact ⟨hupd _ _ _ (fun _ => rfl), fun _ => rfl⟩
    | setIMSI s' i' => exact absurd rfl (hns s' i')
    | reserve k =>
      simp only [apply, ok.injEq] at ha; subst ha
      refine ⟨?_, ?_⟩ <;> unfold reserve <;> split <;> (intro j; rfl)
    | addHandler t id => simp only [apply, ok.injEq] at ha; subst ha; exact ⟨fun _ => rfl, fun _ => rfl⟩
    | setValidation on => simp only [apply, ok.injEq] at ha; subst ha; exact ⟨fun _ => rfl, fun _ => rfl⟩
  -- all operations, from the right; also what is found under an IMSI has that IMSI
  have happ : ∀ (d : Conn) (a b : List Op), applyAll d (a ++ b) = (applyAll d a >>= fun d => applyAll d b) := by
    intro d a
    induction a generalizing d with
    | nil => intro b; rfl
    | cons x a ih =>
      intro b
      rw [List.cons_append]
      simp only [applyAll]
      cases hx : apply d x with
      | ok d' => simp only [bind_ok]; exact ih d' b
      | _ => rfl
  have main : ∀ (ops : List Op) (c : Conn), (∀ s i, Op.setIMSI s i ∉ ops) → applyAll c0 ops = ok c →
      (∀ j, (c.heap j).imsi = (c0.heap j).imsi) ∧ ∀ i s, c.byImsi.load i = some s ↔
        ∃ pre t post, ops = pre ++ Op.register t s :: post ∧ (c0.heap s).imsi = i ∧
        (∀ t' s', Op.register t' s' ∈ post → (c0.heap s').imsi ≠ i) ∧
        (∀ s', Op.remove s' ∈ post → (c0.heap s').imsi ≠ i) ∧ Op.removeByIMSI i ∉ post := by
    intro ops
    induction ops using List.reverseRecOn with
    | nil =>
      intro c _ h
      simp only [applyAll, ok.injEq] at h; subst h
      refine ⟨fun _ => rfl, ?_⟩
      intro i s
      rw [hc]
      simp [SyncMap.load]
    | append_singleton ops op ih =>
      intro c hfix h
      rw [happ, bind_eq_ok] at h
      obtain ⟨d, hd, h⟩ := h
      simp only [applyAll] at h
      rw [bind_eq_ok] at h
      obtain ⟨c', hc', h⟩ := h
      simp only [ok.injEq] at h; subst h
      obtain ⟨i1, i2⟩ := ih d (fun s i hm => hfix s i (List.mem_append_left _ hm)) hd
      obtain ⟨s1, s2⟩ := hstep d c' op (fun s i e => hfix s i (by rw [← e]; simp)) hc'
      refine ⟨fun j => (s1 j).trans (i1 j), ?_⟩
      intro i s
      rw [s2 i]
      -- the last operation is not a registration of this session that still counts
      have old : (∀ t, op = .register t s → (c0.heap s).imsi ≠ i) →
          ((∃ pre t post, ops ++ [op] = pre ++ Op.register t s :: post ∧ (c0.heap s).imsi = i ∧
            (∀ t' s', Op.register t' s' ∈ post → (c0.heap s').imsi ≠ i) ∧
            (∀ s', Op.remove s' ∈ post → (c0.heap s').imsi ≠ i) ∧ Op.removeByIMSI i ∉ post) ↔
          (d.byImsi.load i = some s ∧ (∀ t' s', op = .register t' s' → (c0.heap s').imsi ≠ i) ∧
            (∀ s', op = .remove s' → (c0.heap s').imsi ≠ i) ∧ op ≠ .removeByIMSI i)) := by
        intro hno
        rw [i2 i s]
        constructor
        · rintro ⟨pre, t, post, e, hi, a1, a2, a3⟩
          rcases List.eq_nil_or_concat post with rfl | ⟨post', x, rfl⟩
          · have := List.append_inj' e rfl
            simp only [List.cons.injEq, and_true] at this
            exact absurd hi (hno t this.2)
          · rw [List.concat_eq_append, ← List.cons_append, ← List.append_assoc] at e
            have := List.append_inj' e rfl
            simp only [List.cons.injEq, and_true] at this
            obtain ⟨e1, rfl⟩ := this
            simp only [List.concat_eq_append] at a1 a2 a3
            refine ⟨⟨pre, t, post', e1, hi, ?_, ?_, ?_⟩, ?_, ?_, ?_⟩
            · intro t' s' hm; exact a1 t' s' (List.mem_append_left _ hm)
            · intro s' hm; exact a2 s' (List.mem_append_left _ hm)
            · intro hm; exact a3 (List.mem_append_left _ hm)
            · rintro t' s' rfl; exact a1 t' s' (by simp)
            · rintro s' rfl; exact a2 s' (by simp)
            · rintro rfl; exact a3 (by simp)
        · rintro ⟨⟨pre, t, post, rfl, hi, a1, a2, a3⟩, b1, b2, b3⟩
          refine ⟨pre, t, post ++ [op], by simp, hi, ?_, ?_, ?_⟩
          · intro t' s' hm
            rcases List.mem_append.1 hm with hm | hm
            · exact a1 t' s' hm
            · simp only [List.mem_singleton] at hm; exact b1 t' s' hm.symm
          · intro s' hm
            rcases List.mem_append.1 hm with hm | hm
            · exact a2 s' hm
            · simp only [List.mem_singleton] at hm; exact b2 s' hm.symm
          · intro hm
            rcases List.mem_append.1 hm with hm | hm
            · exact a3 hm
            · simp only [List.mem_singleton] at hm; exact b3 hm.symm
      cases op with
      | register t' s' =>
        dsimp only
        rw [i1 s']
        by_cases hi : i = (c0.heap s').imsi
        · rw [if_pos hi]
          constructor
          · intro e
            simp only [Option.some.injEq] at e; subst e
            exact ⟨ops, t', [], rfl, hi.symm, by simp, by simp, by simp⟩
          · rintro ⟨pre, t, post, e, hs, a1, a2, a3⟩
            rcases List.eq_nil_or_concat post with rfl | ⟨post', x, rfl⟩
            · have := List.append_inj' e rfl
              simp only [List.cons.injEq, and_true, Op.register.injEq] at this
              rw [this.2.2]
            · rw [List.concat_eq_append, ← List.cons_append, ← List.append_assoc] at e
              have := List.append_inj' e rfl
              simp only [List.cons.injEq, and_true] at this
              obtain ⟨_, rfl⟩ := this
              exact absurd hi.symm (a1 t' s' (by simp))
        · rw [if_neg hi, old]
          · constructor
            · intro e
              refine ⟨e, ?_, by simp, by simp⟩
              intro t s e
              simp only [Op.register.injEq] at e
              rw [← e.2]; exact fun x => hi x.symm
            · exact fun x => x.1
          · intro t e
            simp only [Op.register.injEq] at e
            rw [← e.2]; exact fun x => hi x.symm
      | remove s' =>
        dsimp only
        rw [i1 s', old (by simp)]
        by_cases hi : i = (c0.heap s').imsi
        · rw [if_pos hi]
          constructor
          · intro e; cases e
          · rintro ⟨_, _, b2, _⟩
            exact absurd hi.symm (b2 s' rfl)
        · rw [if_neg hi]
          constructor
          · intro e
            refine ⟨e, by simp, ?_, by simp⟩
            intro s e
            simp only [Op.remove.injEq] at e
            rw [← e]; exact fun x => hi x.symm
          · exact fun x => x.1
      | removeByIMSI i' =>
        dsimp only
        rw [old (by simp)]
        by_cases hi : i = i'
        · subst hi
          cases hl : d.byImsi.load i with
          | none => simp
          | some s' =>
            have : (c0.heap s').imsi = i := by
              obtain ⟨_, _, _, _, e, _⟩ := (i2 i s').1 hl
              exact e
            simp only
            rw [i1 s', this, if_pos rfl]
            simp
        · cases hl : d.byImsi.load i' with
          | none =>
            simp only [ne_eq, Op.removeByIMSI.injEq, reduceCtorEq, false_implies, implies_true, true_and]
            exact ⟨fun e => ⟨e, fun x => hi x.symm⟩, fun x => x.1⟩
          | some s' =>
            -- what is found under i' has IMSI i'
            have him : (d.heap s').imsi = i' := by
              obtain ⟨_, _, _, _, e, _⟩ := (i2 i' s').1 hl
              rw [i1 s']; exact e
            simp only [him, if_neg hi, ne_eq, Op.removeByIMSI.injEq, reduceCtorEq, false_implies, implies_true, true_and]
            exact ⟨fun e => ⟨e, fun x => hi x.symm⟩, fun x => x.1⟩
      | setIMSI s' i' => exact absurd (by simp) (hfix s' i')
      | _ =>
        dsimp only
        rw [old (by simp)]
        simp
  unfold getSessionByIMSI
  rw [← (main ops c hfix h).2 i s]
  cases c.byImsi.load i <;> simp

theorem wf_filter {α β : Type} {m : SyncMap α β} (h : SyncMap.WF m) (p : α × β → Bool) : SyncMap.WF (m.filter p) :=
  (List.filter_sublist.map Prod.fst).nodup h

theorem removeSession_ok {c d : Conn} {s : Nat} (hw : SyncMap.WF c.byTeid) (h : removeSession c s = ok d) :
    (∀ t x, d.byTeid.load t = some x → c.byTeid.load t = some x) ∧ SyncMap.WF d.byTeid ∧
    d.byImsi = c.byImsi.delete (c.heap s).imsi ∧ d.heap = c.heap := by
  unfold removeSession at h
  simp only at h
  split at h
  · simp only [ok.injEq] at h; subst h
    refine ⟨?_, SyncMap.wf_delete hw _, rfl, rfl⟩
    intro t x hx
    simp only [SyncMap.load_delete] at hx
    split at hx
    · cases hx
    · exact hx
  · split at h
    · cases h
    · simp only [ok.injEq] at h; subst h
      refine ⟨?_, wf_filter hw _, rfl, rfl⟩
      intro t x hx
      have := SyncMap.mem_of_load hx
      exact SyncMap.load_of_mem hw (List.mem_of_mem_filter this)

/-- induction over the operations, from the right -/
theorem applyAll_append (d : Conn) (a b : List Op) : applyAll d (a ++ b) = (applyAll d a >>= fun d => applyAll d b) := by
  induction a generalizing d with
  | nil => rfl
  | cons x a ih =>
    rw [List.cons_append]
    simp only [applyAll]
    cases hx : apply d x with
    | ok d' => simp only [bind_ok]; exact ih d'
    | _ => rfl

theorem applyAll_induct (P : List Op → Conn → Prop) (c0 : Conn) (h0 : P [] c0)
    (h1 : ∀ ops op d c, P ops d → apply d op = ok c → P (ops ++ [op]) c) (ops : List Op) (c : Conn)
    (h : applyAll c0 ops = ok c) : P ops c := by
  induction ops using List.reverseRecOn generalizing c with
  | nil => simp only [applyAll, ok.injEq] at h; subst h; exact h0
  | append_singleton ops op ih =>
    rw [applyAll_append, bind_eq_ok] at h
    obtain ⟨d, hd, h⟩ := h
    simp only [applyAll] at h
    rw [bind_eq_ok] at h
    obtain ⟨c', hc', h⟩ := h
    simp only [ok.injEq] at h; subst h
    exact h1 ops op d c' (ih d hd) hc'

/-- what holds of the tables after any operations -/
structure Tables (ops : List Op) (c : Conn) : Prop where
  wfT : SyncMap.WF c.byTeid
  wfI : SyncMap.WF c.byImsi
  reg : ∀ t s, c.byTeid.load t = some (some s) →
    ∃ pre post, ops = pre ++ Op.register t s :: post ∧ ∀ s', Op.register t s' ∉ post
  res : ∀ t, c.byTeid.load t = some none → Op.reserve t ∈ ops ∧ ∀ pre s post, ops = pre ++ Op.register t s :: post →
    Op.reserve t ∈ post

theorem tables_mono {ops : List Op} {d c : Conn} {op : Op} (h : Tables ops d) (hop : ∀ t s, op ≠ .register t s)
    (hT : SyncMap.WF c.byTeid) (hI : SyncMap.WF c.byImsi)
    (hsub : ∀ t x, c.byTeid.load t = some x → d.byTeid.load t = some x) : Tables (ops ++ [op]) c where
  wfT := hT
  wfI := hI
  reg t s hl := by
    obtain ⟨pre, post, rfl, h2⟩ := h.reg t s (hsub t _ hl)
    refine ⟨pre, post ++ [op], by simp, ?_⟩
    intro s' hm
    rcases List.mem_append.1 hm with hm | hm
    · exact h2 s' hm
    · simp only [List.mem_singleton] at hm; exact hop t s' hm.symm
  res t hl := by
    obtain ⟨h1, h2⟩ := h.res t (hsub t _ hl)
    refine ⟨List.mem_append_left _ h1, ?_⟩
    intro pre s post e
    rcases List.eq_nil_or_concat post with rfl | ⟨post', x, rfl⟩
    · have := List.append_inj' e rfl
      simp only [List.cons.injEq, and_true] at this
      exact absurd this.2 (hop t s)
    · rw [List.concat_eq_append, ← List.cons_append, ← List.append_assoc] at e
      rw [List.concat_eq_append]
      exact List.mem_append_left _ (h2 pre s post' (List.append_inj' e rfl).1)

theorem tables_apply (ops : List Op) (op : Op) (d c : Conn) (h : Tables ops d) (ha : apply d op = ok c) : Tables (ops ++ [op]) c := by
  have hrem : ∀ s, removeSession d s = ok c → SyncMap.WF c.byTeid ∧ SyncMap.WF c.byImsi ∧
      ∀ t x, c.byTeid.load t = some x → d.byTeid.load t = some x := by
    intro s hr
    obtain ⟨h1, h2, h3, _⟩ := removeSession_ok h.wfT hr
    exact ⟨h2, by rw [h3]; exact SyncMap.wf_delete h.wfI _, h1⟩
  cases op with
  | register t s =>
    simp only [apply, ok.injEq] at ha; subst ha
    have e1 : (registerSession d t s).byTeid = d.byTeid.store t (some s) := rfl
    have e2 : (registerSession d t s).byImsi = d.byImsi.store (d.heap s).imsi s := rfl
    refine ⟨by rw [e1]; exact SyncMap.wf_store h.wfT _ _, by rw [e2]; exact SyncMap.wf_store h.wfI _ _, ?_, ?_⟩
    · intro u j hl
      rw [e1, SyncMap.load_store] at hl
      split at hl
      · rename_i hu; subst hu
        simp only [Option.some.injEq] at hl; subst hl
        exact ⟨ops, [], rfl, by simp⟩
      · rename_i hu
        obtain ⟨pre, post, rfl, h2⟩ := h.reg u j hl
        refine ⟨pre, post ++ [.register t s], by simp, ?_⟩
        intro s' hm
        rcases List.mem_append.1 hm with hm | hm
        · exact h2 s' hm
        · simp only [List.mem_singleton, Op.register.injEq] at hm; exact hu hm.1
    · intro u hl
      rw [e1, SyncMap.load_store] at hl
      split at hl
      · cases hl
      · rename_i hu
        obtain ⟨h1, h2⟩ := h.res u hl
        refine ⟨List.mem_append_left _ h1, ?_⟩
        intro pre s' post e
        rcases List.eq_nil_or_concat post with rfl | ⟨post', x, rfl⟩
        · have := List.append_inj' e rfl
          simp only [List.cons.injEq, and_true, Op.register.injEq] at this
          exact absurd this.2.1.symm hu
        · rw [List.concat_eq_append, ← List.cons_append, ← List.append_assoc] at e
          rw [List.concat_eq_append]
          exact List.mem_append_left _ (h2 pre s' post' (List.append_inj' e rfl).1)
  | remove s =>
    obtain ⟨h1, h2, h3⟩ := hrem s ha
    exact tables_mono h (by simp) h1 h2 h3
  | removeByIMSI i =>
    simp only [apply, removeSessionByIMSI] at ha
    split at ha
    · simp only [ok.injEq] at ha; subst ha
      exact tables_mono h (by simp) h.wfT h.wfI (fun _ _ x => x)
    · obtain ⟨h1, h2, h3⟩ := hrem _ ha
      exact tables_mono h (by simp) h1 h2 h3
  | activate s =>
    simp only [apply, ok.injEq] at ha; subst ha
    unfold activate
    split <;> exact tables_mono h (by simp) h.wfT h.wfI (fun _ _ x => x)
  | deactivate s => simp only [apply, ok.injEq] at ha; subst ha; exact tables_mono h (by simp) h.wfT h.wfI (fun _ _ x => x)
  | addTEID s f t => simp only [apply, ok.injEq] at ha; subst ha; exact tables_mono h (by simp) h.wfT h.wfI (fun _ _ x => x)
  | updatePeer s a => simp only [apply, ok.injEq] at ha; subst ha; exact tables_mono h (by simp) h.wfT h.wfI (fun _ _ x => x)
  | setIMSI s i => simp only [apply, ok.injEq] at ha; subst ha; exact tables_mono h (by simp) h.wfT h.wfI (fun _ _ x => x)
  | addHandler t id => simp only [apply, ok.injEq] at ha; subst ha; exact tables_mono h (by simp) h.wfT h.wfI (fun _ _ x => x)
  | setValidation on => simp only [apply, ok.injEq] at ha; subst ha; exact tables_mono h (by simp) h.wfT h.wfI (fun _ _ x => x)
  | reserve k =>
    simp only [apply, ok.injEq] at ha; subst ha
    unfold reserve
    split
    · exact tables_mono h (by simp) h.wfT h.wfI (fun _ _ x => x)
    · unfold SyncMap.loadOrStore
      split
      · exact tables_mono h (by simp) h.wfT h.wfI (fun _ _ x => x)
      · rename_i hl
        refine ⟨SyncMap.wf_store h.wfT _ _, h.wfI, ?_, ?_⟩
        · intro t s hs
          simp only [SyncMap.load_store] at hs
          split at hs
          · cases hs
          · obtain ⟨pre, post, rfl, h2⟩ := h.reg t s hs
            refine ⟨pre, post ++ [.reserve k], by simp, ?_⟩
            intro s' hm
            rcases List.mem_append.1 hm with hm | hm
            · exact h2 s' hm
            · simp at hm
        · intro t ht
          simp only [SyncMap.load_store] at ht
          by_cases hk : t = k
          · subst hk
            refine ⟨by simp, ?_⟩
            intro pre s post e
            rcases List.eq_nil_or_concat post with rfl | ⟨post', x, rfl⟩
            · have := List.append_inj' e rfl
              simp at this
            · rw [List.concat_eq_append, ← List.cons_append, ← List.append_assoc] at e
              have := List.append_inj' e rfl
              simp only [List.cons.injEq, and_true] at this
              rw [List.concat_eq_append, ← this.2]
              simp
          · rw [if_neg hk] at ht
            obtain ⟨h1, h2⟩ := h.res t ht
            refine ⟨List.mem_append_left _ h1, ?_⟩
            intro pre s post e
            rcases List.eq_nil_or_concat post with rfl | ⟨post', x, rfl⟩
            · have := List.append_inj' e rfl
              simp at this
            · rw [List.concat_eq_append, ← List.cons_append, ← List.append_assoc] at e
              rw [List.concat_eq_append]
              exact List.mem_append_left _ (h2 pre s post' (List.append_inj' e rfl).1)

theorem tables_run (localIf counter : UInt8) (heap : Nat → Sess) (ops : List Op) (c : Conn)
    (h : applyAll (newConn localIf counter heap) ops = ok c) : Tables ops c := by
  refine applyAll_induct Tables _ ?_ tables_apply ops c h
  refine ⟨SyncMap.wf_nil, SyncMap.wf_nil, ?_, ?_⟩
  · intro t s h; simp [newConn, SyncMap.load] at h
  · intro t h; simp [newConn, SyncMap.load] at h

/-- C33 for the lookup by TEID, for all sequences of operations: a session is only returned if it was registered under
that TEID, no other session was registered under it since, and the peer asked for is the session's current peer. -/
theorem C33_teid_sound (localIf counter : UInt8) (heap : Nat → Sess) (ops : List Op) (c : Conn)
    (h : applyAll (newConn localIf counter heap) ops = ok c) (t : UInt32) (p : String) (s : Nat)
    (hg : getSessionByTEID c t p = ok s) :
    (c.heap s).peer = p ∧ ∃ pre post, ops = pre ++ Op.register t s :: post ∧ ∀ s', Op.register t s' ∉ post := by
  unfold getSessionByTEID at hg
  split at hg
  · cases hg
  · cases hg
  · rename_i s' hl
    split at hg
    · cases hg
    · rename_i hp
      simp only [ok.injEq] at hg; subst hg
      exact ⟨(Classical.not_not.1 hp).symm, (tables_run localIf counter heap ops c h).reg t s' hl⟩

/-- C33 for the count, for all sequences of operations: SessionCount is the number of IMSIs for which the lookup by IMSI
gives an active session. -/
theorem C33_count (localIf counter : UInt8) (heap : Nat → Sess) (ops : List Op) (c : Conn)
    (h : applyAll (newConn localIf counter heap) ops = ok c) :
    ∃ l : List Bytes, l.Nodup ∧ (∀ i, i ∈ l ↔ ∃ s, getSessionByIMSI c i = ok s ∧ (c.heap s).active = true) ∧
      sessionCount c = l.length := by
  have hw := (tables_run localIf counter heap ops c h).wfI
  refine ⟨(c.byImsi.filter (fun e => (c.heap e.2).active)).map Prod.fst, wf_filter hw _, ?_, by simp [sessionCount]⟩
  intro i
  rw [List.mem_map]
  constructor
  · rintro ⟨⟨j, s⟩, hm, rfl⟩
    rw [List.mem_filter] at hm
    refine ⟨s, ?_, hm.2⟩
    unfold getSessionByIMSI
    rw [SyncMap.load_of_mem hw hm.1]
  · rintro ⟨s, hs, ha⟩
    unfold getSessionByIMSI at hs
    split at hs
    · rename_i s' hl
      simp only [ok.injEq] at hs; subst hs
      exact ⟨(i, s'), List.mem_filter.2 ⟨SyncMap.mem_of_load hl, ha⟩, rfl⟩
    · cases hs

/-! ### examples and counterexamples -/

/-- four sessions: 0 and 1 belong to the same subscriber -/
def exHeap : Nat → Sess
  | 0 => ⟨[48, 48, 49], "peer", false, [], [], [], [], [], [], 0⟩
  | 1 => ⟨[48, 48, 49], "peer", false, [], [], [], [], [], [], 0⟩
  | 2 => ⟨[48, 48, 50], "other", false, [], [], [], [], [], [], 0⟩
  | _ => ⟨[], "peer", false, [], [], [], [], [], [], 0⟩

def exConn : Conn := newConn 10 0 exHeap

/-- results of the lookups after some operations -/
def after (ops : List Op) (i : Bytes) (t : UInt32) (p : String) : Option (Res Nat × Res Nat × Nat) :=
  match applyAll exConn ops with
  | ok c => some (getSessionByIMSI c i, getSessionByTEID c t p, sessionCount c)
  | _ => none

example : after [.register 5 0, .activate 0, .register 7 2, .activate 2, .remove 0, .register 9 1] [48, 48, 49] 9 "peer" =
    some (ok 1, ok 1, 1) := by decide +kernel
example : after [.register 5 0, .activate 0, .register 7 2, .activate 2] [48, 48, 50] 7 "peer" = some (ok 2, err .notFound, 2) := by
  decide +kernel
example : (start exConn).allowsAll 10 [.register 5 0, .activate 0, .register 7 2, .reserve 8, .remove 0, .register 9 1] := by
  simp [View.allowsAll, View.allows, View.apply, start, exConn, newConn, exHeap, View.remove, View.byTEID]

/-- C33 fails: removing the earlier of two sessions of a subscriber makes the later one, which is registered and not
removed, unfindable by IMSI. -/
theorem C33_remove_other_by_imsi :
    after [.register 5 0, .register 6 1, .activate 1, .remove 0] [48, 48, 49] 6 "peer" = some (err .notFound, ok 1, 0) := by
  decide +kernel

/-- C33 fails: a session registered again under a new TEID and then removed is still found under the old TEID. -/
theorem C33_old_teid_remains :
    after [.register 5 0, .register 6 0, .remove 0] [48, 48, 49] 5 "peer" = some (err .notFound, ok 0, 0) := by decide +kernel

/-- C33 fails: removing a session whose TEID was taken over by another session unregisters the other session's TEID. -/
theorem C33_remove_other_by_teid :
    after [.register 5 0, .register 5 2, .remove 0] [48, 48, 50] 5 "other" = some (ok 2, err .notFound, 0) := by decide +kernel

/-- C33 fails: changing the IMSI of a registered session leaves it registered under the old one after removal. -/
theorem C33_imsi_change :
    after [.register 5 0, .setIMSI 0 [48, 48, 51], .remove 0] [48, 48, 49] 5 "peer" = some (ok 0, err .notFound, 0) := by decide +kernel

/-- removing a session that was never registered panics if a TEID is reserved -/
theorem C33_remove_panics : applyAll exConn [.reserve 8, .remove 0] = .panic := by
  simp [applyAll, apply, reserve, SyncMap.loadOrStore, SyncMap.load, SyncMap.store, SyncMap.delete, exConn, newConn,
    removeSession, exHeap]

end Verif.V2.Conn

namespace Verif.V2.Conn
open Res
/-! ### cases that meet the hypotheses -/

def exOps : List Op := [.register 5 0, .activate 0, .register 7 2, .reserve 8, .remove 0, .register 9 1]
example := C33_registry_partial 10 0 exHeap exOps _
  (by simp [exOps, View.allowsAll, View.allows, View.apply, start, newConn, exHeap, View.remove, View.byTEID]) rfl
example := C33_imsi_history exConn _ exOps rfl (by intro s i; simp [exOps]) rfl [48, 48, 49] 1
example := C33_teid_sound 10 0 exHeap exOps _ rfl 7 "other" 2 (by decide +kernel)
example := C33_count 10 0 exHeap exOps _ rfl
end Verif.V2.Conn
