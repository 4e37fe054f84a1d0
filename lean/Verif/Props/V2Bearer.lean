import Verif.Model.V2Session
import Mathlib.Data.List.Nodup
/-
C60: the bearers of a session (gtpv2/session.go, gtpv2/bearer.go), for every order in which sync.Map.Range may visit them.
-/
namespace Verif.V2.Conn
open Res Send

variable {c : Conn} {s : Nat}

/-- the bearer (a pointer, possibly nil) the application stored under a name -/
def HasBearer (c : Conn) (s : Nat) (n : String) (b : Option Nat) : Prop := lookupBearerByName c s n = ok b

/-- the session has no nil bearer -/
def NoNil (c : Conn) (s : Nat) : Prop := ∀ n, ¬ HasBearer c s n none

/-- the names of a session are pairwise different; holds for a new session and is kept by all operations
(`C60_table_kept`) -/
def Table (c : Conn) (s : Nat) : Prop := SyncMap.WF (c.heap s).bearers

theorem hasBearer_load {n : String} {b : Option Nat} : HasBearer c s n b ↔ (c.heap s).bearers.load n = some b := by
  unfold HasBearer lookupBearerByName
  cases (c.heap s).bearers.load n <;> simp

theorem hasBearer_mem (h : Table c s) (o : Order) (n : String) (b : Option Nat) :
    (n, b) ∈ o.1 (c.heap s).bearers ↔ HasBearer c s n b := by
  rw [(o.2 _).mem_iff, hasBearer_load]
  exact SyncMap.mem_iff h n b

/-! ### operations and what is found by name -/

theorem hasBearer_update (c : Conn) (s s' : Nat) (f : SyncMap String (Option Nat) → SyncMap String (Option Nat)) (n : String) :
    lookupBearerByName (update c s (fun x => { x with bearers := f x.bearers })) s' n =
      if s' = s then (match (f (c.heap s).bearers).load n with | some b => ok b | none => err .notFound)
      else lookupBearerByName c s' n := by
  unfold lookupBearerByName update
  by_cases h : s' = s
  · subst h; simp only [if_true]; rfl
  · simp [h]

/-- C60: what LookupBearerByName returns after each operation, for every session and every name: a bearer added is found
under its name until the name is given to another or removed, and nothing else changes -/
theorem C60_by_name (c : Conn) (s s' : Nat) (n n' : String) (b : Option Nat) :
    lookupBearerByName (addBearer c s n b) s' n' =
      (if s' = s ∧ n' = n then ok b else lookupBearerByName c s' n') ∧
    lookupBearerByName (setDefaultBearer c s b) s' n' =
      (if s' = s ∧ n' = "default" then ok b else lookupBearerByName c s' n') ∧
    lookupBearerByName (removeBearer c s n) s' n' =
      (if s' = s ∧ n' = n then err .notFound else lookupBearerByName c s' n') := by
  have hadd : ∀ m : String, lookupBearerByName (addBearer c s m b) s' n' =
      (if s' = s ∧ n' = m then ok b else lookupBearerByName c s' n') := by
    intro m
    unfold addBearer
    rw [hasBearer_update c s s' (fun t => t.store m b)]
    by_cases h : s' = s
    · subst h
      by_cases hn : n' = m
      · simp [hn, SyncMap.load_store]
      · simp only [hn, SyncMap.load_store, lookupBearerByName, if_true, if_false, and_false]; rfl
    · simp [h]
  refine ⟨hadd n, hadd "default", ?_⟩
  unfold removeBearer
  rw [hasBearer_update c s s' (fun t => t.delete n)]
  by_cases h : s' = s
  · subst h
    by_cases hn : n' = n
    · simp [hn, SyncMap.load_delete]
    · simp only [hn, SyncMap.load_delete, lookupBearerByName, if_true, if_false, and_false]; rfl
  · simp [h]

/-- C60: GetDefaultBearer and LookupEBIByName are lookups by name -/
theorem C60_default (c : Conn) (s : Nat) (n : String) :
    (getDefaultBearer c s = match lookupBearerByName c s "default" with | ok b => b | _ => none) ∧
    (∀ b, HasBearer c s n (some b) → lookupEBIByName c s n = ok (c.brs b).ebi) ∧
    (lookupBearerByName c s n = err .notFound → lookupEBIByName c s n = ok 0) := by
  refine ⟨?_, ?_, ?_⟩
  · unfold getDefaultBearer lookupBearerByName
    cases (c.heap s).bearers.load "default" <;> rfl
  · intro b h
    rw [hasBearer_load] at h
    simp [lookupEBIByName, h]
  · intro h
    unfold lookupBearerByName at h
    unfold lookupEBIByName
    cases hl : (c.heap s).bearers.load n <;> rw [hl] at h <;> simp at h ⊢

/-- C60: the table of names stays well formed: it is for a new session, and every operation on any session keeps it -/
theorem C60_table_kept (c : Conn) (s s' b : Nat) (n : String) (o : Order) (e : UInt8) (br : Option Nat) (a : Addr) :
    Table (newSession c s b a) s ∧ HasBearer (newSession c s b a) s "default" (some b) ∧
    (Table c s → Table (addBearer c s' n br) s ∧ Table (removeBearer c s' n) s ∧ Table (setDefaultBearer c s' br) s ∧
      ∀ c', removeBearerByEBI c s' o e = ok c' → Table c' s) := by
  have hadd : ∀ n, Table c s → Table (addBearer c s' n br) s := by
    intro n h
    unfold Table addBearer update at *
    by_cases hs : s = s'
    · subst hs; simp only [if_true]; exact SyncMap.wf_store h _ _
    · simp only [hs, if_false]; exact h
  have hrem : ∀ n, Table c s → Table (removeBearer c s' n) s := by
    intro n h
    unfold Table removeBearer update at *
    by_cases hs : s = s'
    · subst hs; simp only [if_true]; exact SyncMap.wf_delete h _
    · simp only [hs, if_false]; exact h
  refine ⟨?_, ?_, fun h => ⟨hadd n h, hrem n h, hadd _ h, ?_⟩⟩
  · simp [Table, newSession, SyncMap.WF]
  · simp [hasBearer_load, newSession, SyncMap.load]
  · intro c' hc
    unfold removeBearerByEBI at hc
    cases hl : lookupBearerNameByEBI c s' o e <;> rw [hl] at hc <;> simp at hc <;> subst hc
    · exact hrem _ h
    · exact h

/-! ### lookups that go through all bearers -/

theorem findEBI_spec (c : Conn) (e : UInt8) (l : List (String × Option Nat)) (hn : ∀ n, (n, none) ∉ l) :
    (∃ n b, findEBI c e l = ok (some (n, b)) ∧ (n, some b) ∈ l ∧ (c.brs b).ebi = e) ∨
    (findEBI c e l = ok none ∧ ∀ n b, (n, some b) ∈ l → (c.brs b).ebi ≠ e) := by
  induction l with
  | nil => exact Or.inr ⟨rfl, by simp⟩
  | cons x l ih =>
    obtain ⟨n, b⟩ := x
    cases b with
    | none => exact absurd (by simp) (hn n)
    | some b =>
      by_cases h : e = (c.brs b).ebi
      · exact Or.inl ⟨n, b, by simp [findEBI, h], by simp, h.symm⟩
      · rcases ih (fun m hm => hn m (List.mem_cons_of_mem _ hm)) with ⟨m, d, h1, h2, h3⟩ | ⟨h1, h2⟩
        · exact Or.inl ⟨m, d, by simp [findEBI, h, h1], List.mem_cons_of_mem _ h2, h3⟩
        · refine Or.inr ⟨by simp [findEBI, h, h1], ?_⟩
          intro m d hm
          rcases List.mem_cons.1 hm with hm | hm
          · simp only [Prod.mk.injEq, Option.some.injEq] at hm
            rw [hm.2]; exact fun hc => h hc.symm
          · exact h2 m d hm

theorem findEBI_table (ht : Table c s) (hn : NoNil c s) (o : Order) (e : UInt8) :
    (∃ n b, findEBI c e (o.1 (c.heap s).bearers) = ok (some (n, b)) ∧ HasBearer c s n (some b) ∧ (c.brs b).ebi = e) ∨
    (findEBI c e (o.1 (c.heap s).bearers) = ok none ∧ ∀ n b, HasBearer c s n (some b) → (c.brs b).ebi ≠ e) := by
  have := findEBI_spec c e (o.1 (c.heap s).bearers) (fun n hc => hn n ((hasBearer_mem ht o n none).1 hc))
  simpa only [hasBearer_mem ht o] using this

/-- C60: LookupBearerByEBI finds a bearer of the session with that EBI if there is one, and fails only if there is none -/
theorem C60_by_ebi (ht : Table c s) (hn : NoNil c s) (o : Order) (e : UInt8) :
    (∃ n b, lookupBearerByEBI c s o e = ok b ∧ HasBearer c s n (some b) ∧ (c.brs b).ebi = e) ∨
    (lookupBearerByEBI c s o e = err .notFound ∧ ∀ n b, HasBearer c s n (some b) → (c.brs b).ebi ≠ e) := by
  rcases findEBI_table ht hn o e with ⟨n, b, h1, h2, h3⟩ | ⟨h1, h2⟩
  · exact Or.inl ⟨n, b, by simp [lookupBearerByEBI, h1], h2, h3⟩
  · exact Or.inr ⟨by simp [lookupBearerByEBI, h1], h2⟩

/-- C60 (partial: no bearer has the empty name, see `C60_empty_name`): LookupBearerNameByEBI returns the name of a bearer with
that EBI if there is one, and fails only if there is none -/
theorem C60_name_by_ebi_partial (ht : Table c s) (hn : NoNil c s) (o : Order) (e : UInt8) (hne : ∀ b, ¬ HasBearer c s "" b) :
    (∃ n b, lookupBearerNameByEBI c s o e = ok n ∧ HasBearer c s n (some b) ∧ (c.brs b).ebi = e) ∨
    (lookupBearerNameByEBI c s o e = err .notFound ∧ ∀ n b, HasBearer c s n (some b) → (c.brs b).ebi ≠ e) := by
  rcases findEBI_table ht hn o e with ⟨n, b, h1, h2, h3⟩ | ⟨h1, h2⟩
  · have : n ≠ "" := by rintro rfl; exact hne _ h2
    exact Or.inl ⟨n, b, by simp [lookupBearerNameByEBI, h1, this], h2, h3⟩
  · exact Or.inr ⟨by simp [lookupBearerNameByEBI, h1], h2⟩

/-- C60 (partial as `C60_name_by_ebi_partial`): RemoveBearerByEBI removes one bearer with that EBI if there is one, and
nothing else -/
theorem C60_remove_by_ebi_partial (ht : Table c s) (hn : NoNil c s) (o : Order) (e : UInt8) (hne : ∀ b, ¬ HasBearer c s "" b) :
    ∃ c', removeBearerByEBI c s o e = ok c' ∧
      ((∃ n b, HasBearer c s n (some b) ∧ (c.brs b).ebi = e ∧
          ∀ s' n', lookupBearerByName c' s' n' = if s' = s ∧ n' = n then err .notFound else lookupBearerByName c s' n') ∨
       (c' = c ∧ ∀ n b, HasBearer c s n (some b) → (c.brs b).ebi ≠ e)) := by
  rcases C60_name_by_ebi_partial ht hn o e hne with ⟨n, b, h1, h2, h3⟩ | ⟨h1, h2⟩
  · exact ⟨_, by simp only [removeBearerByEBI, h1], Or.inl ⟨n, b, h2, h3, fun s' n' => (C60_by_name c s s' n n' none).2.2⟩⟩
  · exact ⟨_, by simp only [removeBearerByEBI, h1], Or.inr ⟨rfl, h2⟩⟩

/-- C60 (partial as above): with exactly one bearer for the EBI all three agree on it, whatever the order; after the removal
no bearer has the EBI -/
theorem C60_unique_ebi_partial (ht : Table c s) (hn : NoNil c s) (o : Order) (e : UInt8) (n : String) (b : Nat)
    (hb : HasBearer c s n (some b)) (he : (c.brs b).ebi = e) (hname : n ≠ "")
    (huniq : ∀ m d, HasBearer c s m (some d) → (c.brs d).ebi = e → m = n) :
    lookupBearerByEBI c s o e = ok b ∧ lookupBearerNameByEBI c s o e = ok n ∧
    removeBearerByEBI c s o e = ok (removeBearer c s n) ∧
    ∀ o', lookupBearerByEBI (removeBearer c s n) s o' e = err .notFound := by
  have h0 : findEBI c e (o.1 (c.heap s).bearers) = ok (some (n, b)) := by
    rcases findEBI_table ht hn o e with ⟨m, d, h1, h2, h3⟩ | ⟨h1, h2⟩
    · obtain rfl := huniq m d h2 h3
      have : ok (some b) = ok (some d) := hb.symm.trans h2
      simp only [ok.injEq, Option.some.injEq] at this
      rw [h1, this]
    · exact absurd he (h2 n b hb)
  have h1 : lookupBearerNameByEBI c s o e = ok n := by simp [lookupBearerNameByEBI, h0, hname]
  refine ⟨by simp [lookupBearerByEBI, h0], h1, by simp only [removeBearerByEBI, h1], ?_⟩
  intro o'
  have hlook : ∀ m, lookupBearerByName (removeBearer c s n) s m = if m = n then err .notFound else lookupBearerByName c s m := by
    intro m
    have := (C60_by_name c s s n m none).2.2
    simpa using this
  have ht' : Table (removeBearer c s n) s := ((C60_table_kept c s s 0 n o e none "").2.2 ht).2.1
  have hn' : NoNil (removeBearer c s n) s := by
    intro m hm
    unfold HasBearer at hm
    rw [hlook] at hm
    by_cases hmn : m = n
    · simp [hmn] at hm
    · rw [if_neg hmn] at hm; exact hn m hm
  rcases C60_by_ebi ht' hn' o' e with ⟨m, d, h1, h2, h3⟩ | ⟨h1, -⟩
  · exfalso
    unfold HasBearer at h2
    rw [hlook] at h2
    by_cases hmn : m = n
    · simp [hmn] at h2
    · rw [if_neg hmn] at h2
      exact hmn (huniq m d h2 h3)
  · exact h1

theorem findTEID_spec (c : Conn) (t : UInt32) (l : List (String × Option Nat)) (hn : ∀ n, (n, none) ∉ l) :
    (∃ n b, findTEID c t l = ok (c.brs b).ebi ∧ (n, some b) ∈ l ∧ ((c.brs b).teidIn = t ∨ (c.brs b).teidOut = t)) ∨
    (findTEID c t l = ok 0 ∧ ∀ n b, (n, some b) ∈ l → (c.brs b).teidIn ≠ t ∧ (c.brs b).teidOut ≠ t) := by
  induction l with
  | nil => exact Or.inr ⟨rfl, by simp⟩
  | cons x l ih =>
    obtain ⟨n, b⟩ := x
    cases b with
    | none => exact absurd (by simp) (hn n)
    | some b =>
      by_cases h : t = (c.brs b).teidIn ∨ t = (c.brs b).teidOut
      · exact Or.inl ⟨n, b, by simp [findTEID, h], by simp, h.imp Eq.symm Eq.symm⟩
      · rcases ih (fun m hm => hn m (List.mem_cons_of_mem _ hm)) with ⟨m, d, h1, h2, h3⟩ | ⟨h1, h2⟩
        · exact Or.inl ⟨m, d, by simp [findTEID, h, h1], List.mem_cons_of_mem _ h2, h3⟩
        · refine Or.inr ⟨by simp [findTEID, h, h1], ?_⟩
          intro m d hm
          rcases List.mem_cons.1 hm with hm | hm
          · simp only [Prod.mk.injEq, Option.some.injEq] at hm
            rw [hm.2]; exact ⟨fun hc => h (Or.inl hc.symm), fun hc => h (Or.inr hc.symm)⟩
          · exact h2 m d hm

/-- C60: LookupEBIByTEID returns the EBI of a bearer having the TEID in one of the directions if there is one, and 0 otherwise -/
theorem C60_ebi_by_teid (ht : Table c s) (hn : NoNil c s) (o : Order) (t : UInt32) :
    (∃ n b, lookupEBIByTEID c s o t = ok (c.brs b).ebi ∧ HasBearer c s n (some b) ∧
      ((c.brs b).teidIn = t ∨ (c.brs b).teidOut = t)) ∨
    (lookupEBIByTEID c s o t = ok 0 ∧ ∀ n b, HasBearer c s n (some b) → (c.brs b).teidIn ≠ t ∧ (c.brs b).teidOut ≠ t) := by
  have := findTEID_spec c t (o.1 (c.heap s).bearers) (fun n hc => hn n ((hasBearer_mem ht o n none).1 hc))
  simpa only [hasBearer_mem ht o, lookupEBIByTEID] using this

/-! ### counting -/

/-- C60: Bearers returns one entry per name, with the bearer stored under it, and BearerCount is their number -/
theorem C60_bearers (ht : Table c s) (o : Order) :
    ∃ names : List String, names.Nodup ∧ (∀ n, n ∈ names ↔ ∃ b, HasBearer c s n b) ∧ bearerCount c s = names.length ∧
      (bearers c s o).map ok = names.map (lookupBearerByName c s) := by
  refine ⟨(o.1 (c.heap s).bearers).map Prod.fst, ((o.2 _).map Prod.fst).nodup_iff.2 ht, ?_, ?_, ?_⟩
  · intro n
    rw [List.mem_map]
    constructor
    · rintro ⟨⟨m, b⟩, h, rfl⟩; exact ⟨b, (hasBearer_mem ht o _ _).1 h⟩
    · rintro ⟨b, h⟩; exact ⟨(n, b), (hasBearer_mem ht o _ _).2 h, rfl⟩
  · rw [List.length_map, (o.2 _).length_eq]; rfl
  · unfold bearers
    rw [List.map_map, List.map_map]
    apply List.map_congr_left
    rintro ⟨n, b⟩ h
    exact ((hasBearer_mem ht o n b).1 h).symm

theorem length_delete {m : SyncMap String (Option Nat)} (h : SyncMap.WF m) (n : String) :
    (m.delete n).length + (if (m.load n).isSome then 1 else 0) = m.length := by
  induction m with
  | nil => simp [SyncMap.delete, SyncMap.load]
  | cons x m ih =>
    unfold SyncMap.WF at h ih
    rw [List.map_cons, List.nodup_cons] at h
    have ih := ih h.2
    by_cases hx : x.1 = n
    · have hm : SyncMap.delete m n = m := by
        unfold SyncMap.delete
        rw [List.filter_eq_self]
        intro y hy
        simp only [ne_eq, decide_not, Bool.not_eq_true', decide_eq_false_iff_not]
        intro hc
        exact h.1 (by rw [hx, ← hc]; exact List.mem_map_of_mem hy)
      have h1 : SyncMap.delete (x :: m) n = m := by
        rw [← hm]; simp [SyncMap.delete, hx]
      simp [h1, SyncMap.load, hx]
    · have h1 : SyncMap.delete (x :: m) n = x :: SyncMap.delete m n := by simp [SyncMap.delete, hx]
      have h2 : SyncMap.load (x :: m) n = SyncMap.load m n := by simp [SyncMap.load, hx]
      rw [h1, h2, List.length_cons, List.length_cons]
      omega

/-- C60: a new session has one bearer; adding under a new name adds one, under a used name none; removing a used name
takes one away -/
theorem C60_count (ht : Table c s) (n : String) (b : Option Nat) (a : Addr) (br : Nat) :
    bearerCount (newSession c s br a) s = 1 ∧
    bearerCount (addBearer c s n b) s = bearerCount c s + (if lookupBearerByName c s n = err .notFound then 1 else 0) ∧
    bearerCount (removeBearer c s n) s + (if lookupBearerByName c s n = err .notFound then 0 else 1) = bearerCount c s := by
  have h := length_delete ht n
  have hi : lookupBearerByName c s n = err .notFound ↔ ¬ ((c.heap s).bearers.load n).isSome := by
    unfold lookupBearerByName
    cases (c.heap s).bearers.load n <;> simp
  refine ⟨by simp [bearerCount, newSession], ?_, ?_⟩
  · simp only [bearerCount, addBearer, update, if_true, SyncMap.store, List.length_cons]
    by_cases hl : ((c.heap s).bearers.load n).isSome
    · rw [if_pos hl] at h; rw [if_neg (fun hc => hi.1 hc hl)]; omega
    · rw [if_neg hl] at h; rw [if_pos (hi.2 hl)]; omega
  · simp only [bearerCount, removeBearer, update, if_true]
    by_cases hl : ((c.heap s).bearers.load n).isSome
    · rw [if_pos hl] at h; rw [if_neg (fun hc => hi.1 hc hl)]; omega
    · rw [if_neg hl] at h; rw [if_pos (hi.2 hl)]; omega

/-- C60: the BearerCount of a connection is the sum of those of the active sessions found by IMSI -/
theorem C60_conn_count (c : Conn) (h : SyncMap.WF c.byImsi) :
    ∃ l : List (Bytes × Nat), (l.map Prod.fst).Nodup ∧
      (∀ i s, (i, s) ∈ l ↔ getSessionByIMSI c i = ok s ∧ (c.heap s).active = true) ∧
      connBearerCount c = (l.map (fun e => bearerCount c e.2)).sum := by
  refine ⟨c.byImsi.filter (fun e => (c.heap e.2).active), (List.filter_sublist.map Prod.fst).nodup h, ?_, rfl⟩
  intro i s
  rw [List.mem_filter]
  have : (i, s) ∈ c.byImsi ↔ getSessionByIMSI c i = ok s := by
    rw [SyncMap.mem_iff h]
    unfold getSessionByIMSI
    cases c.byImsi.load i <;> simp
  rw [this]

/-! ### a session with two bearers -/

/-- session 0 with bearers 0 ("default", EBI 5), 1 ("ims", EBI 6, TEIDs 0x10 and 0x20) -/
def exB : Conn :=
  updateBearer (updateBearer (addBearer (newSession (newConn 10 0 (fun _ => ⟨[], "", false, [], [], [], [], [], [], 0⟩)) 0 0 "peer")
    0 "ims" (some 1)) 0 (fun x => { x with ebi := 5 })) 1 (fun x => { x with ebi := 6, teidIn := 0x10, teidOut := 0x20 })

example : Table exB 0 ∧ lookupBearerByEBI exB 0 .id 6 = ok 1 ∧ lookupBearerByEBI exB 0 .rev 6 = ok 1 ∧
    lookupBearerNameByEBI exB 0 .id 5 = ok "default" ∧ lookupEBIByTEID exB 0 .rev 0x20 = ok 6 ∧
    lookupEBIByTEID exB 0 .id 0x30 = ok 0 ∧ lookupBearerByEBI exB 0 .id 7 = err .notFound ∧ bearerCount exB 0 = 2 ∧
    (removeBearerByEBI exB 0 .rev 6).bind (fun c => ok (bearerCount c 0, getDefaultBearer c 0)) = ok (1, some 0) := by
  refine ⟨?_, ?_⟩
  · unfold Table SyncMap.WF; decide
  · decide
example : NoNil exB 0 := by
  intro n h
  rw [hasBearer_load] at h
  have := SyncMap.mem_of_load h
  have hall : ∀ e ∈ (exB.heap 0).bearers, e.2 ≠ none := by decide
  exact hall _ this rfl

/-- C60 fails for the empty name: the bearer "" with EBI 7 is found by EBI, but its name is not, and RemoveBearerByEBI leaves
it in place; with a second bearer of the same EBI whether that one is found depends on the order -/
theorem C60_empty_name :
    let c := updateBearer (addBearer exB 0 "" (some 2)) 2 (fun x => { x with ebi := 7 })
    lookupBearerByEBI c 0 .id 7 = ok 2 ∧ lookupBearerNameByEBI c 0 .id 7 = err .notFound ∧
    (removeBearerByEBI c 0 .id 7).bind (fun c => lookupBearerByEBI c 0 .id 7) = ok 2 ∧
    lookupBearerNameByEBI (updateBearer c 1 (fun x => { x with ebi := 7 })) 0 .id 7 = err .notFound ∧
    lookupBearerNameByEBI (updateBearer c 1 (fun x => { x with ebi := 7 })) 0 .rev 7 = ok "ims" := by decide

/-- C60: a nil bearer makes the lookups by EBI and TEID panic, in every order, unless a matching bearer is visited first -/
theorem C60_nil_panics (o : Order) (e : UInt8) (ht : Table c s) (n : String) (h : HasBearer c s n none)
    (hne : ∀ m b, HasBearer c s m (some b) → (c.brs b).ebi ≠ e) :
    lookupBearerByEBI c s o e = .panic ∧ removeBearerByEBI c s o e = .panic := by
  have key : ∀ l : List (String × Option Nat), (∃ n, (n, none) ∈ l) → (∀ m b, (m, some b) ∈ l → (c.brs b).ebi ≠ e) →
      findEBI c e l = .panic := by
    intro l
    induction l with
    | nil => rintro ⟨n, h⟩; cases h
    | cons x l ih =>
      rintro ⟨n, h⟩ hl
      obtain ⟨m, b⟩ := x
      cases b with
      | none => rfl
      | some b =>
        have h1 : e ≠ (c.brs b).ebi := fun hc => hl m b (by simp) hc.symm
        have h2 : (n, none) ∈ l := by simpa using h
        simp [findEBI, h1, ih ⟨n, h2⟩ (fun m b hm => hl m b (List.mem_cons_of_mem _ hm))]
  have := key (o.1 (c.heap s).bearers) ⟨n, (hasBearer_mem ht o n none).2 h⟩
    (fun m b hm => hne m b ((hasBearer_mem ht o _ _).1 hm))
  have h2 : lookupBearerNameByEBI c s o e = .panic := by simp [lookupBearerNameByEBI, this]
  exact ⟨by simp [lookupBearerByEBI, this], by simp only [removeBearerByEBI, h2]⟩

example : lookupBearerByEBI (addBearer exB 0 "x" none) 0 .rev 9 = .panic := by decide

/-- C60 fails for concurrent callers: RemoveBearerByEBI first looks the name up (session.go:178) and then deletes it
(session.go:182); if another goroutine stores a bearer with another EBI under that name in between, that one is removed -/
theorem C60_remove_race :
    lookupBearerNameByEBI exB 0 .id 6 = ok "ims" ∧
    (let c := updateBearer (addBearer exB 0 "ims" (some 3)) 3 (fun x => { x with ebi := 9 })
     lookupBearerByEBI c 0 .id 9 = ok 3 ∧ lookupBearerByEBI (removeBearer c 0 "ims") 0 .id 9 = err .notFound) := by decide

end Verif.V2.Conn

namespace Verif.V2.Conn
open Res Send
/-! ### cases that meet the hypotheses: a session with the bearers "default" (EBI 5) and "ims" (EBI 6) -/

theorem exB_table : Table exB 0 := by unfold Table SyncMap.WF; decide
theorem exB_bearers {n : String} {b : Option Nat} (h : HasBearer exB 0 n b) : (n = "ims" ∧ b = some 1) ∨ (n = "default" ∧ b = some 0) := by
  rw [hasBearer_load] at h
  have := SyncMap.mem_of_load h
  have hall : ∀ e ∈ (exB.heap 0).bearers, (e.1 = "ims" ∧ e.2 = some 1) ∨ (e.1 = "default" ∧ e.2 = some 0) := by decide
  exact hall _ this
theorem exB_noNil : NoNil exB 0 := by
  intro n h
  rcases exB_bearers h with ⟨-, h⟩ | ⟨-, h⟩ <;> cases h

example := C60_by_ebi exB_table exB_noNil .rev 6
example := C60_name_by_ebi_partial exB_table exB_noNil .rev 6 (by
  intro b h
  rcases exB_bearers h with ⟨h, -⟩ | ⟨h, -⟩ <;> revert h <;> decide)
example := C60_remove_by_ebi_partial exB_table exB_noNil .id 7 (by
  intro b h
  rcases exB_bearers h with ⟨h, -⟩ | ⟨h, -⟩ <;> revert h <;> decide)
example := C60_unique_ebi_partial exB_table exB_noNil .rev 6 "ims" 1 (by unfold HasBearer; decide) (by decide) (by decide) (by
  intro m d h he
  rcases exB_bearers h with ⟨rfl, -⟩ | ⟨rfl, h⟩
  · rfl
  · cases h; revert he; decide)
example := C60_ebi_by_teid exB_table exB_noNil .id 0x20
example := C60_bearers exB_table .rev
example := C60_count exB_table "ims" (some 2) "peer2" 3
example := C60_conn_count exB (by unfold SyncMap.WF; decide)
example := C60_nil_panics (c := addBearer exB 0 "x" none) (s := 0) .rev 9 (by unfold Table SyncMap.WF; decide) "x"
  (by unfold HasBearer; decide) (by
    intro m b h
    rw [hasBearer_load] at h
    have := SyncMap.mem_of_load h
    have hall : ∀ e ∈ ((addBearer exB 0 "x" none).heap 0).bearers, ∀ b, e.2 = some b →
        ((addBearer exB 0 "x" none).brs b).ebi ≠ 9 := by
      intro e he b hb
      have all : ∀ e ∈ ((addBearer exB 0 "x" none).heap 0).bearers, e.2 = some 1 ∨ e.2 = some 0 ∨ e.2 = none := by decide
      have := all e he
      rcases this with h | h | h <;> rw [h] at hb <;> cases hb <;> decide
    exact hall _ this b rfl)
end Verif.V2.Conn
