/-
Model of sync.Map as used by gtpv1 and gtpv2: each of Store, Load, LoadOrStore and Delete is one atomic step.
Simplification: the table is an association list without repeated keys; Range visits the entries of that list (the
order is unspecified in Go; nothing proved depends on it).
-/
namespace Verif

abbrev SyncMap (α β : Type) := List (α × β)

namespace SyncMap
variable {α β : Type} [DecidableEq α]

/-- sync.Map.Load -/
def load (m : SyncMap α β) (k : α) : Option β := (m.find? (fun e => e.1 = k)).map Prod.snd

/-- sync.Map.Delete -/
def delete (m : SyncMap α β) (k : α) : SyncMap α β := m.filter (fun e => e.1 ≠ k)

/-- sync.Map.Store -/
def store (m : SyncMap α β) (k : α) (v : β) : SyncMap α β := (k, v) :: delete m k

/-- sync.Map.LoadOrStore: the new table and `loaded` -/
def loadOrStore (m : SyncMap α β) (k : α) (v : β) : SyncMap α β × Bool :=
  match load m k with
  | some _ => (m, true)
  | none => (store m k v, false)

/-- no key occurs twice -/
def WF (m : SyncMap α β) : Prop := (m.map Prod.fst).Nodup

theorem load_nil (k : α) : load ([] : SyncMap α β) k = none := rfl

theorem load_delete (m : SyncMap α β) (k j : α) : load (delete m k) j = if j = k then none else load m j := by
  unfold load delete
  rw [List.find?_filter]
  by_cases h : j = k
  · subst h
    rw [if_pos rfl, Option.map_eq_none_iff, List.find?_eq_none]
    intro e _
    simp
  · rw [if_neg h]
    congr 2
    funext e
    by_cases he : e.1 = j
    · simp [he, h]
    · simp [he]

theorem load_store (m : SyncMap α β) (k j : α) (v : β) : load (store m k v) j = if j = k then some v else load m j := by
  by_cases h : j = k
  · subst h; simp [store, load]
  · have h' : ¬ k = j := fun e => h e.symm
    have := load_delete m k j
    rw [if_neg h] at this ⊢
    rw [← this]
    simp [store, load, h']

theorem wf_nil : WF ([] : SyncMap α β) := List.nodup_nil

theorem wf_delete {m : SyncMap α β} (h : WF m) (k : α) : WF (delete m k) :=
  (List.filter_sublist.map Prod.fst).nodup h

theorem wf_store {m : SyncMap α β} (h : WF m) (k : α) (v : β) : WF (store m k v) := by
  unfold WF store
  rw [List.map_cons, List.nodup_cons]
  refine ⟨?_, wf_delete h k⟩
  intro hc
  obtain ⟨e, he, hk⟩ := List.mem_map.1 hc
  unfold delete at he
  rw [List.mem_filter] at he
  simp [hk] at he

theorem load_of_mem {m : SyncMap α β} (h : WF m) {k : α} {v : β} (hm : (k, v) ∈ m) : load m k = some v := by
  unfold WF at h
  induction m with
  | nil => cases hm
  | cons e m ih =>
    rw [List.map_cons, List.nodup_cons] at h
    rcases List.mem_cons.1 hm with rfl | hm
    · simp [load]
    · have hne : ¬ e.1 = k := by
        intro hc
        exact h.1 (List.mem_map.2 ⟨(k, v), hm, hc.symm⟩)
      have := ih h.2 hm
      simpa [load, hne] using this

theorem mem_of_load {m : SyncMap α β} {k : α} {v : β} (h : load m k = some v) : (k, v) ∈ m := by
  unfold load at h
  rw [Option.map_eq_some_iff] at h
  obtain ⟨e, he, rfl⟩ := h
  have h1 := List.mem_of_find?_eq_some he
  have h2 := List.find?_some he
  simp only [decide_eq_true_eq] at h2
  rw [← h2]; exact h1

theorem mem_iff {m : SyncMap α β} (h : WF m) (k : α) (v : β) : (k, v) ∈ m ↔ load m k = some v :=
  ⟨load_of_mem h, mem_of_load⟩

end SyncMap
end Verif
