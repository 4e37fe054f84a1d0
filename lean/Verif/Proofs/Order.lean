import Verif.Proofs.Msg
/-
Lemmas on the filing of elements under the fields of a message: which fields an action reads and writes, a closed form
of what a field holds after a list of elements, and what the field of the remaining elements depends on.
-/
namespace Verif.Msg.Order
open Res Msg

variable {ι : Type}

/-- the fields an action can write -/
def _root_.Verif.Msg.Act.touches : Act → List Nat
  | .drop => []
  | .set f => [f]
  | .app f => [f]
  | .free f r => f :: r.touches
  | .ifset f r => f :: r.touches

/-- the fields an action tests -/
def _root_.Verif.Msg.Act.guards : Act → List Nat
  | .drop => []
  | .set _ => []
  | .app _ => []
  | .free f r => f :: r.guards
  | .ifset f r => f :: r.guards

/-- the fields an action can fill when they are empty -/
def _root_.Verif.Msg.Act.gives : Act → List Nat
  | .drop => []
  | .set f => [f]
  | .app f => [f]
  | .free f r => f :: r.gives
  | .ifset _ r => r.gives

/-- the fields an action replaces only when they are filled -/
def _root_.Verif.Msg.Act.ifs : Act → List Nat
  | .free _ r => r.ifs
  | .ifset f r => f :: r.ifs
  | _ => []

/-- the action with the tests for filled fields taken out -/
def _root_.Verif.Msg.Act.plain : Act → Act
  | .free f r => .free f r.plain
  | .ifset _ r => r.plain
  | a => a

theorem apply_out (a : Act) (F : Fields ι) (x : ι) (g : Nat) (h : g ∉ a.touches) : a.apply F x g = F g := by
  induction a with
  | drop => rfl
  | set f => simp only [Act.touches, List.mem_singleton] at h; simp [Act.apply, upd, h]
  | app f => simp only [Act.touches, List.mem_singleton] at h; simp [Act.apply, upd, h]
  | free f r ih =>
    simp only [Act.touches, List.mem_cons, not_or] at h
    unfold Act.apply
    split
    · simp [upd, h.1]
    · exact ih h.2
  | ifset f r ih =>
    simp only [Act.touches, List.mem_cons, not_or] at h
    unfold Act.apply
    split
    · exact ih h.2
    · simp [upd, h.1]

theorem apply_agree (a : Act) (S : Nat → Prop) (F G : Fields ι) (x : ι) (hg : ∀ g ∈ a.guards, S g)
    (h : ∀ g, S g → F g = G g) (g : Nat) (hs : S g) : a.apply F x g = a.apply G x g := by
  induction a with
  | drop => exact h g hs
  | set f =>
    simp only [Act.apply, upd]
    split
    · rfl
    · exact h g hs
  | app f =>
    simp only [Act.apply, upd]
    split
    · rename_i e; rw [← e, h g hs]
    · exact h g hs
  | free f r ih =>
    have hf := h f (hg f (by simp [Act.guards]))
    have ih := ih (fun g' hg' => hg g' (by simp [Act.guards, hg']))
    unfold Act.apply
    rw [hf]
    split
    · simp only [upd]; split
      · rfl
      · exact h g hs
    · exact ih
  | ifset f r ih =>
    have hf := h f (hg f (by simp [Act.guards]))
    have ih := ih (fun g' hg' => hg g' (by simp [Act.guards, hg']))
    unfold Act.apply
    rw [hf]
    split
    · exact ih
    · simp only [upd]; split
      · rfl
      · exact h g hs

/-- filing a list, starting from given contents -/
def file (A : ι → Act) (F : Fields ι) (xs : List ι) : Fields ι := xs.foldl (fun F x => (A x).apply F x) F

theorem classify_file (io : IEOps ι) (rules : List Rule) (d : Act) (xs : List ι) :
    classify io rules d xs = file (fun x => sel rules d (io.typ x).toNat (io.inst x).toNat) Fields.empty xs := rfl

/-- what a set S of fields holds depends only on the elements P, when the others do not touch S and these test only S -/
theorem file_filter (A : ι → Act) (P : ι → Bool) (S : Nat → Prop) (h0 : ∀ x, P x = false → ∀ g ∈ (A x).touches, ¬ S g)
    (h1 : ∀ x, P x = true → ∀ g ∈ (A x).guards, S g) (xs : List ι) :
    ∀ F G : Fields ι, (∀ g, S g → F g = G g) → ∀ g, S g → file A F xs g = file A G (xs.filter P) g := by
  induction xs with
  | nil => intro F G h g hg; exact h g hg
  | cons x xs ih =>
    intro F G h g hg
    by_cases hp : P x = true
    · rw [List.filter_cons_of_pos hp]
      exact ih _ _ (fun g' hg' => apply_agree (A x) S F G x (h1 x hp) h g' hg') g hg
    · rw [List.filter_cons_of_neg hp]
      refine ih _ _ (fun g' hg' => ?_) g hg
      dsimp only
      rw [apply_out (A x) F x g' (fun hm => h0 x (by simpa using hp) g' hm hg')]
      exact h g' hg'

/-- a field no action of the list touches -/
theorem file_out (A : ι → Act) (f : Nat) (h : ∀ x, f ∉ (A x).touches) (xs : List ι) :
    ∀ F : Fields ι, file A F xs f = F f := by
  induction xs with
  | nil => intro F; rfl
  | cons x xs ih =>
    intro F
    show file A _ xs f = _
    rw [ih]
    exact apply_out _ _ _ _ (h x)

/-- what field f holds of the elements l that all meet the action -/
def pick : Act → Nat → List ι → List ι
  | .drop, _, _ => []
  | .set g, f, l => if f = g then l.getLast?.toList else []
  | .app g, f, l => if f = g then l else []
  | .free g r, f, l => if f = g then l.take 1 else pick r f (l.drop 1)
  | .ifset _ r, f, l => pick r f l

theorem pick_nil (a : Act) (f : Nat) : pick a f ([] : List ι) = [] := by
  induction a with
  | drop => rfl
  | set g => simp [pick]
  | app g => simp [pick]
  | free g r ih => simp [pick, ih]
  | ifset g r ih => simp [pick, ih]

/-- no field twice, and no test for a filled field -/
def _root_.Verif.Msg.Act.neat : Act → Bool
  | .free f r => !r.touches.contains f && r.neat
  | .ifset _ _ => false
  | _ => true

theorem pick_out (a : Act) (f : Nat) (l : List ι) (h : f ∉ a.touches) : pick a f l = [] := by
  induction a generalizing l with
  | drop => rfl
  | set g => simp only [Act.touches, List.mem_singleton] at h; simp [pick, h]
  | app g => simp only [Act.touches, List.mem_singleton] at h; simp [pick, h]
  | free g r ih =>
    simp only [Act.touches, List.mem_cons, not_or] at h
    simp [pick, h.1, ih _ h.2]
  | ifset g r ih =>
    simp only [Act.touches, List.mem_cons, not_or] at h
    simp [pick, ih _ h.2]

theorem apply_pick (a : Act) (dd : Nat) (hn : a.neat = true) (hd : dd ∉ a.guards) (F : Fields ι) (x : ι) :
    ∀ l : List ι, (∀ g ∈ a.touches, g ≠ dd → F g = pick a g l) →
      ∀ g ∈ a.touches, g ≠ dd → a.apply F x g = pick a g (l ++ [x]) := by
  induction a with
  | drop => intro l _ g hg; cases hg
  | set f =>
    intro l _ g hg _
    simp only [Act.touches, List.mem_singleton] at hg
    simp [Act.apply, upd, hg, pick]
  | app f =>
    intro l h g hg hne
    have := h g hg hne
    simp only [Act.touches, List.mem_singleton] at hg
    subst hg
    simp only [pick, if_true] at this
    simp [Act.apply, upd, pick, this]
  | free f r ih =>
    intro l h g hg hne
    simp only [Act.neat, Bool.and_eq_true, Bool.not_eq_true', List.contains_eq_mem, decide_eq_false_iff_not] at hn
    simp only [Act.guards, List.mem_cons, not_or] at hd
    have hf := h f (by simp [Act.touches]) (fun e => hd.1 e.symm)
    simp only [pick, if_true] at hf
    unfold Act.apply
    cases l with
    | nil =>
      rw [hf]
      simp only [List.take_nil, List.isEmpty_nil, if_true, upd]
      by_cases e : g = f
      · simp [e, pick]
      · have := h g hg hne
        simp only [pick, e, if_false, List.drop_nil] at this
        simp [e, pick, this]
    | cons y l =>
      rw [hf]
      have hc : ((y :: l).take 1).isEmpty = false := rfl
      rw [if_neg (by rw [hc]; simp)]
      by_cases e : g = f
      · subst e
        rw [apply_out _ _ _ _ hn.1, hf]
        simp [pick]
      · simp only [Act.touches, List.mem_cons, e, false_or] at hg
        have := ih hn.2 hd.2 l (fun g' hg' hne' => by
          have h2 := h g' (by simp [Act.touches, hg']) hne'
          have e2 : g' ≠ f := fun e2 => hn.1 (e2 ▸ hg')
          simpa [pick, e2] using h2) g hg hne
        rw [this]
        simp [pick, e]
  | ifset f r _ => simp [Act.neat] at hn

/-- the closed form: when only the action a touches the fields of a, each of them holds what `pick` says of the elements
that meet a -/
theorem file_pick (A : ι → Act) (a : Act) (dd : Nat) (hn : a.neat = true) (hd : dd ∉ a.guards)
    (hs : ∀ x, ∀ g ∈ a.touches, g ≠ dd → g ∈ (A x).touches → A x = a) (xs : List ι) :
    ∀ (done : List ι) (F : Fields ι), (∀ g ∈ a.touches, g ≠ dd → F g = pick a g (done.filter (fun x => decide (A x = a)))) →
      ∀ g ∈ a.touches, g ≠ dd → file A F xs g = pick a g ((done ++ xs).filter (fun x => decide (A x = a))) := by
  induction xs with
  | nil => intro done F h g hg hne; simpa [file] using h g hg hne
  | cons x xs ih =>
    intro done F h g hg hne
    have e : done ++ x :: xs = (done ++ [x]) ++ xs := by simp
    rw [e]
    refine ih (done ++ [x]) _ (fun g' hg' hne' => ?_) g hg hne
    rw [List.filter_append]
    by_cases c : A x = a
    · have : [x].filter (fun x => decide (A x = a)) = [x] := by simp [c]
      dsimp only
      rw [this, c]
      exact apply_pick a dd hn hd F x _ h g' hg' hne'
    · have : [x].filter (fun x => decide (A x = a)) = [] := by simp [c]
      dsimp only
      rw [this, List.append_nil, apply_out _ _ _ _ (fun hm => c (hs x g' hg' hne' hm))]
      exact h g' hg' hne'

/-! ### taking out the tests for filled fields -/

theorem apply_plain (a : Act) (F : Fields ι) (x : ι) (h : ∀ g ∈ a.ifs, F g = []) : a.apply F x = a.plain.apply F x := by
  induction a with
  | drop => rfl
  | set f => rfl
  | app f => rfl
  | free f r ih => simp only [Act.apply, Act.plain]; rw [ih h]
  | ifset f r ih =>
    have := h f (by simp [Act.ifs])
    simp only [Act.apply, Act.plain, this, List.isEmpty_nil, if_true]
    exact ih (fun g hg => h g (by simp [Act.ifs, hg]))

theorem apply_empty (a : Act) (F : Fields ι) (x : ι) (g : Nat) (h : g ∉ a.gives) (hF : F g = []) :
    a.apply F x g = [] := by
  induction a with
  | drop => exact hF
  | set f => simp only [Act.gives, List.mem_singleton] at h; simp [Act.apply, upd, h, hF]
  | app f => simp only [Act.gives, List.mem_singleton] at h; simp [Act.apply, upd, h, hF]
  | free f r ih =>
    simp only [Act.gives, List.mem_cons, not_or] at h
    unfold Act.apply
    split
    · simp [upd, h.1, hF]
    · exact ih h.2
  | ifset f r ih =>
    unfold Act.apply
    split
    · exact ih h
    · rename_i hc
      by_cases e : g = f
      · subst e; simp [hF] at hc
      · simp [upd, e, hF]

theorem file_plain (A : ι → Act) (hd : ∀ x y, ∀ g ∈ (A x).ifs, g ∉ (A y).gives) (xs : List ι) :
    ∀ F : Fields ι, (∀ x, ∀ g ∈ (A x).ifs, F g = []) → file A F xs = file (fun x => (A x).plain) F xs := by
  induction xs with
  | nil => intro F _; rfl
  | cons x xs ih =>
    intro F h
    show file A ((A x).apply F x) xs = file (fun x => (A x).plain) ((A x).plain.apply F x) xs
    rw [← apply_plain (A x) F x (h x)]
    exact ih _ (fun y g hg => apply_empty _ _ _ _ (hd y x g hg) (h y g hg))

/-! ### what a table must satisfy -/

/-- the table files elements of different types apart: a field named by the rules of two cases (after the tests for
fields that stay empty are taken out) belongs to the same action and the same type, unless it is field dd; the default
goes to dd; dd is not tested -/
def apart (rules : List Rule) (d : Act) (dd : Nat) : Bool :=
  ((rules.map (·.act)) ++ [d]).all (fun a => ((rules.map (·.act)) ++ [d]).all (fun b => a.ifs.all (fun g => !b.gives.contains g))) &&
  d.touches.all (· == dd) && d.guards.isEmpty &&
  rules.all (fun r => r.act.plain.neat && !r.act.plain.guards.contains dd &&
    rules.all (fun q => r.act.plain.touches.all (fun g =>
      g == dd || !q.act.plain.touches.contains g || (q.act.plain == r.act.plain && q.typ == r.typ))))

theorem sel_mem (rules : List Rule) (d : Act) (t i : Nat) :
    (∃ r ∈ rules, r.typ = t ∧ sel rules d t i = r.act) ∨ sel rules d t i = d := by
  unfold sel
  cases h : rules.find? (fun r => r.typ == t && (r.inst == none || r.inst == some i)) with
  | none => exact .inr rfl
  | some r =>
    refine .inl ⟨r, List.mem_of_find?_eq_some h, ?_, rfl⟩
    have := List.find?_some h
    simp only [Bool.and_eq_true, beq_iff_eq] at this
    exact this.1

structure Apart (rules : List Rule) (d : Act) (dd : Nat) : Prop where
  dead : ∀ t i t' i', ∀ g ∈ (sel rules d t i).ifs, g ∉ (sel rules d t' i').gives
  dflt : ∀ g ∈ d.touches, g = dd
  dguard : d.guards = []
  neat : ∀ r ∈ rules, r.act.plain.neat = true
  guard : ∀ r ∈ rules, dd ∉ r.act.plain.guards
  sole : ∀ r ∈ rules, ∀ q ∈ rules, ∀ g ∈ r.act.plain.touches, g ≠ dd → g ∈ q.act.plain.touches →
    q.act.plain = r.act.plain ∧ q.typ = r.typ

theorem apart_iff {rules : List Rule} {d : Act} {dd : Nat} (h : apart rules d dd = true) : Apart rules d dd := by
  simp only [apart, Bool.and_eq_true, List.all_eq_true, List.mem_append, List.mem_map, List.mem_singleton,
    Bool.not_eq_true', List.contains_eq_mem, decide_eq_false_iff_not, beq_iff_eq, Bool.or_eq_true,
    List.isEmpty_iff] at h
  obtain ⟨⟨⟨h1, h2⟩, h3⟩, h4⟩ := h
  have hm : ∀ t i, (∃ r, r ∈ rules ∧ r.act = sel rules d t i) ∨ sel rules d t i = d := by
    intro t i
    rcases sel_mem rules d t i with ⟨r, hr, _, e⟩ | e
    · exact .inl ⟨r, hr, e.symm⟩
    · exact .inr e
  refine ⟨fun t i t' i' => h1 _ (hm t i) _ (hm t' i'), h2, h3, fun r hr => (h4 r hr).1.1, fun r hr => (h4 r hr).1.2, ?_⟩
  intro r hr q hq g hg hne hg'
  rcases (h4 r hr).2 q hq g hg with (e | e) | e
  · exact absurd e hne
  · exact absurd hg' e
  · exact e

theorem plain_touches_d {rules : List Rule} {d : Act} {dd : Nat} (h : Apart rules d dd) :
    ∀ g ∈ d.plain.touches, g = dd := by
  intro g hg
  have hp : d.plain = d := by
    have := h.dguard
    cases d <;> simp_all [Act.guards, Act.plain]
  rw [hp] at hg
  exact h.dflt g hg

theorem plain_guards_d {rules : List Rule} {d : Act} {dd : Nat} (h : Apart rules d dd) : d.plain.guards = [] := by
  have := h.dguard
  cases d <;> simp_all [Act.guards, Act.plain]

section
variable (io : IEOps ι) {rules : List Rule} {d : Act} {dd : Nat}

/-- the action an element meets, tests for filled fields taken out -/
def meets (rules : List Rule) (d : Act) (x : ι) : Act := (sel rules d (io.typ x).toNat (io.inst x).toNat).plain

theorem classify_meets (h : Apart rules d dd) (xs : List ι) :
    classify io rules d xs = file (meets io rules d) Fields.empty xs :=
  file_plain _ (fun _ _ => h.dead _ _ _ _) xs _ (fun _ _ _ => rfl)

theorem meets_mem (rules : List Rule) (d : Act) (x : ι) :
    (∃ r ∈ rules, r.typ = (io.typ x).toNat ∧ meets io rules d x = r.act.plain) ∨ meets io rules d x = d.plain := by
  rcases sel_mem rules d (io.typ x).toNat (io.inst x).toNat with ⟨r, hr, ht, e⟩ | e
  · exact .inl ⟨r, hr, ht, by rw [meets, e]⟩
  · exact .inr (by rw [meets, e])

theorem meets_sole (h : Apart rules d dd) (r : Rule) (hr : r ∈ rules) (x : ι) (g : Nat) (hg : g ∈ r.act.plain.touches)
    (hne : g ≠ dd) (hx : g ∈ (meets io rules d x).touches) :
    meets io rules d x = r.act.plain ∧ (io.typ x).toNat = r.typ := by
  rcases meets_mem io rules d x with ⟨q, hq, ht, e⟩ | e
  · rw [e] at hx
    obtain ⟨h1, h2⟩ := h.sole r hr q hq g hg hne hx
    exact ⟨by rw [e, h1], by rw [← ht, h2]⟩
  · rw [e] at hx
    exact absurd (plain_touches_d h g hx) hne

/-- what a field of a rule holds -/
theorem classify_pick (h : Apart rules d dd) (r : Rule) (hr : r ∈ rules) (f : Nat) (hf : f ∈ r.act.plain.touches)
    (hne : f ≠ dd) (xs : List ι) :
    classify io rules d xs f = pick r.act.plain f (xs.filter (fun x => decide (meets io rules d x = r.act.plain))) := by
  rw [classify_meets io h]
  have := file_pick (meets io rules d) r.act.plain dd (h.neat r hr) (h.guard r hr)
    (fun x g hg hne hx => (meets_sole io h r hr x g hg hne hx).1) xs [] Fields.empty
    (fun g _ _ => by rw [List.filter_nil, pick_nil]; rfl) f hf hne
  simpa using this

/-- a field no rule names stays empty -/
theorem classify_none (h : Apart rules d dd) (f : Nat) (hf : ∀ r ∈ rules, f ∉ r.act.plain.touches) (hne : f ≠ dd)
    (xs : List ι) : classify io rules d xs f = [] := by
  rw [classify_meets io h, file_out]
  · rfl
  · intro x hx
    rcases meets_mem io rules d x with ⟨r, hr, _, e⟩ | e
    · exact hf r hr (e ▸ hx)
    · exact hne (plain_touches_d h f (e ▸ hx))

/-- the field dd depends only on the elements that can end there -/
theorem classify_rest (h : Apart rules d dd) (xs : List ι) :
    classify io rules d xs dd =
      classify io rules d (xs.filter (fun x => decide (dd ∈ (meets io rules d x).touches))) dd := by
  rw [classify_meets io h, classify_meets io h]
  refine file_filter (meets io rules d) _
    (fun g => g = dd ∨ ∃ r ∈ rules, dd ∈ r.act.plain.touches ∧ g ∈ r.act.plain.guards) ?_ ?_ xs _ _ (fun _ _ => rfl) dd
    (.inl rfl)
  · intro x hx g hg hS
    simp only [decide_eq_false_iff_not] at hx
    rcases hS with rfl | ⟨r, hr, hrd, hrg⟩
    · exact hx hg
    · have hsub : ∀ (a : Act) g, g ∈ a.guards → g ∈ a.touches := by
        intro a
        induction a with
        | drop => intro g hg; cases hg
        | set f => intro g hg; cases hg
        | app f => intro g hg; cases hg
        | free f r ih =>
          intro g hg
          simp only [Act.guards, List.mem_cons] at hg
          simp only [Act.touches, List.mem_cons]
          exact hg.imp id (ih g)
        | ifset f r ih =>
          intro g hg
          simp only [Act.guards, List.mem_cons] at hg
          simp only [Act.touches, List.mem_cons]
          exact hg.imp id (ih g)
      have hne : g ≠ dd := fun e => h.guard r hr (e ▸ hrg)
      exact hx ((meets_sole io h r hr x g (hsub _ _ hrg) hne hg).1 ▸ hrd)
  · intro x hx g hg
    simp only [decide_eq_true_eq] at hx
    rcases meets_mem io rules d x with ⟨r, hr, _, e⟩ | e
    · exact .inr ⟨r, hr, e ▸ hx, e ▸ hg⟩
    · rw [e, plain_guards_d h] at hg; cases hg

end

end Verif.Msg.Order

namespace Verif.Msg.Order
open Res Msg

variable {ι : Type}

/-! ### lists with the same elements of each type in the same order -/

theorem regroup_perm {τ : Type} [DecidableEq τ] (typ : ι → τ) : ∀ (xs ys : List ι),
    (∀ t, xs.filter (fun x => typ x == t) = ys.filter (fun x => typ x == t)) → xs.Perm ys := by
  intro xs
  induction xs with
  | nil =>
    intro ys h
    cases ys with
    | nil => exact List.Perm.nil
    | cons y ys => have := h (typ y); simp at this
  | cons x xs ih =>
    intro ys h
    have hx := h (typ x)
    rw [List.filter_cons_of_pos (by simp)] at hx
    obtain ⟨l1, l2, e, hn, _, hl⟩ := List.filter_eq_cons_iff.mp hx.symm
    subst e
    refine (List.Perm.cons x (ih (l1 ++ l2) ?_)).trans List.perm_middle.symm
    intro t
    by_cases ht : typ x = t
    · subst ht
      have h1 : l1.filter (fun y => typ y == typ x) = [] := List.filter_eq_nil_iff.mpr hn
      rw [List.filter_append, h1, List.nil_append, hl]
    · have := h t
      rw [List.filter_cons_of_neg (by simpa using ht), List.filter_append,
        List.filter_cons_of_neg (by simpa using ht), ← List.filter_append] at this
      exact this

section
variable (io : IEOps ι) {rules : List Rule} {d : Act} {dd : Nat}

/-- a named field holds the same of two lists with the same elements of each type in the same order -/
theorem classify_regroup (h : Apart rules d dd) (xs ys : List ι)
    (hxy : ∀ t, xs.filter (fun x => io.typ x == t) = ys.filter (fun x => io.typ x == t)) (f : Nat) (hne : f ≠ dd) :
    classify io rules d xs f = classify io rules d ys f := by
  by_cases hf : ∃ r ∈ rules, f ∈ r.act.plain.touches
  · obtain ⟨r, hr, hf⟩ := hf
    rw [classify_pick io h r hr f hf hne, classify_pick io h r hr f hf hne]
    have key : ∀ l : List ι, l.filter (fun x => decide (meets io rules d x = r.act.plain)) =
        (l.filter (fun x => io.typ x == UInt8.ofNat r.typ)).filter (fun x => decide (meets io rules d x = r.act.plain)) := by
      intro l
      rw [List.filter_filter]
      apply List.filter_congr
      intro x _
      by_cases c : meets io rules d x = r.act.plain
      · have := (meets_sole io h r hr x f hf hne (c ▸ hf)).2
        simp [c, ← this]
      · simp [c]
    rw [key xs, key ys, hxy]
  · have hf' : ∀ r ∈ rules, f ∉ r.act.plain.touches := fun r hr hm => hf ⟨r, hr, hm⟩
    rw [classify_none io h f hf' hne, classify_none io h f hf' hne]

/-- how far down in an action a field comes -/
def depth : Act → Nat → Option Nat
  | .drop, _ => none
  | .set g, f => if f = g then some 0 else none
  | .app g, f => if f = g then some 0 else none
  | .free g r, f => if f = g then some 0 else (depth r f).map (· + 1)
  | .ifset _ r, f => depth r f

theorem pick_four (a : Act) (f : Nat) (x : ι) (k : Nat) (hk : depth a f = some k) :
    ∀ n, k < n → pick a f (List.replicate n x) ≠ [] := by
  induction a generalizing k with
  | drop => simp [depth] at hk
  | set g =>
    intro n hn
    cases n with
    | zero => omega
    | succ n =>
      by_cases e : f = g
      · simp [pick, e, List.getLast?_replicate]
      · simp [depth, e] at hk
  | app g =>
    intro n hn
    cases n with
    | zero => omega
    | succ n =>
      by_cases e : f = g
      · simp [pick, e]
      · simp [depth, e] at hk
  | free g r ih =>
    intro n hn
    cases n with
    | zero => omega
    | succ n =>
      by_cases e : f = g
      · simp [pick, e]
      · simp only [depth, e, if_false, Option.map_eq_some_iff] at hk
        obtain ⟨j, hj, hjk⟩ := hk
        simp only [pick, e, if_false]
        have := ih j hj n (by omega)
        simpa [List.replicate_succ] using this
  | ifset g r ih => intro n hn; exact ih k hk n hn

/-- every field of the table is met by an element given four times over, and the rest field by one that can end there -/
def shallow (rules : List Rule) (d : Act) (dd : Nat) : Bool :=
  (d == .drop || d == .app dd) &&
  rules.all (fun r => r.act.plain.touches.all (fun f => if f = dd then
      (match r.act.plain with
        | .app g => g == dd
        | .free a (.app g) => g == dd && a != dd
        | .free a (.free b (.app g)) => g == dd && a != dd && b != dd && a != b
        | _ => false)
    else match depth r.act.plain f with
      | some k => decide (k < 4)
      | none => false))

/-- an element counts for a field: given four times over, it gets there -/
def counts (io : IEOps ι) (rules : List Rule) (d : Act) (f : Nat) (x : ι) : Bool :=
  !(classify io rules d [x, x, x, x] f).isEmpty

theorem counts_iff (h : Apart rules d dd) (hs : shallow rules d dd = true) (f : Nat) (x : ι) :
    counts io rules d f x = decide (f ∈ (meets io rules d x).touches) := by
  simp only [shallow, Bool.and_eq_true, List.all_eq_true, Bool.or_eq_true, beq_iff_eq] at hs
  obtain ⟨hd, hr⟩ := hs
  unfold counts
  by_cases hm : f ∈ (meets io rules d x).touches
  · simp only [hm, decide_true, Bool.not_eq_true', List.isEmpty_eq_false_iff]
    rcases meets_mem io rules d x with ⟨r, hrm, ht, e⟩ | e
    · have hfr := e ▸ hm
      have hc := hr r hrm f hfr
      by_cases hne : f = dd
      · rw [if_pos hne] at hc
        rw [classify_meets io h]
        show file _ _ [x, x, x, x] f ≠ []
        simp only [file, List.foldl, e]
        subst hne
        split at hc
        · rename_i g ea
          simp only [beq_iff_eq] at hc
          subst hc
          simp [ea, Act.apply, upd]
        · rename_i a g ea
          simp only [Bool.and_eq_true, beq_iff_eq, bne_iff_ne] at hc
          obtain ⟨rfl, hc⟩ := hc
          have hc' := Ne.symm hc
          simp [ea, Act.apply, upd, Fields.empty, hc, hc']
        · rename_i a b g ea
          simp only [Bool.and_eq_true, beq_iff_eq, bne_iff_ne] at hc
          obtain ⟨⟨⟨rfl, h1⟩, h2⟩, h3⟩ := hc
          have h1' := Ne.symm h1
          have h2' := Ne.symm h2
          have h3' := Ne.symm h3
          simp [ea, Act.apply, upd, Fields.empty, h1, h1', h2, h2', h3, h3']
        · cases hc
      · rw [if_neg hne] at hc
        rw [classify_pick io h r hrm f hfr hne]
        have : [x, x, x, x].filter (fun x => decide (meets io rules d x = r.act.plain)) = List.replicate 4 x := by
          simp [e, List.replicate]
        rw [this]
        cases hk : depth r.act.plain f with
        | none => rw [hk] at hc; cases hc
        | some k =>
          rw [hk] at hc
          exact pick_four _ _ _ k hk 4 (by simpa using hc)
    · have := plain_touches_d h f (e ▸ hm)
      subst this
      rw [classify_meets io h]
      show file _ _ [x, x, x, x] f ≠ []
      simp only [file, List.foldl, e]
      rcases hd with hd | hd
      · rw [e, hd] at hm; cases hm
      · rw [hd]; simp [Act.plain, Act.apply, upd]
  · simp only [hm, decide_false, Bool.not_eq_false', List.isEmpty_iff]
    rw [classify_meets io h]
    simp only [file, List.foldl]
    rw [apply_out _ _ _ _ hm, apply_out _ _ _ _ hm, apply_out _ _ _ _ hm, apply_out _ _ _ _ hm]
    rfl

/-- two lists with the same elements of each type in the same order, and with those that count for the rest field in the
same order, are filed alike -/
theorem classify_eq (h : Apart rules d dd) (hs : shallow rules d dd = true) (xs ys : List ι)
    (hxy : ∀ t, xs.filter (fun x => io.typ x == t) = ys.filter (fun x => io.typ x == t))
    (hr : xs.filter (counts io rules d dd) = ys.filter (counts io rules d dd)) :
    classify io rules d xs = classify io rules d ys := by
  funext f
  by_cases hne : f = dd
  · subst hne
    rw [classify_rest io h xs, classify_rest io h ys]
    have : ∀ l : List ι, l.filter (fun x => decide (f ∈ (meets io rules d x).touches)) = l.filter (counts io rules d f) :=
      fun l => List.filter_congr (fun x _ => (counts_iff io h hs f x).symm)
    rw [this, this, hr]
  · exact classify_regroup io h xs ys hxy f hne

/-- what a named field holds of a list, by the elements that count for it -/
theorem classify_counts (h : Apart rules d dd) (hs : shallow rules d dd = true) (f : Nat) (hne : f ≠ dd) (xs : List ι) :
    (∃ r ∈ rules, f ∈ r.act.plain.touches ∧
      classify io rules d xs f = pick r.act.plain f (xs.filter (counts io rules d f))) ∨
    ((∀ r ∈ rules, f ∉ r.act.plain.touches) ∧ classify io rules d xs f = [] ∧ xs.filter (counts io rules d f) = []) := by
  by_cases hf : ∃ r ∈ rules, f ∈ r.act.plain.touches
  · obtain ⟨r, hr, hf⟩ := hf
    refine .inl ⟨r, hr, hf, ?_⟩
    rw [classify_pick io h r hr f hf hne]
    congr 1
    apply List.filter_congr
    intro x _
    rw [counts_iff io h hs]
    by_cases c : f ∈ (meets io rules d x).touches
    · simp [hf, (meets_sole io h r hr x f hf hne c).1]
    · have : meets io rules d x ≠ r.act.plain := fun e => c (e ▸ hf)
      simp [c, this]
  · have hf' : ∀ r ∈ rules, f ∉ r.act.plain.touches := fun r hr hm => hf ⟨r, hr, hm⟩
    refine .inr ⟨hf', classify_none io h f hf' hne xs, ?_⟩
    rw [List.filter_eq_nil_iff]
    intro x _
    rw [counts_iff io h hs, decide_eq_true_eq]
    intro hx
    rcases meets_mem io rules d x with ⟨r, hr, _, e⟩ | e
    · exact hf' r hr (e ▸ hx)
    · exact hne (plain_touches_d h f (e ▸ hx))

end

end Verif.Msg.Order
