import Verif.Proofs.MsgGen
/-
Theory for C77 (editing a message): when a filing of elements into fields survives the wire.
-/
namespace Verif.Msg
open Res
variable {ι η : Type} {io : IEOps ι} {ho : HdrOps η}

/-- filed with the other fields as they are and field `f` empty, `x` comes to be in field `f` -/
def Home (io : IEOps ι) (s : Schema) (F : Fields ι) (f : Nat) (x : ι) : Prop :=
  (unAct io s x).apply (upd F f []) x f = [x]

/-- every element is in the field the parser has for it, and a field that is not a list has at most one -/
structure Fits (io : IEOps ι) (s : Schema) (F : Fields ι) : Prop where
  home : ∀ f, ∀ x ∈ F f, Home io s F f x
  one : ∀ f, f ∉ s.multi → (F f).length ≤ 1

theorem apply_target {F : Fields ι} {f : Nat} {x : ι} : ∀ {a : Act}, a.apply (upd F f []) x f = [x] →
    f ∈ a.targets ∨ f ∈ a.frozen
  | .drop, h => by simp [Act.apply] at h
  | .set g, h => by
    simp only [Act.apply, upd] at h
    split at h
    · rename_i e; simp [Act.targets, e]
    · simp at h
  | .app g, h => by
    simp only [Act.apply, upd] at h
    split at h
    · rename_i e; simp [Act.targets, e]
    · simp at h
  | .free g r, h => by
    simp only [Act.apply] at h
    split at h
    · simp only [upd] at h
      split at h
      · rename_i e; simp [Act.targets, e]
      · simp at h
    · rcases apply_target h with h | h
      · simp [Act.targets, h]
      · simp [Act.frozen, h]
  | .ifset g r, h => by
    simp only [Act.apply] at h
    split at h
    · rcases apply_target h with h | h
      · simp [Act.targets, h]
      · simp [Act.frozen, h]
    · simp only [upd] at h
      split at h
      · rename_i e; simp [Act.frozen, e]
      · simp at h

theorem apply_lands {order multi froz : List Nat} {F : Fields ι} {f : Nat} {x : ι} : ∀ {a : Act},
    a.good order multi froz = true → a.apply (upd F f []) x f = [x] → a.lands F f
  | .drop, _, h => by simp [Act.apply] at h
  | .set g, _, h => by
    simp only [Act.apply, upd] at h
    split at h
    · rename_i e; exact e.symm
    · simp at h
  | .app g, _, h => by
    simp only [Act.apply, upd] at h
    split at h
    · rename_i e; exact e.symm
    · simp at h
  | .free g r, hg, h => by
    simp only [Act.good, Bool.and_eq_true] at hg
    by_cases e : g = f
    · exact Or.inl e
    simp only [Act.apply, upd_ne _ _ e] at h
    split at h
    · rw [upd_ne _ _ (Ne.symm e)] at h; simp at h
    · rename_i hne
      exact Or.inr ⟨by simpa using hne, apply_lands hg.2 h⟩
  | .ifset g r, hg, h => by
    simp only [Act.good, Bool.and_eq_true] at hg
    by_cases e : g = f
    · subst e
      simp only [Act.apply, upd_same, List.isEmpty_nil, if_true] at h
      have := (Act.good_target hg.2 (Act.lands_target (apply_lands hg.2 h))).2
      exact absurd (by simpa using hg.1) this
    simp only [Act.apply, upd_ne _ _ e] at h
    split at h
    · rename_i he
      exact ⟨by simpa using he, apply_lands hg.2 h⟩
    · rw [upd_ne _ _ (Ne.symm e)] at h; simp at h

theorem lands_apply {F : Fields ι} {f : Nat} {x : ι} : ∀ {a : Act}, a.lands F f → a.apply (upd F f []) x f = [x]
  | .drop, h => h.elim
  | .set g, h => by cases h; simp [Act.apply]
  | .app g, h => by cases h; simp [Act.apply]
  | .free g r, h => by
    by_cases e : g = f
    · subst e; simp [Act.apply]
    rcases h with h | h
    · exact absurd h e
    · have : (F g).isEmpty = false := by simpa using h.1
      simp only [Act.apply, upd_ne _ _ e, this]
      exact lands_apply h.2
  | .ifset g r, h => by
    have : (upd F f [] g).isEmpty = true := by
      simp only [upd]; split
      · rfl
      · rw [h.1]; rfl
    simp only [Act.apply, this, if_true]
    exact lands_apply h.2

theorem unGood_good {s : Schema} (hu : s.unGood = true) (x : ι) :
    (unAct io s x).good s.orderF s.multi s.froz = true := by
  simp only [Schema.unGood, Bool.and_eq_true, decide_eq_true_eq] at hu
  exact tableAll_sound hu.2 _ _

theorem Fits.stable {s : Schema} (hu : s.unGood = true) {F : Fields ι} (h : Fits io s F) :
    Stable s.orderF s.multi s.froz (unAct io s) F := by
  have hl : ∀ f, ∀ x ∈ F f, (unAct io s x).lands F f := fun f x hx => apply_lands (unGood_good hu x) (h.home f x hx)
  have ht : ∀ f, ∀ x ∈ F f, f ∈ s.orderF ∧ f ∉ s.froz := fun f x hx =>
    Act.good_target (unGood_good (io := io) hu x) (Act.lands_target (hl f x hx))
  refine ⟨?_, h.one, ?_, hl⟩
  · intro f hf
    cases hF : F f with
    | nil => rfl
    | cons x l => exact absurd (ht f x (by simp [hF])).1 hf
  · intro f hf
    cases hF : F f with
    | nil => rfl
    | cons x l => exact absurd hf (ht f x (by simp [hF])).2

theorem fits_of_stable {s : Schema} {F : Fields ι} (h : Stable s.orderF s.multi s.froz (unAct io s) F) : Fits io s F :=
  ⟨fun f x hx => lands_apply (h.lands f x hx), h.scalar⟩

theorem Fits.refile {s : Schema} (hu : s.unGood = true) {F : Fields ι} (h : Fits io s F) :
    classify io s.unRules s.unDefault (emit s.order F) = F := by
  have hg := unGood_good (io := io) hu
  have hs := h.stable hu
  simp only [Schema.unGood, Bool.and_eq_true, decide_eq_true_eq] at hu
  rw [emit_eq]
  exact Msg.refile hu.1 hg hs

/-! ### edits -/

theorem lands_congr {F G : Fields ι} (h : ∀ g, F g = [] ↔ G g = []) : ∀ {a : Act} {f : Nat}, a.lands F f → a.lands G f
  | .drop, _, h' => h'
  | .set _, _, h' => h'
  | .app _, _, h' => h'
  | .free g r, f, h' => by
    rcases h' with h' | h'
    · exact Or.inl h'
    · exact Or.inr ⟨fun e => h'.1 ((h g).mpr e), lands_congr h h'.2⟩
  | .ifset g r, f, h' => ⟨(h g).mp h'.1, lands_congr h h'.2⟩

/-- an edit of field `f` to the elements `l` keeps the filing if the field stays non-empty and the new elements have
the type and instance of an old one -/
theorem fits_edit {s : Schema} (hu : s.unGood = true) {F : Fields ι} (h : Fits io s F) {f : Nat} {l : List ι}
    (hne : l ≠ []) (hl : ∀ y ∈ l, ∃ x ∈ F f, io.typ y = io.typ x ∧ io.inst y = io.inst x)
    (h1 : f ∉ s.multi → l.length ≤ 1) : Fits io s (upd F f l) := by
  have hs := h.stable hu
  have hFf : F f ≠ [] := by
    obtain ⟨y, hy⟩ := List.exists_mem_of_ne_nil l hne
    obtain ⟨x, hx, _⟩ := hl y hy
    exact List.ne_nil_of_mem hx
  have hcon : ∀ g, F g = [] ↔ upd F f l g = [] := by
    intro g
    by_cases e : g = f
    · subst e; simp [hne, hFf]
    · rw [upd_ne _ _ e]
  apply fits_of_stable
  refine ⟨?_, ?_, ?_, ?_⟩
  · intro g hg
    exact (hcon g).mp (hs.support g hg)
  · intro g hg
    by_cases e : g = f
    · subst e; rw [upd_same]; exact h1 hg
    · rw [upd_ne _ _ e]; exact hs.scalar g hg
  · intro g hg
    exact (hcon g).mp (hs.frozen g hg)
  · intro g y hy
    by_cases e : g = f
    · subst e
      rw [upd_same] at hy
      obtain ⟨x, hx, ht, hi⟩ := hl y hy
      have : unAct io s y = unAct io s x := by unfold unAct; rw [ht, hi]
      rw [this]
      exact lands_congr hcon (hs.lands g x hx)
    · rw [upd_ne _ _ e] at hy
      exact lands_congr hcon (hs.lands g y hy)

/-- what a serialised message has kept -/
theorem marshalTo_kept {m m' : Message η ι} {b b' : Bytes} (h : marshalTo ho io m b = ok (m', b')) :
    m'.schema = m.schema ∧ m'.fields = m.fields ∧ ∃ p, m'.hdr = ho.setLength (ho.setPayload
      (if m.schema.reset then ho.setPayload m.hdr [] else m.hdr) p) := by
  unfold marshalTo at h
  split at h
  · cases h
  cases hr : m.schema.reset <;> simp only [hr, Bool.false_eq_true, if_false, if_true] at h ⊢ <;> (
    split at h
    · cases h
    rw [bind_eq_ok] at h
    obtain ⟨p, _, h⟩ := h
    rw [bind_eq_ok] at h
    obtain ⟨b'', _, h⟩ := h
    simp only [Res.ok.injEq, Prod.mk.injEq] at h
    obtain ⟨rfl, _⟩ := h
    exact ⟨rfl, rfl, p, rfl⟩)

/-- fields of an action that, when filled, send the element on to another field -/
def Act.heads : Act → List Nat
  | .drop => []
  | .set _ => []
  | .app _ => []
  | .free f r => (if r.targets.isEmpty then [] else [f]) ++ r.heads
  | .ifset _ r => r.heads

/-- such a field is used by one type only -/
def Schema.chained (s : Schema) : Bool :=
  s.unRules.all (fun r => s.unRules.all (fun q => r.typ == q.typ || r.act.heads.all (fun f => !q.act.targets.contains f)) &&
    r.act.heads.all (fun f => !s.unDefault.targets.contains f)) && s.unDefault.heads.isEmpty

theorem sel_cases (rules : List Rule) (d : Act) (t i : Nat) :
    sel rules d t i = d ∨ ∃ r ∈ rules, r.typ = t ∧ sel rules d t i = r.act := by
  unfold sel
  split
  · rename_i r hr
    refine Or.inr ⟨r, List.mem_of_find?_eq_some hr, ?_, rfl⟩
    have := List.find?_some hr
    simp only [Bool.and_eq_true, beq_iff_eq] at this
    exact this.1
  · exact Or.inl rfl

theorem chained_sound {s : Schema} (h : s.chained = true) {t i u j f : Nat}
    (h1 : f ∈ (sel s.unRules s.unDefault t i).heads) (h2 : f ∈ (sel s.unRules s.unDefault u j).targets) : t = u := by
  simp only [Schema.chained, Bool.and_eq_true, List.all_eq_true, Bool.or_eq_true, beq_iff_eq, List.isEmpty_iff] at h
  obtain ⟨h, hd⟩ := h
  rcases sel_cases s.unRules s.unDefault t i with e | ⟨r, hr, ht, e⟩
  · rw [e, hd] at h1; simp at h1
  rw [e] at h1
  rcases sel_cases s.unRules s.unDefault u j with e' | ⟨q, hq, hu, e'⟩
  · rw [e'] at h2
    have := (h r hr).2 f h1
    simp [h2] at this
  · rw [e'] at h2
    rcases (h r hr).1 q hq with h | h
    · omega
    · have := h f h1
      simp [h2] at this

theorem lands_cleared {F : Fields ι} {f : Nat} : ∀ {a : Act} {k : Nat}, f ∉ a.heads → a.lands F k →
    a.lands (upd F f []) k
  | .drop, _, _, h => h
  | .set _, _, _, h => h
  | .app _, _, _, h => h
  | .free g r, k, hn, h => by
    rcases h with h | h
    · exact Or.inl h
    · have ht := Act.lands_target h.2
      have hne : r.targets.isEmpty = false := by
        cases hh : r.targets with
        | nil => rw [hh] at ht; simp at ht
        | cons _ _ => rfl
      simp only [Act.heads, hne, Bool.false_eq_true, if_false, List.mem_append, List.mem_singleton, not_or] at hn
      exact Or.inr ⟨by rw [upd_ne _ _ (Ne.symm hn.1)]; exact h.1, lands_cleared hn.2 h.2⟩
  | .ifset g r, k, hn, h => by
    refine ⟨?_, lands_cleared hn h.2⟩
    simp only [upd]; split
    · rfl
    · exact h.1

/-- removing all elements of a field keeps the filing if no other element was sent on by it -/
theorem fits_clear_heads {s : Schema} (hu : s.unGood = true) {F : Fields ι} (h : Fits io s F) {f : Nat}
    (ht : ∀ k, k ≠ f → ∀ y ∈ F k, F f ≠ [] → f ∉ (unAct io s y).heads) : Fits io s (upd F f []) := by
  have hs := h.stable hu
  by_cases hF : F f = []
  · have : upd F f [] = F := by
      funext g; simp only [upd]; split
      · rename_i e; rw [e, hF]
      · rfl
    rw [this]; exact h
  apply fits_of_stable
  refine ⟨?_, ?_, ?_, ?_⟩
  · intro g hg; simp only [upd]; split
    · rfl
    · exact hs.support g hg
  · intro g hg; simp only [upd]; split
    · simp
    · exact hs.scalar g hg
  · intro g hg; simp only [upd]; split
    · rfl
    · exact hs.frozen g hg
  · intro k y hy
    by_cases e : k = f
    · subst e; simp at hy
    rw [upd_ne _ _ e] at hy
    exact lands_cleared (ht k e y hy hF) (hs.lands k y hy)

/-- ... hence if no other field has an element of the type -/
theorem fits_clear {s : Schema} (hu : s.unGood = true) (hc : s.chained = true) {F : Fields ι} (h : Fits io s F) {f : Nat}
    (ht : ∀ k, k ≠ f → ∀ y ∈ F k, ∀ x ∈ F f, io.typ y ≠ io.typ x) : Fits io s (upd F f []) := by
  apply fits_clear_heads hu h
  intro k e y hy hF hh
  obtain ⟨x, hx⟩ := List.exists_mem_of_ne_nil _ hF
  have := chained_sound hc hh (Act.lands_target ((h.stable hu).lands f x hx))
  exact ht k e y hy x hx (UInt8.toNat.inj this)

/-- a field that is neither counted nor written does not matter -/
theorem marshal_ignores {m m' : Message η ι} {b : Bytes} {f : Nat} {l : List ι} (hf1 : f ∉ m.schema.lens)
    (hf2 : ∀ e ∈ m.schema.order, e.field ≠ f) (h : marshal ho io m = ok (m', b)) :
    marshal ho io { m with fields := upd m.fields f l } = ok ({ m' with fields := upd m.fields f l }, b) := by
  obtain ⟨s, hd, F⟩ := m
  simp only at hf1 hf2
  have hlen : bodyLen io s (upd F f l) = bodyLen io s F := by
    unfold bodyLen
    congr 1
    apply List.map_congr_left
    intro k hk
    rw [upd_ne]
    rintro rfl
    exact hf1 hk
  have hwr : ∀ (es : List Entry), (∀ e ∈ es, e.field ≠ f) → ∀ off b,
      writeFields io (upd F f l) es off b = writeFields io F es off b := by
    intro es
    induction es with
    | nil => intro _ _ _; rfl
    | cons e es ih =>
      intro he off b
      have : upd F f l e.field = F e.field := upd_ne _ _ (he e List.mem_cons_self)
      simp only [writeFields, this]
      congr 1
      funext p
      exact ih (fun e' h' => he e' (List.mem_cons_of_mem _ h')) _ _
  have hml : ∀ h : η, marshalLen ho io ⟨s, h, upd F f l⟩ = marshalLen ho io ⟨s, h, F⟩ := by
    intro h; simp only [marshalLen, hlen]
  have hto : ∀ bb m' b, marshalTo ho io ⟨s, hd, F⟩ bb = ok (m', b) →
      marshalTo ho io ⟨s, hd, upd F f l⟩ bb = ok ({ m' with fields := upd F f l }, b) := by
    intro bb m' b h
    unfold marshalTo at h ⊢
    rw [hml]
    by_cases hk : (s.lenCheck && decide ((bb.length : Int) < marshalLen ho io ⟨s, hd, F⟩)) = true
    · rw [if_pos hk] at h; cases h
    rw [if_neg hk] at h ⊢
    cases hr : s.reset <;> simp only [hr, Bool.false_eq_true, if_false, if_true, hml, hwr _ hf2] at h ⊢ <;> (
      split at h
      · cases h
      rename_i hn2
      rw [if_neg hn2]
      rw [bind_eq_ok] at h
      obtain ⟨p, hp, h⟩ := h
      rw [bind_eq_ok] at h
      obtain ⟨b', hb, h⟩ := h
      simp only [Res.ok.injEq, Prod.mk.injEq] at h
      obtain ⟨rfl, rfl⟩ := h
      rw [hp, bind_ok, hb, bind_ok])
  unfold marshal at h ⊢
  rw [hml]
  by_cases hn : marshalLen ho io ⟨s, hd, F⟩ < 0
  · simp only [if_pos hn] at h; cases h
  · simp only [if_neg hn] at h ⊢
    exact hto _ _ _ h

/-- the fields tried one after the other -/
def Act.chain : Act → List Nat
  | .drop => []
  | .set f => [f]
  | .app f => [f]
  | .free f r => f :: r.chain
  | .ifset _ _ => []

theorem lands_chain {F : Fields ι} {k : Nat} : ∀ {a : Act} {pre post : List Nat}, a.chain = pre ++ k :: post →
    (∀ p ∈ pre, F p ≠ []) → a.lands F k
  | .drop, pre, post, h, _ => by simp [Act.chain] at h
  | .ifset _ _, pre, post, h, _ => by simp [Act.chain] at h
  | .set g, pre, post, h, _ => by
    simp only [Act.chain] at h
    cases pre with
    | nil => simp only [List.nil_append, List.cons.injEq] at h; exact h.1
    | cons _ _ => simp at h
  | .app g, pre, post, h, _ => by
    simp only [Act.chain] at h
    cases pre with
    | nil => simp only [List.nil_append, List.cons.injEq] at h; exact h.1
    | cons _ _ => simp at h
  | .free g r, pre, post, h, hp => by
    simp only [Act.chain] at h
    cases pre with
    | nil => simp only [List.nil_append, List.cons.injEq] at h; exact Or.inl h.1
    | cons p pre =>
      simp only [List.cons_append, List.cons.injEq] at h
      obtain ⟨rfl, h⟩ := h
      exact Or.inr ⟨hp g List.mem_cons_self, lands_chain h (fun q hq => hp q (List.mem_cons_of_mem _ hq))⟩

/-- an element fits in any field of its chain, the fields before it filled -/
theorem fits_chain {s : Schema} {f : Nat} {x : ι} (h : f ∈ (unAct io s x).chain) :
    ∃ F : Fields ι, F f = [x] ∧ (∀ k, ∀ y ∈ F k, y = x) ∧ Fits io s F := by
  obtain ⟨pre, post, hc⟩ := List.append_of_mem h
  refine ⟨fun k => if k ∈ pre ++ [f] then [x] else [], by simp, ?_, ?_, ?_⟩
  · intro k y hy
    have hy : y ∈ (if k ∈ pre ++ [f] then [x] else []) := hy
    split at hy
    · simpa using hy
    · simp at hy
  · intro k y hy
    have hy : y ∈ (if k ∈ pre ++ [f] then [x] else []) := hy
    split at hy
    · rename_i hk
      simp only [List.mem_singleton] at hy
      subst hy
      apply lands_apply
      obtain ⟨pre', post', hc'⟩ := List.append_of_mem hk
      have hch : (unAct io s y).chain = pre' ++ k :: (post' ++ post) := by
        rw [hc, show pre ++ f :: post = (pre ++ [f]) ++ post by simp, hc']; simp
      apply lands_chain hch
      intro p hp
      have : p ∈ pre ++ [f] := by rw [hc']; simp [hp]
      simp only [this, if_true]; simp
    · simp at hy
  · intro k _
    show (if k ∈ pre ++ [f] then [x] else []).length ≤ 1
    split <;> simp

end Verif.Msg
