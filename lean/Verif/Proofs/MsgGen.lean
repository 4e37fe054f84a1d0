import Verif.Proofs.Msg
/-
More theory of the common message code, for any header and IE type: the round trip of constructed messages, and what
happens when a message whose MarshalTo does not clear the old payload is serialised again.
-/
namespace Verif.Msg
open Res
variable {ι η : Type} {io : IEOps ι} {enc : ι → Bytes} {sz wf : ι → Prop} {ho : HdrOps η}

/-- the message object left by a successful Marshal -/
def doneM (ho : HdrOps η) (enc : ι → Bytes) (m : Message η ι) : Message η ι :=
  { m with hdr := doneHdr ho m.hdr (body enc m.schema m.fields) }

/-- serialising and reading back, given that the header can be written and read back -/
theorem round_trip_core (H : HdrLaws ho) (L : IELaws io enc sz wf) (m : Message η ι) (out : Bytes)
    (hl : m.schema.lensOK = true) (hc : Clobberless m.fields m.schema.order)
    (hw : ∀ f, ∀ x ∈ m.fields f, wf x) (hr : m.schema.reset = true ∨ ho.payload m.hdr = [])
    (hcl : classify io m.schema.unRules m.schema.unDefault (emit m.schema.order m.fields) = m.fields)
    (hm : ho.mto (doneM ho enc m).hdr (List.replicate (ho.mlen (doneM ho enc m).hdr) 0) = ok out)
    (hp : ho.parse out = ok (doneM ho enc m).hdr) :
    marshal ho io m = ok (doneM ho enc m, out) ∧ unmarshal ho io m.schema out = ok (doneM ho enc m) := by
  refine ⟨marshal_eq H L m out hl hc (fun f x hx => L.wf_sz x (hw f x hx)) hr hm, ?_⟩
  have hpay : ho.payload (doneM ho enc m).hdr = (emit m.schema.order m.fields).flatMap enc := by
    simp only [doneM, doneHdr, H.payL, H.pay, body]
  rw [unmarshal_body L m.schema out _ (emit m.schema.order m.fields) hp hpay (mem_emit hw), hcl]
  rfl

theorem length_newBody (L : IELaws io enc sz wf) (s : Schema) (hl : s.lensOK = true) (hu : s.unGood = true)
    (ies : List (Option ι)) (hw : ∀ x, some x ∈ ies → sz x) :
    (body enc s (newFields io s ies)).length ≤ ((ies.filterMap id).map io.mlen).sum := by
  simp only [Schema.unGood, Bool.and_eq_true, decide_eq_true_eq] at hu
  have hc : ∀ f, ∀ x ∈ newFields io s ies f, sz x :=
    classify_mem io s.newRules s.newDefault sz (ies.filterMap id) (fun x hx => hw x (by simpa using hx))
  rw [length_body L s hl _ hc, ← sum_emit s hl, emit_eq]
  exact sum_classify io s.newRules s.newDefault hu.1 io.mlen (ies.filterMap id)

/-- writing an IE into no space fails -/
theorem writeFields_none (e : Err) (he : ∀ x, io.mto x [] = err e) (F : Fields ι) : ∀ es : List Entry, emit es F ≠ [] →
    writeFields io F es 0 [] = err e
  | [], h => by simp [emit] at h
  | en :: es, h => by
    rw [writeFields]
    cases hf : F en.field with
    | nil =>
      simp only [writeList, bind_ok]
      apply writeFields_none e he F es
      intro h2; apply h
      simp only [emit] at h2
      simp [emit, hf, h2]
    | cons x xs => simp [writeList, he, sliceFrom]

/-- a message serialised before, or parsed, whose MarshalTo keeps the old payload: the space for the IEs is computed as
the difference to the old payload. -/
theorem stale_payload (H : HdrLaws ho) (e : Err) (he : ∀ x, io.mto x [] = err e) (m : Message η ι)
    (hr : m.schema.reset = false) :
    (bodyLen io m.schema m.fields < (ho.payload m.hdr).length → marshal ho io m = .panic) ∧
    (bodyLen io m.schema m.fields = (ho.payload m.hdr).length → emit m.schema.order m.fields ≠ [] →
      marshal ho io m = err e) := by
  have hle := H.payLe m.hdr
  have hn : ¬ marshalLen ho io m < 0 := by simp only [marshalLen]; omega
  have hk : ¬ (m.schema.lenCheck && decide (((List.replicate (marshalLen ho io m).toNat (0 : UInt8)).length : Int)
      < marshalLen ho io m)) = true := by
    simp only [Bool.and_eq_true, decide_eq_true_eq, not_and, List.length_replicate]; omega
  constructor
  · intro hlt
    simp only [marshal, if_neg hn, marshalTo]
    rw [if_neg hk]
    simp only [hr, Bool.false_eq_true, if_false]
    rw [if_pos (by simp only [marshalLen]; omega)]
  · intro heq hne
    simp only [marshal, if_neg hn, marshalTo]
    rw [if_neg hk]
    simp only [hr, Bool.false_eq_true, if_false]
    have h0 : marshalLen ho io m - (ho.mlen m.hdr : Int) = 0 := by simp only [marshalLen]; omega
    rw [h0, if_neg (by omega)]
    simp only [Int.toNat_zero, List.replicate_zero]
    rw [writeFields_none e he m.fields m.schema.order hne]
    rfl

/-- a constructed message whose constructor keeps every IE has IEs to write if it was given one -/
theorem emit_ne_nil (s : Schema) (hka : s.keepsAll = true)
    (htg : tableAll (fun a => (a.targets ++ a.frozen).all (fun f => s.orderF.contains f)) s.newRules s.newDefault = true)
    (ies : List (Option ι)) (hne : ∃ x, some x ∈ ies) : emit s.order (newFields io s ies) ≠ [] := by
  obtain ⟨x, hx⟩ := hne
  have hne : ies.filterMap id ≠ [] := by
    intro h
    have : x ∈ ies.filterMap id := by simpa using hx
    rw [h] at this; simp at this
  have hd : ies.filterMap id = (ies.filterMap id).dropLast ++ [(ies.filterMap id).getLast hne] :=
    (List.dropLast_concat_getLast hne).symm
  intro h0
  rw [emit_eq, newFields, hd, classify, List.foldl_append] at h0
  have hm := apply_mem (order := s.orderF)
    (List.foldl (fun F x => (sel s.newRules s.newDefault (io.typ x).toNat (io.inst x).toNat).apply F x)
      Fields.empty (ies.filterMap id).dropLast)
    ((ies.filterMap id).getLast hne)
    (sel s.newRules s.newDefault (io.typ ((ies.filterMap id).getLast hne)).toNat
      (io.inst ((ies.filterMap id).getLast hne)).toNat)
    (tableAll_sound hka _ _) (by
      have := tableAll_sound htg (io.typ ((ies.filterMap id).getLast hne)).toNat
        (io.inst ((ies.filterMap id).getLast hne)).toNat
      intro f hf
      rw [List.all_eq_true] at this
      simpa using this f hf)
  rw [List.foldl_cons, List.foldl_nil] at h0
  rw [h0] at hm
  simp at hm

/-- what a successful parse of a message consists of -/
theorem unmarshal_ok {s : Schema} {b : Bytes} {m : Message η ι} (h : unmarshal ho io s b = ok m) :
    ho.parse b = ok m.hdr ∧ m.schema = s ∧
      ((s.early = true ∧ (ho.payload m.hdr).length < 2 ∧ m.fields = Fields.empty) ∨
       ∃ xs, io.parseMulti (ho.payload m.hdr) = ok xs ∧ m.fields = classify io s.unRules s.unDefault xs) := by
  unfold unmarshal at h
  rw [bind_eq_ok] at h
  obtain ⟨hd, hh, h⟩ := h
  split at h
  · rename_i hc
    simp only [Bool.and_eq_true, decide_eq_true_eq] at hc
    simp only [ok.injEq] at h
    subst h
    exact ⟨hh, rfl, Or.inl ⟨hc.1, hc.2, rfl⟩⟩
  · rw [bind_eq_ok] at h
    obtain ⟨xs, hx, h⟩ := h
    simp only [ok.injEq] at h
    subst h
    exact ⟨hh, rfl, Or.inr ⟨xs, hx, rfl⟩⟩

theorem unmarshal_returns (L : IELaws io enc sz wf) (s : Schema) (b : Bytes) (h : Returns (ho.parse b)) :
    Returns (unmarshal ho io s b) := by
  unfold unmarshal
  apply returns_bind
  · exact h
  · intro h _
    split
    · simp
    · apply returns_bind
      · exact L.total _
      · intro a _; simp

/-- the IEs of a parsed message are serialisable, and take no more space than what was parsed -/
theorem unmarshal_fields (L : IELaws io enc sz wf) {s : Schema} (hu : s.unGood = true) (hl : s.lensOK = true)
    {b : Bytes} {m : Message η ι} (h : unmarshal ho io s b = ok m) :
    (∀ f, ∀ x ∈ m.fields f, sz x) ∧ (∀ f, f ∉ s.multi → (m.fields f).length ≤ 1) ∧
    bodyLen io s m.fields ≤ (ho.payload m.hdr).length ∧
    classify io s.unRules s.unDefault (emit s.order m.fields) = m.fields := by
  obtain ⟨hp, hs, hf⟩ := unmarshal_ok h
  obtain ⟨xs, hxs, hlen, hfx⟩ : ∃ xs, (∀ x ∈ xs, sz x) ∧ (xs.map io.mlen).sum ≤ (ho.payload m.hdr).length ∧
      m.fields = classify io s.unRules s.unDefault xs := by
    rcases hf with ⟨_, _, hf⟩ | ⟨xs, hx, hf⟩
    · exact ⟨[], by simp, by simp, hf⟩
    · obtain ⟨h1, h2⟩ := L.sound _ _ hx
      refine ⟨xs, h2, ?_, hf⟩
      rw [← h1, length_flatMap_enc L xs h2]; exact Nat.le_refl _
  rw [hfx]
  refine ⟨classify_mem io _ _ _ xs hxs, (stable_un io s hu xs).scalar, ?_, classify_un io s hu xs⟩
  simp only [Schema.unGood, Bool.and_eq_true, decide_eq_true_eq] at hu
  have h1 := sum_classify io s.unRules s.unDefault hu.1 io.mlen xs
  rw [← sum_emit s hl, emit_eq]
  omega

/-! ### no IE is lost -/

/-- an IE filed by the action never replaces another one -/
def Act.roomy (multi : List Nat) : Act → Bool
  | .drop => true
  | .set f => multi.contains f
  | .app f => multi.contains f
  | .free _ r => r.roomy multi
  | .ifset _ _ => false

/-- no two cases of different IE types share a field, apart from lists; IEs of unknown type go to a list -/
def Schema.separate (s : Schema) : Bool :=
  s.newRules.all (fun r => s.newRules.all (fun q => r.typ == q.typ ||
    (r.act.targets ++ r.act.frozen).all (fun f => s.multi.contains f || !(q.act.targets ++ q.act.frozen).contains f))) &&
  s.newRules.all (fun r => s.newDefault.targets.all (fun f => s.multi.contains f || !(r.act.targets ++ r.act.frozen).contains f)) &&
  s.newDefault.roomy s.multi

theorem apply_other {F : Fields ι} {x : ι} {f : Nat} : ∀ a : Act, f ∉ a.targets ++ a.frozen → a.apply F x f = F f
  | .drop, _ => rfl
  | .set g, h => by rw [Act.apply, upd_ne]; simpa [Act.targets, Act.frozen] using h
  | .app g, h => by rw [Act.apply, upd_ne]; simpa [Act.targets, Act.frozen] using h
  | .free g r, h => by
    simp only [Act.targets, Act.frozen, List.cons_append, List.mem_cons, not_or] at h
    rw [Act.apply]; split
    · rw [upd_ne _ _ h.1]
    · exact apply_other r h.2
  | .ifset g r, h => by
    simp only [Act.targets, Act.frozen, List.mem_append, List.mem_cons, not_or] at h
    rw [Act.apply]; split
    · exact apply_other r (by simp only [List.mem_append, not_or]; exact ⟨h.1, h.2.2⟩)
    · rw [upd_ne _ _ h.2.1]

theorem classify_other (io : IEOps ι) (rules : List Rule) (d : Act) (f : Nat) (xs : List ι)
    (h : ∀ x ∈ xs, f ∉ (sel rules d (io.typ x).toNat (io.inst x).toNat).targets
      ++ (sel rules d (io.typ x).toNat (io.inst x).toNat).frozen) : classify io rules d xs f = [] := by
  have : ∀ (l : List ι) (F : Fields ι), (∀ x ∈ l, f ∉ (sel rules d (io.typ x).toNat (io.inst x).toNat).targets
      ++ (sel rules d (io.typ x).toNat (io.inst x).toNat).frozen) →
      (l.foldl (fun F x => (sel rules d (io.typ x).toNat (io.inst x).toNat).apply F x) F) f = F f := by
    intro l
    induction l with
    | nil => intro F _; rfl
    | cons x l ih =>
      intro F hx
      rw [List.foldl_cons, ih _ (fun y hy => hx y (List.mem_cons_of_mem _ hy)), apply_other _ (hx x List.mem_cons_self)]
  exact this xs Fields.empty h

theorem dest_cases {F : Fields ι} {multi : List Nat} {f : Nat} : ∀ a : Act, a.dest F = some f →
    f ∈ multi ∨ F f = [] ∨ (f ∈ a.targets ++ a.frozen ∧ a.roomy multi = false)
  | .drop, h => by simp [Act.dest] at h
  | .set g, h => by
    simp only [Act.dest, Option.some.injEq] at h; subst h
    by_cases hm : g ∈ multi
    · exact Or.inl hm
    · right; right; simp [Act.targets, Act.roomy, hm]
  | .app g, h => by
    simp only [Act.dest, Option.some.injEq] at h; subst h
    by_cases hm : g ∈ multi
    · exact Or.inl hm
    · right; right; simp [Act.targets, Act.roomy, hm]
  | .free g r, h => by
    simp only [Act.dest] at h
    split at h
    · rename_i he
      simp only [Option.some.injEq] at h; subst h
      right; left; simpa using he
    · rcases dest_cases r h with h | h | ⟨h1, h2⟩
      · exact Or.inl h
      · exact Or.inr (Or.inl h)
      · right; right
        refine ⟨?_, h2⟩
        simp only [Act.targets, Act.frozen, List.cons_append, List.mem_cons]
        exact Or.inr h1
  | .ifset g r, h => by
    simp only [Act.dest] at h
    split at h
    · rcases dest_cases (multi := multi) r h with h | h | ⟨h1, h2⟩
      · exact Or.inl h
      · exact Or.inr (Or.inl h)
      · right; right
        refine ⟨?_, rfl⟩
        simp only [Act.targets, Act.frozen, List.mem_append, List.mem_cons] at h1 ⊢
        rcases h1 with h1 | h1
        · exact Or.inl h1
        · exact Or.inr (Or.inr h1)
    · simp only [Option.some.injEq] at h; subst h
      right; right; exact ⟨by simp [Act.frozen], rfl⟩

theorem sel_mem (rules : List Rule) (d : Act) (t i : Nat) :
    sel rules d t i = d ∨ ∃ r ∈ rules, r.typ = t ∧ sel rules d t i = r.act := by
  unfold sel
  cases h : rules.find? (fun r => r.typ == t && (r.inst == none || r.inst == some i)) with
  | none => exact Or.inl rfl
  | some r =>
    right
    have h1 := List.find?_some h
    simp only [Bool.and_eq_true, beq_iff_eq] at h1
    exact ⟨r, List.mem_of_find?_eq_some h, h1.1, rfl⟩

/-- two IEs of different types do not meet in a single-valued field -/
theorem separate_sound (s : Schema) (hs : s.separate = true) {t i u j : Nat} (hne : t ≠ u) {f : Nat}
    (h1 : f ∈ (sel s.newRules s.newDefault t i).targets ++ (sel s.newRules s.newDefault t i).frozen)
    (h2 : f ∈ (sel s.newRules s.newDefault u j).targets ++ (sel s.newRules s.newDefault u j).frozen)
    (hr : sel s.newRules s.newDefault u j ≠ s.newDefault) (hd : s.newDefault.frozen = []) : f ∈ s.multi := by
  simp only [Schema.separate, Bool.and_eq_true] at hs
  obtain ⟨⟨ha, hb⟩, hc⟩ := hs
  rw [List.all_eq_true] at ha hb
  rcases sel_mem s.newRules s.newDefault u j with e | ⟨q, hq, hqt, e⟩
  · exact absurd e hr
  rw [e] at h2
  rcases sel_mem s.newRules s.newDefault t i with e' | ⟨r, hrr, hrt, e'⟩
  · rw [e', hd, List.append_nil] at h1
    have := hb q hq
    rw [List.all_eq_true] at this
    have := this f h1
    simp only [Bool.or_eq_true, Bool.not_eq_true'] at this
    rcases this with h | h
    · simpa using h
    · have h3 : (q.act.targets ++ q.act.frozen).contains f = true := by simpa using h2
      rw [h3] at h; cases h
  · rw [e'] at h1
    have := ha r hrr
    rw [List.all_eq_true] at this
    have := this q hq
    simp only [Bool.or_eq_true, beq_iff_eq] at this
    rcases this with h | h
    · exact absurd (hrt.symm.trans (h.trans hqt)) hne
    · rw [List.all_eq_true] at h
      have := h f h1
      simp only [Bool.or_eq_true, Bool.not_eq_true'] at this
      rcases this with h | h
      · simpa using h
      · have h3 : (q.act.targets ++ q.act.frozen).contains f = true := by simpa using h2
        rw [h3] at h; cases h

/-- an IE filed by the action is kept if no IE of its type came before -/
def Act.keepsOne : Act → Bool
  | .drop => false
  | .set _ => true
  | .app _ => true
  | .free _ _ => true
  | .ifset _ r => r.dropFree

/-- every case of the constructor keeps the first IE of its type; unknown IEs go to a list -/
def Schema.keepsFirst (s : Schema) : Bool :=
  s.newRules.all (fun r => r.act.keepsOne) && s.newDefault.dropFree && s.newDefault.frozen.isEmpty

/-- no two IEs of one type, except where the message has room for several -/
def Distinct (io : IEOps ι) (s : Schema) (xs : List ι) : Prop :=
  xs.Pairwise (fun x y => io.typ x ≠ io.typ y ∨
    ((newAct io s y).roomy s.multi = true ∧ (newAct io s y).dropFree = true))

/-- fields outside lists are free while no IE of the type has come -/
theorem free_of_new (io : IEOps ι) (s : Schema) (hs : s.separate = true) (hd : s.newDefault.frozen = [])
    (pre : List ι) (x : ι) (h : ∀ y ∈ pre, io.typ y ≠ io.typ x) (hne : newAct io s x ≠ s.newDefault) (f : Nat)
    (hf : f ∈ (newAct io s x).targets ++ (newAct io s x).frozen) (hm : f ∉ s.multi) :
    classify io s.newRules s.newDefault pre f = [] := by
  apply classify_other
  intro y hy hyf
  exact hm (separate_sound s hs (fun hh => h y hy (UInt8.toNat.inj hh)) hyf hf hne hd)

/-- every IE of such a list is in the message -/
theorem distinct_perm (io : IEOps ι) (s : Schema) (hu : s.orderF.Nodup) (hg : s.newGood = true)
    (hk : s.keepsFirst = true) (hs : s.separate = true) (xs : List ι) (hx : Distinct io s xs) :
    (emit s.order (newFields io s (xs.map some))).Perm xs := by
  have e : (xs.map some).filterMap id = xs := by
    induction xs with
    | nil => rfl
    | cons x xs ih => simp
  simp only [Schema.keepsFirst, Bool.and_eq_true, List.isEmpty_iff] at hk
  obtain ⟨⟨hk1, hk2⟩, hd⟩ := hk
  have hs' := hs
  simp only [Schema.separate, Bool.and_eq_true] at hs'
  rw [emit_eq, newFields, e]
  have hpair : ∀ pre x post, xs = pre ++ x :: post → (∀ y ∈ pre, io.typ y ≠ io.typ x) ∨
      ((newAct io s x).roomy s.multi = true ∧ (newAct io s x).dropFree = true) := by
    intro pre x post he
    by_cases hr : (newAct io s x).roomy s.multi = true ∧ (newAct io s x).dropFree = true
    · exact Or.inr hr
    · left
      intro y hy
      rw [he, Distinct, List.pairwise_append] at hx
      rcases hx.2.2 y hy x List.mem_cons_self with h | h
      · exact h
      · exact absurd h hr
  apply emit_perm' io s.newRules s.newDefault s.orderF s.multi s.froz hu xs (fun x _ => tableAll_sound hg _ _)
  · intro pre x post he
    by_cases hdf : (newAct io s x).dropFree = true
    · exact dest_of_dropFree hdf
    have hnd : newAct io s x ≠ s.newDefault := by
      intro h; rw [h] at hdf; exact hdf hk2
    rcases hpair pre x post he with h | h
    · have hone : (newAct io s x).keepsOne = true := by
        rcases sel_mem s.newRules s.newDefault (io.typ x).toNat (io.inst x).toNat with h1 | ⟨r, hr, _, h1⟩
        · exact absurd h1 hnd
        · rw [newAct, h1]; rw [List.all_eq_true] at hk1; exact hk1 r hr
      have hgood : (newAct io s x).good s.orderF s.multi s.froz = true := tableAll_sound hg _ _
      -- the first free field
      match ha : newAct io s x, hone, hdf with
      | .drop, h1, _ => simp [Act.keepsOne] at h1
      | .set _, _, h1 => simp [Act.dropFree] at h1
      | .app _, _, h1 => simp [Act.dropFree] at h1
      | .free f r, _, _ =>
        rw [ha] at hgood
        simp only [Act.good, Bool.and_eq_true] at hgood
        have := free_of_new io s hs hd pre x h hnd f (by rw [ha]; simp [Act.targets]) (by simpa using hgood.1.1.1.2)
        show Act.dest (classify io s.newRules s.newDefault pre) (newAct io s x) ≠ none
        rw [ha]; simp [Act.dest, this]
      | .ifset f r, h1, h2 => exact absurd h1 h2
    · exact absurd h.2 hdf
  · intro pre x post he f hf hm
    rcases dest_cases (multi := s.multi) _ hf with h | h | ⟨h1, h2⟩
    · exact absurd h hm
    · exact h
    rcases hpair pre x post he with h | h
    · refine free_of_new io s hs hd pre x h ?_ f h1 hm
      intro hh
      have h2 : (newAct io s x).roomy s.multi = false := h2
      rw [hh, hs'.2] at h2; cases h2
    · have h2 : (newAct io s x).roomy s.multi = false := h2
      rw [h.1] at h2; cases h2

end Verif.Msg
