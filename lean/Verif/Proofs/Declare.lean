import Verif.Model.Declare
import Verif.Proofs.V2IE
/-
Helper lemmas for C108: the same octets read with two opinions on which types are grouped.
-/
namespace Verif.V2
open Res Spec

mutual
/-- the element without the children that `g` does not let it have -/
def forget (g : UInt8 → Bool) : IE → IE
  | .mk t n i p cs => .mk t n i p (if g t then forgets g cs else [])
def forgets (g : UInt8 → Bool) : List IE → List IE
  | [] => []
  | c :: cs => forget g c :: forgets g cs
end

theorem forgets_map (g : UInt8 → Bool) : ∀ l : List IE, forgets g l = l.map (forget g)
  | [] => rfl
  | c :: l => by simp [forgets, forgets_map g l]

/-- `y` is `x` or somewhere inside it -/
inductive Inside (y : IE) : IE → Prop
  | here : Inside y y
  | deeper (x c : IE) : c ∈ x.children → Inside y c → Inside y x

mutual
theorem enc_forget {g g' : UInt8 → Bool} (hle : ∀ t, g t = true → g' t = true) : ∀ x : IE, wf g' x = true →
    enc g (forget g x) = enc g' x ∧ wf g (forget g x) = true
  | .mk t n i p cs, h => by
    by_cases ht : g t = true
    · have ht' := hle t ht
      rw [wf_grouped g' ht'] at h
      obtain ⟨e1, e2⟩ := encs_forget hle cs h.2.2
      refine ⟨?_, ?_⟩
      · simp [enc, forget, ht, ht', e1]
      · rw [forget, if_pos ht, wf_grouped g ht]
        exact ⟨h.1, by rw [e1]; exact h.2.1, e2⟩
    · rw [forget, if_neg ht, wf_plain g ht]
      by_cases ht' : g' t = true
      · rw [wf_grouped g' ht'] at h
        refine ⟨?_, h.1, rfl⟩
        simp [enc, ht, ht', ← h.2.1]
      · rw [wf_plain g' ht'] at h
        exact ⟨by simp [enc, ht, ht'], h.1, rfl⟩
theorem encs_forget {g g' : UInt8 → Bool} (hle : ∀ t, g t = true → g' t = true) : ∀ l : List IE, wfs g' l = true →
    encs g (forgets g l) = encs g' l ∧ wfs g (forgets g l) = true
  | [], _ => ⟨rfl, rfl⟩
  | c :: cs, h => by
    simp only [wfs, Bool.and_eq_true] at h
    obtain ⟨a1, a2⟩ := enc_forget hle c h.1
    obtain ⟨b1, b2⟩ := encs_forget hle cs h.2
    exact ⟨by simp [forgets, encs, a1, b1], by simp [forgets, wfs, a2, b2]⟩
end

theorem wfs_mem {g : UInt8 → Bool} {l : List IE} (h : wfs g l = true) {c : IE} (hc : c ∈ l) : wf g c = true := (wfs_iff g l).1 h c hc

/-- what is inside a forgotten element was there before -/
theorem inside_forget {g g' : UInt8 → Bool} (hle : ∀ t, g t = true → g' t = true) {y z : IE} (hy : Inside y z) :
    ∀ x : IE, wf g' x = true → z = forget g x → ∃ y', wf g' y' = true ∧ forget g y' = y := by
  induction hy with
  | here => rintro x h rfl; exact ⟨x, h, rfl⟩
  | deeper z c hc _ ih =>
    rintro ⟨t, n, i, p, cs⟩ h rfl
    rw [forget] at hc
    by_cases ht : g t = true
    · rw [if_pos ht] at hc
      simp only [IE.children, forgets_map, List.mem_map] at hc
      obtain ⟨c', hc', rfl⟩ := hc
      exact ih c' (wfs_mem ((wf_grouped g' (hle t ht)).1 h).2.2 hc') rfl
    · rw [if_neg ht] at hc; simp [IE.children] at hc

theorem typ_forget (g : UInt8 → Bool) (x : IE) : (forget g x).typ = x.typ := by cases x; rfl
theorem payload_forget (g : UInt8 → Bool) (x : IE) : (forget g x).payload = x.payload := by cases x; rfl
theorem inst_forget (g : UInt8 → Bool) (x : IE) : (forget g x).instance' = x.instance' := by cases x; rfl

mutual
/-- children can be found again -/
theorem remember {g g' : UInt8 → Bool} (hle : ∀ t, g t = true → g' t = true) : ∀ x : IE, wf g x = true →
    (∀ y, Inside y x → g y.typ = false → g' y.typ = true → ∃ l, parseMulti g' y.payload = ok l) →
    ∃ x', wf g' x' = true ∧ forget g x' = x
  | .mk t n i p cs, h, hr => by
    by_cases ht : g t = true
    · rw [wf_grouped g ht] at h
      obtain ⟨cs', e1, e2⟩ := remembers hle cs h.2.2 fun y c hc hy => hr y (.deeper _ c hc hy)
      refine ⟨.mk t n i p cs', ?_, by rw [forget, if_pos ht, e2]⟩
      rw [wf_grouped g' (hle t ht)]
      exact ⟨h.1, by rw [h.2.1, ← e2, (encs_forget hle cs' e1).1], e1⟩
    · rw [wf_plain g ht] at h
      by_cases ht' : g' t = true
      · obtain ⟨l, hl⟩ := hr _ .here (by simpa [IE.typ] using ht) ht'
        obtain ⟨l1, l2⟩ := (parseMulti_ok_iff g' _ _).1 hl
        refine ⟨.mk t n i p l, ?_, ?_⟩
        · rw [wf_grouped g' ht']; exact ⟨h.1, l2, l1⟩
        · rw [forget, if_neg ht, h.2]
      · refine ⟨.mk t n i p cs, ?_, ?_⟩
        · rw [wf_plain g' ht']; exact h
        · rw [forget, if_neg ht, h.2]
theorem remembers {g g' : UInt8 → Bool} (hle : ∀ t, g t = true → g' t = true) : ∀ l : List IE, wfs g l = true →
    (∀ y, ∀ c ∈ l, Inside y c → g y.typ = false → g' y.typ = true → ∃ k, parseMulti g' y.payload = ok k) →
    ∃ l', wfs g' l' = true ∧ forgets g l' = l
  | [], _, _ => ⟨[], rfl, rfl⟩
  | c :: cs, h, hr => by
    simp only [wfs, Bool.and_eq_true] at h
    obtain ⟨c', a1, a2⟩ := remember hle c h.1 fun y hy => hr y c List.mem_cons_self hy
    obtain ⟨cs', b1, b2⟩ := remembers hle cs h.2 fun y d hd hy => hr y d (List.mem_cons_of_mem _ hd) hy
    exact ⟨c' :: cs', by simp [wfs, a1, b1], by simp [forgets, a2, b2]⟩
end

mutual
theorem agree {g g' : UInt8 → Bool} : ∀ x : IE, wf g x = true → (∀ y, Inside y x → g y.typ = g' y.typ) →
    enc g' x = enc g x ∧ wf g' x = true
  | .mk t n i p cs, h, hr => by
    have e : g t = g' t := hr _ .here
    by_cases ht : g t = true
    · have ht' : g' t = true := e ▸ ht
      rw [wf_grouped g ht] at h
      obtain ⟨e1, e2⟩ := agrees cs h.2.2 fun y c hc hy => hr y (.deeper _ c hc hy)
      refine ⟨by simp [enc, ht, ht', e1], ?_⟩
      rw [wf_grouped g' ht']
      exact ⟨h.1, by rw [e1]; exact h.2.1, e2⟩
    · have ht' : ¬ g' t = true := e ▸ ht
      rw [wf_plain g ht] at h
      refine ⟨by simp [enc, ht, ht'], ?_⟩
      rw [wf_plain g' ht']; exact h
theorem agrees {g g' : UInt8 → Bool} : ∀ l : List IE, wfs g l = true → (∀ y, ∀ c ∈ l, Inside y c → g y.typ = g' y.typ) →
    encs g' l = encs g l ∧ wfs g' l = true
  | [], _, _ => ⟨rfl, rfl⟩
  | c :: cs, h, hr => by
    simp only [wfs, Bool.and_eq_true] at h
    obtain ⟨a1, a2⟩ := agree c h.1 fun y hy => hr y c List.mem_cons_self hy
    obtain ⟨b1, b2⟩ := agrees cs h.2 fun y d hd hy => hr y d (List.mem_cons_of_mem _ hd) hy
    exact ⟨by simp [encs, a1, b1], by simp [wfs, a2, b2]⟩
end

end Verif.V2

namespace Verif.Msg
variable {ι κ : Type}

theorem apply_map (φ : ι → κ) : ∀ (a : Act) (F : Fields ι) (x : ι),
    (fun f => (a.apply F x f).map φ) = a.apply (fun f => (F f).map φ) (φ x)
  | .drop, _, _ => rfl
  | .set f, F, x => by funext k; simp only [Act.apply, upd]; split <;> simp
  | .app f, F, x => by funext k; simp only [Act.apply, upd]; split <;> simp
  | .free f r, F, x => by
    simp only [Act.apply, List.isEmpty_map]
    split
    · funext k; simp only [upd]; split <;> simp
    · exact apply_map φ r F x
  | .ifset f r, F, x => by
    simp only [Act.apply, List.isEmpty_map]
    split
    · exact apply_map φ r F x
    · funext k; simp only [upd]; split <;> simp

theorem classify_map (io : IEOps ι) (io' : IEOps κ) (φ : ι → κ) (ht : ∀ x, io'.typ (φ x) = io.typ x)
    (hi : ∀ x, io'.inst (φ x) = io.inst x) (rules : List Rule) (d : Act) (xs : List ι) :
    classify io' rules d (xs.map φ) = fun f => (classify io rules d xs f).map φ := by
  unfold classify
  have h0 : (Fields.empty : Fields κ) = fun f => ((Fields.empty : Fields ι) f).map φ := rfl
  rw [h0]
  generalize (Fields.empty : Fields ι) = F
  induction xs generalizing F with
  | nil => rfl
  | cons x xs ih => simp only [List.map_cons, List.foldl_cons, ht, hi]; rw [← apply_map, ih]

end Verif.Msg
