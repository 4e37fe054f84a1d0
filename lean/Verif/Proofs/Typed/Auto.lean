import Verif.Model.Typed.QoS
import Verif.Proofs.Typed.Simproc
import Verif.Props.V2IE
/-
Helper lemmas for typed information elements, and a small tactic proving `Returns` of straight-line readers.
-/
namespace Verif
open Res
variable {α β : Type}

theorem returns_bind_idx {b : Bytes} {i : Nat} {f : UInt8 → Res β} (h : i < b.length) (hf : ∀ x, Returns (f x)) :
    Returns (idx b i >>= f) := by rw [idx_of_lt h]; exact hf _

theorem returns_bind_slice {b : Bytes} {lo hi : Nat} {f : Bytes → Res β} (h1 : lo ≤ hi) (h2 : hi ≤ b.length)
    (hf : ∀ s : Bytes, s.length = hi - lo → Returns (f s)) : Returns (slice b lo hi >>= f) := by
  rw [slice_of_le h1 h2]; exact hf _ (by simp; omega)

theorem returns_slice {b : Bytes} {lo hi : Nat} (h1 : lo ≤ hi) (h2 : hi ≤ b.length) : Returns (slice b lo hi) := by
  rw [slice_of_le h1 h2]; simp

theorem returns_bind_sliceFrom {b : Bytes} {lo : Nat} {f : Bytes → Res β} (h1 : lo ≤ b.length)
    (hf : ∀ s : Bytes, s.length = b.length - lo → Returns (f s)) : Returns (sliceFrom b lo >>= f) := by
  rw [sliceFrom_of_le h1]; exact hf _ (by simp)

theorem returns_sliceFrom {b : Bytes} {lo : Nat} (h1 : lo ≤ b.length) : Returns (sliceFrom b lo) := by
  rw [sliceFrom_of_le h1]; simp

theorem rd16_ok {b : Bytes} (h : 2 ≤ b.length) : ∃ v, rd16 b = ok v := by
  match b, h with
  | x :: y :: _, _ => exact ⟨_, rfl⟩
theorem rd32_ok {b : Bytes} (h : 4 ≤ b.length) : ∃ v, rd32 b = ok v := by
  match b, h with
  | x :: y :: z :: w :: _, _ => exact ⟨_, rfl⟩
theorem rd64_ok {b : Bytes} (h : 8 ≤ b.length) : ∃ v, rd64 b = ok v := by
  match b, h with
  | _ :: _ :: _ :: _ :: _ :: _ :: _ :: _ :: _, _ => exact ⟨_, rfl⟩

theorem returns_rd16 {b : Bytes} (h : 2 ≤ b.length) : Returns (rd16 b) := by
  obtain ⟨v, h⟩ := rd16_ok h; rw [h]; simp
theorem returns_rd32 {b : Bytes} (h : 4 ≤ b.length) : Returns (rd32 b) := by
  obtain ⟨v, h⟩ := rd32_ok h; rw [h]; simp
theorem returns_rd64 {b : Bytes} (h : 8 ≤ b.length) : Returns (rd64 b) := by
  obtain ⟨v, h⟩ := rd64_ok h; rw [h]; simp

theorem returns_bind_rd16 {b : Bytes} {f : UInt16 → Res β} (h : 2 ≤ b.length) (hf : ∀ x, Returns (f x)) :
    Returns (rd16 b >>= f) := returns_bind (returns_rd16 h) (fun x _ => hf x)
theorem returns_bind_rd32 {b : Bytes} {f : UInt32 → Res β} (h : 4 ≤ b.length) (hf : ∀ x, Returns (f x)) :
    Returns (rd32 b >>= f) := returns_bind (returns_rd32 h) (fun x _ => hf x)
theorem returns_bind_rd64 {b : Bytes} {f : UInt64 → Res β} (h : 8 ≤ b.length) (hf : ∀ x, Returns (f x)) :
    Returns (rd64 b >>= f) := returns_bind (returns_rd64 h) (fun x _ => hf x)

theorem setAt_of_lt {b : Bytes} {i : Nat} (h : i < b.length) (x : UInt8) : setAt b i x = ok (b.set i x) := by
  simp [setAt, h]
theorem copyAt_len_ok {b : Bytes} {lo hi : Nat} (h1 : lo ≤ hi) (h2 : hi ≤ b.length) (src : Bytes) :
    ∃ b', copyAt b lo hi src = ok b' ∧ b'.length = b.length := by
  refine ⟨_, by rw [copyAt, if_pos ⟨h1, h2⟩], ?_⟩
  simp; omega

theorem returns_bind_setAt {b : Bytes} {i : Nat} {x : UInt8} {f : Bytes → Res β} (h : i < b.length)
    (hf : ∀ b' : Bytes, b'.length = b.length → Returns (f b')) : Returns (setAt b i x >>= f) := by
  rw [setAt_of_lt h]; exact hf _ (by simp)
theorem returns_setAt {b : Bytes} {i : Nat} {x : UInt8} (h : i < b.length) : Returns (setAt b i x) := by
  rw [setAt_of_lt h]; simp
theorem returns_bind_copyAt {b : Bytes} {lo hi : Nat} {src : Bytes} {f : Bytes → Res β} (h1 : lo ≤ hi)
    (h2 : hi ≤ b.length) (hf : ∀ b' : Bytes, b'.length = b.length → Returns (f b')) :
    Returns (copyAt b lo hi src >>= f) := by
  obtain ⟨b', h, hl⟩ := copyAt_len_ok h1 h2 src
  rw [h]; exact hf _ hl
theorem returns_copyAt {b : Bytes} {lo hi : Nat} {src : Bytes} (h1 : lo ≤ hi) (h2 : hi ≤ b.length) :
    Returns (copyAt b lo hi src) := by
  obtain ⟨b', h, hl⟩ := copyAt_len_ok h1 h2 src
  rw [h]; simp

theorem idx_mid {pre rest : Bytes} {x : UInt8} {i : Nat} (h : i = pre.length) : idx (pre ++ x :: rest) i = ok x := by
  subst h; simp [idx]

theorem slice_mid {pre mid rest : Bytes} {lo hi : Nat} (h1 : lo = pre.length) (h2 : hi = lo + mid.length) :
    slice (pre ++ (mid ++ rest)) lo hi = ok mid := by
  subst h1 h2; rw [← List.append_assoc]; exact slice_append _ _ _

/-- one step of `ret`; extended by `macro_rules` -/
syntax "ret_step" : tactic
macro_rules | `(tactic| ret_step) => `(tactic| split)
macro_rules | `(tactic| ret_step) => `(tactic| first
  | with_reducible exact returns_ok _
  | with_reducible exact returns_err _
  | assumption
  | (with_reducible refine returns_bind_idx (by omega) (fun _ => ?_))
  | (with_reducible exact returns_idx (by omega))
  | (with_reducible refine returns_bind_slice (by omega) (by omega) (fun _ _ => ?_))
  | (with_reducible exact returns_slice (by omega) (by omega))
  | (with_reducible refine returns_bind_sliceFrom (by omega) (fun _ _ => ?_))
  | (with_reducible exact returns_sliceFrom (by omega))
  | (with_reducible refine returns_bind_rd16 (by omega) (fun _ => ?_))
  | (with_reducible exact returns_rd16 (by omega))
  | (with_reducible refine returns_bind_rd32 (by omega) (fun _ => ?_))
  | (with_reducible exact returns_rd32 (by omega))
  | (with_reducible refine returns_bind_rd64 (by omega) (fun _ => ?_))
  | (with_reducible exact returns_rd64 (by omega))
  | (with_reducible refine returns_bind_setAt (by omega) (fun _ _ => ?_))
  | (with_reducible exact returns_setAt (by omega))
  | (with_reducible refine returns_bind_copyAt (by omega) (by omega) (fun _ _ => ?_))
  | (with_reducible exact returns_copyAt (by omega) (by omega)))

/-- prove that a reader returns: bounds by `omega`, branches by `split` -/
macro "ret" : tactic => `(tactic| (repeat' ret_step))

/-- length side conditions -/
macro "len" : tactic => `(tactic| first | rfl | omega | (simp; done) | (simp; omega) | (simp at *; omega))

end Verif
