import Verif.Base
/-
Buffer writers: `Writes f out` says that `f` puts `out` at the start of any buffer large enough and leaves the rest alone.
-/
namespace Verif
open Res

def Writes (f : Bytes → Res Bytes) (out : Bytes) : Prop :=
  ∀ z : Bytes, out.length ≤ z.length → f z = ok (out ++ z.drop out.length)

variable {f : Bytes → Res Bytes} {out pre z : Bytes} {lo hi : Nat}

theorem Writes.sub (h : Writes f out) (hl : lo = pre.length) (hh : hi = lo + out.length) (hz : out.length ≤ z.length) :
    onSub (pre ++ z) lo hi f = ok (pre ++ out ++ z.drop out.length) := by
  subst hl hh
  rw [onSub, slice_of_le (by omega) (by simp; omega)]
  simp only [bind_ok, List.drop_left, Nat.add_sub_cancel_left]
  rw [h _ (by simp; omega)]
  simp [List.drop_append]

theorem Writes.subEnd (h : Writes f out) (hl : lo = pre.length) (hh : hi = (pre ++ z).length) (hz : out.length ≤ z.length) :
    onSub (pre ++ z) lo hi f = ok (pre ++ out ++ z.drop out.length) := by
  subst hl hh
  rw [onSub, slice_of_le (by simp) (by simp)]
  simp only [bind_ok, List.drop_left, List.length_append, Nat.add_sub_cancel_left, List.take_length]
  rw [h _ hz]
  simp

theorem Writes.marshal (h : Writes f out) {n : Nat} (hn : n = out.length) : f (List.replicate n 0) = ok out := by
  subst hn; rw [h _ (by simp)]; simp

end Verif
