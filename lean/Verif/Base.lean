/-
Outcomes of Go calls, byte slices, big-endian integers.

Everything in this file models the Go language / standard library, not /repo:
 * `Res` : a Go call returns a value, returns a non-nil error, panics, or does not return.
 * `slice`, `sliceFrom`, `idx` : slice expressions and index expressions.
   Simplification: Go allows re-slicing up to the *capacity*; the model only up to the length, i.e. it
   assumes cap = len.  So the model panics whenever Go might panic, never less often.  The few places where
   the code depends on the capacity are modelled separately (see `Model/Alias.lean`).
 * `setAt`, `copyAt` : `b[i] = x` and `copy(b[lo:hi], src)`.
 * `be16`/`be32`/`be64`, `rd16`.. : encoding/binary.BigEndian.
-/
namespace Verif

abbrev Bytes := List UInt8

/-- Error values the modelled code distinguishes. -/
inductive Err where
  | eof            -- io.ErrUnexpectedEOF
  | tooShortParse  -- ErrTooShortToParse
  | tooShortMarshal -- ErrTooShortToMarshal
  | invalidLength  -- ErrInvalidLength
  | invalidType    -- InvalidTypeError / ErrInvalidType
  | invalidVersion
  | invalidMsgType
  | malformed
  | notFound
  | hex            -- encoding/hex errors
  | other
  deriving DecidableEq, Repr, Inhabited

/-- Outcome of a Go call. -/
inductive Res (α : Type) where
  | ok (a : α)
  | err (e : Err)
  | panic
  | diverge
  deriving DecidableEq, Repr, Inhabited

namespace Res
variable {α β γ : Type}

@[inline] def bind (x : Res α) (f : α → Res β) : Res β :=
  match x with
  | ok a => f a
  | err e => err e
  | panic => .panic
  | diverge => diverge

instance : Monad Res where
  pure := ok
  bind := bind

/-- The call returns normally (value or error): it neither panics nor runs forever. -/
def Returns (x : Res α) : Prop := x ≠ panic ∧ x ≠ diverge

instance (x : Res α) : Decidable (Returns x) :=
  match x with
  | ok _ => isTrue (by constructor <;> simp)
  | err _ => isTrue (by constructor <;> simp)
  | panic => isFalse (by simp [Returns])
  | diverge => isFalse (by simp [Returns])

@[simp] theorem pure_eq (a : α) : (pure a : Res α) = ok a := rfl
@[simp] theorem bind_ok (a : α) (f : α → Res β) : (ok a >>= f) = f a := rfl
@[simp] theorem bind_err (e : Err) (f : α → Res β) : ((err e : Res α) >>= f) = err e := rfl
@[simp] theorem bind_panic (f : α → Res β) : ((panic : Res α) >>= f) = panic := rfl
@[simp] theorem bind_diverge (f : α → Res β) : ((diverge : Res α) >>= f) = diverge := rfl

@[simp] theorem returns_ok (a : α) : Returns (ok a) := ⟨by simp, by simp⟩
@[simp] theorem returns_err (e : Err) : Returns (err e : Res α) := ⟨by simp, by simp⟩
@[simp] theorem not_returns_panic : ¬ Returns (panic : Res α) := by simp [Returns]
@[simp] theorem not_returns_diverge : ¬ Returns (diverge : Res α) := by simp [Returns]

theorem returns_bind {x : Res α} {f : α → Res β} (hx : Returns x)
    (hf : ∀ a, x = ok a → Returns (f a)) : Returns (x >>= f) := by
  cases x with
  | ok a => exact hf a rfl
  | err e => simp
  | panic => simp at hx
  | diverge => simp at hx

theorem bind_eq_ok {x : Res α} {f : α → Res β} {b : β} :
    (x >>= f) = ok b ↔ ∃ a, x = ok a ∧ f a = ok b := by
  cases x <;> simp

theorem bind_assoc' (x : Res α) (f : α → Res β) (h : β → Res γ) :
    ((x >>= f) >>= h) = (x >>= fun a => f a >>= h) := by
  cases x <;> rfl

theorem returns_iff (x : Res α) : Returns x ↔ (∃ a, x = ok a) ∨ (∃ e, x = err e) := by
  cases x <;> simp

end Res

open Res

/-- `b[lo:hi]` -/
def slice (b : Bytes) (lo hi : Nat) : Res Bytes :=
  if lo ≤ hi ∧ hi ≤ b.length then ok ((b.drop lo).take (hi - lo)) else .panic

/-- `b[lo:]` -/
def sliceFrom (b : Bytes) (lo : Nat) : Res Bytes :=
  if lo ≤ b.length then ok (b.drop lo) else .panic

/-- `b[i]` -/
def idx (b : Bytes) (i : Nat) : Res UInt8 :=
  match b[i]? with
  | some x => ok x
  | none => .panic

/-- `b[i] = x` -/
def setAt (b : Bytes) (i : Nat) (x : UInt8) : Res Bytes :=
  if i < b.length then ok (b.set i x) else .panic

/-- effect on `b` of `copy(b[lo:hi], src)` -/
def copyAt (b : Bytes) (lo hi : Nat) (src : Bytes) : Res Bytes :=
  if lo ≤ hi ∧ hi ≤ b.length then
    ok (b.take lo ++ src.take (hi - lo) ++ b.drop (lo + min (hi - lo) src.length))
  else .panic

/-- effect on `b` of `copy(b[lo:], src)` -/
def copyFrom (b : Bytes) (lo : Nat) (src : Bytes) : Res Bytes := copyAt b lo b.length src

/-- run a buffer transformer on the sub-slice `b[lo:hi]` (the sub-slice shares memory with `b`) -/
def onSub (b : Bytes) (lo hi : Nat) (f : Bytes → Res Bytes) : Res Bytes := do
  let s ← slice b lo hi
  let s' ← f s
  ok (b.take lo ++ s' ++ b.drop hi)

/-- `binary.BigEndian.PutUint16` as bytes -/
def be16 (n : UInt16) : Bytes := [UInt8.ofNat (n.toNat / 256), UInt8.ofNat n.toNat]
/-- low three octets, big-endian -/
def be24 (n : UInt32) : Bytes :=
  [UInt8.ofNat (n.toNat / 65536), UInt8.ofNat (n.toNat / 256), UInt8.ofNat n.toNat]
/-- `binary.BigEndian.PutUint32` as bytes -/
def be32 (n : UInt32) : Bytes :=
  [UInt8.ofNat (n.toNat / 16777216), UInt8.ofNat (n.toNat / 65536), UInt8.ofNat (n.toNat / 256), UInt8.ofNat n.toNat]
/-- low five octets, big-endian -/
def be40 (n : UInt64) : Bytes :=
  [UInt8.ofNat (n.toNat / 4294967296), UInt8.ofNat (n.toNat / 16777216), UInt8.ofNat (n.toNat / 65536),
   UInt8.ofNat (n.toNat / 256), UInt8.ofNat n.toNat]
/-- `binary.BigEndian.PutUint64` as bytes -/
def be64 (n : UInt64) : Bytes :=
  [UInt8.ofNat (n.toNat / 72057594037927936), UInt8.ofNat (n.toNat / 281474976710656),
   UInt8.ofNat (n.toNat / 1099511627776), UInt8.ofNat (n.toNat / 4294967296),
   UInt8.ofNat (n.toNat / 16777216), UInt8.ofNat (n.toNat / 65536), UInt8.ofNat (n.toNat / 256), UInt8.ofNat n.toNat]

/-- value of a big-endian byte string -/
def beNat (b : Bytes) : Nat := b.foldl (fun acc x => acc * 256 + x.toNat) 0

/-- `binary.BigEndian.Uint16` -/
def rd16 (b : Bytes) : Res UInt16 :=
  match b with
  | b0 :: b1 :: _ => ok (UInt16.ofNat (b0.toNat * 256 + b1.toNat))
  | _ => .panic
/-- `binary.BigEndian.Uint32` -/
def rd32 (b : Bytes) : Res UInt32 :=
  match b with
  | b0 :: b1 :: b2 :: b3 :: _ =>
    ok (UInt32.ofNat (b0.toNat * 16777216 + b1.toNat * 65536 + b2.toNat * 256 + b3.toNat))
  | _ => .panic
/-- `binary.BigEndian.Uint64` -/
def rd64 (b : Bytes) : Res UInt64 :=
  match b with
  | b0 :: b1 :: b2 :: b3 :: b4 :: b5 :: b6 :: b7 :: _ =>
    ok (UInt64.ofNat (b0.toNat * 72057594037927936 + b1.toNat * 281474976710656 + b2.toNat * 1099511627776
      + b3.toNat * 4294967296 + b4.toNat * 16777216 + b5.toNat * 65536 + b6.toNat * 256 + b7.toNat))
  | _ => .panic

/-! ### basic facts -/

@[simp] theorem length_be16 (n) : (be16 n).length = 2 := rfl
@[simp] theorem length_be24 (n) : (be24 n).length = 3 := rfl
@[simp] theorem length_be32 (n) : (be32 n).length = 4 := rfl
@[simp] theorem length_be40 (n) : (be40 n).length = 5 := rfl
@[simp] theorem length_be64 (n) : (be64 n).length = 8 := rfl

@[simp] theorem rd16_be16 (n : UInt16) (r : Bytes) : rd16 (be16 n ++ r) = ok n := by
  simp only [be16, rd16, List.cons_append, ok.injEq]
  apply UInt16.toNat_inj.mp
  have := n.toNat_lt
  simp only [UInt8.toNat_ofNat', UInt16.toNat_ofNat']
  omega

@[simp] theorem rd32_be32 (n : UInt32) (r : Bytes) : rd32 (be32 n ++ r) = ok n := by
  simp only [be32, rd32, List.cons_append, ok.injEq]
  apply UInt32.toNat_inj.mp
  have := n.toNat_lt
  simp only [UInt8.toNat_ofNat', UInt32.toNat_ofNat']
  omega

@[simp] theorem rd64_be64 (n : UInt64) (r : Bytes) : rd64 (be64 n ++ r) = ok n := by
  simp only [be64, rd64, List.cons_append, ok.injEq]
  apply UInt64.toNat_inj.mp
  have := n.toNat_lt
  simp only [UInt8.toNat_ofNat', UInt64.toNat_ofNat']
  omega

@[simp] theorem rd16_be16' (n : UInt16) : rd16 (be16 n) = ok n := by
  have := rd16_be16 n []; simpa using this
@[simp] theorem rd32_be32' (n : UInt32) : rd32 (be32 n) = ok n := by
  have := rd32_be32 n []; simpa using this
@[simp] theorem rd64_be64' (n : UInt64) : rd64 (be64 n) = ok n := by
  have := rd64_be64 n []; simpa using this

theorem be16_rd16 (x y : UInt8) : be16 (UInt16.ofNat (x.toNat * 256 + y.toNat)) = [x, y] := by
  have hx := x.toNat_lt; have hy := y.toNat_lt
  simp only [be16, UInt16.toNat_ofNat', List.cons.injEq, and_true]
  constructor <;> apply UInt8.toNat_inj.mp <;> simp only [UInt8.toNat_ofNat'] <;> omega

theorem be32_rd32 (x y z w : UInt8) :
    be32 (UInt32.ofNat (x.toNat * 16777216 + y.toNat * 65536 + z.toNat * 256 + w.toNat)) = [x, y, z, w] := by
  have hx := x.toNat_lt; have hy := y.toNat_lt; have hz := z.toNat_lt; have hw := w.toNat_lt
  simp only [be32, UInt32.toNat_ofNat', List.cons.injEq, and_true]
  refine ⟨?_, ?_, ?_, ?_⟩ <;> apply UInt8.toNat_inj.mp <;> simp only [UInt8.toNat_ofNat'] <;> omega

theorem toNat_ofNat16 {n : Nat} (h : n < 65536) : (UInt16.ofNat n).toNat = n := by
  simp only [UInt16.toNat_ofNat']; omega

theorem slice_append (a b c : Bytes) : slice (a ++ b ++ c) a.length (a.length + b.length) = ok b := by
  simp [slice]

theorem slice_ok_iff {b r : Bytes} {lo hi : Nat} :
    slice b lo hi = ok r ↔ lo ≤ hi ∧ hi ≤ b.length ∧ r = (b.drop lo).take (hi - lo) := by
  unfold slice; split <;> rename_i h
  · simp only [ok.injEq]; constructor
    · rintro rfl; exact ⟨h.1, h.2, rfl⟩
    · rintro ⟨_, _, rfl⟩; rfl
  · simp only [reduceCtorEq, false_iff]; intro ⟨a, b, _⟩; exact h ⟨a, b⟩

theorem slice_of_le {b : Bytes} {lo hi : Nat} (h1 : lo ≤ hi) (h2 : hi ≤ b.length) :
    slice b lo hi = ok ((b.drop lo).take (hi - lo)) := by simp [slice, h1, h2]

theorem sliceFrom_of_le {b : Bytes} {lo : Nat} (h1 : lo ≤ b.length) :
    sliceFrom b lo = ok (b.drop lo) := by simp [sliceFrom, h1]

theorem idx_of_lt {b : Bytes} {i : Nat} (h : i < b.length) : idx b i = ok b[i] := by
  simp [idx, h]

@[simp] theorem idx_zero (x : UInt8) (r : Bytes) : idx (x :: r) 0 = ok x := rfl
@[simp] theorem idx_succ (x : UInt8) (r : Bytes) (i : Nat) : idx (x :: r) (i + 1) = idx r i := by
  simp [idx]

theorem returns_idx {b : Bytes} {i : Nat} (h : i < b.length) : Returns (idx b i) := by
  rw [idx_of_lt h]; simp

/-- checking a statement about all bytes by checking the 256 values -/
theorem forall_byte {p : UInt8 → Prop} (h : ∀ i : Fin 256, p (UInt8.ofNat i.val)) : ∀ x, p x := by
  intro x
  have := h ⟨x.toNat, x.toNat_lt⟩
  simpa using this

end Verif
