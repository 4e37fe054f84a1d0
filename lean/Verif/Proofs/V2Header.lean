import Verif.Model.V2Header
import Verif.Props.Utils
/-
Specification encoder of the GTPv2 header (29.274 figure 5.1-1/5.1-2) and helper lemmas.
-/
namespace Verif
open Res

/-! ### writing into buffers -/

theorem copyAt_ok {b src : Bytes} {lo hi : Nat} (h1 : lo + src.length = hi) (h2 : hi ≤ b.length) :
    copyAt b lo hi src = ok (b.take lo ++ src ++ b.drop hi) := by
  have e : hi - lo = src.length := by omega
  rw [copyAt, if_pos ⟨by omega, h2⟩, e, List.take_length, Nat.min_self, h1]

/-- `copy` into the part of a buffer that follows an already written prefix -/
theorem copyAt_append {pre b src : Bytes} {lo hi : Nat} (h0 : lo = pre.length) (h1 : hi = lo + src.length)
    (h2 : src.length ≤ b.length) :
    copyAt (pre ++ b) lo hi src = ok (pre ++ src ++ b.drop src.length) := by
  subst h0 h1
  rw [copyAt_ok rfl (by simp; omega)]
  simp [List.drop_append]

theorem setAt_append {pre b : Bytes} {i : Nat} {x : UInt8} (h0 : i = pre.length) (h2 : 0 < b.length) :
    setAt (pre ++ b) i x = ok (pre ++ [x] ++ b.drop 1) := by
  subst h0
  cases b with
  | nil => simp at h2
  | cons y b => simp [setAt]

namespace V2
namespace Spec
/-- the octets of a header: flags, type, length, TEID iff the T bit (bit 4) of the first octet is set,
24-bit sequence number, spare, payload -/
def encH (h : Header) : Bytes :=
  [h.flags, h.typ] ++ be16 h.length ++ (if h.flags.toNat / 8 % 2 = 1 then be32 h.teid else []) ++ be24 h.seq ++
    [h.spare] ++ h.payload
end Spec
open Spec

theorem hasTEID_iff (h : Header) : h.hasTEID = decide (h.flags.toNat / 8 % 2 = 1) := by
  unfold Header.hasTEID
  generalize h.flags = f
  revert f
  apply forall_byte (p := fun f => (((f >>> 3) &&& (1 : UInt8)) == 1) = decide (f.toNat / 8 % 2 = 1))
  decide +kernel

theorem length_encH (h : Header) : (encH h).length = h.marshalLen := by
  simp only [encH, Header.marshalLen, hasTEID_iff]
  by_cases c : h.flags.toNat / 8 % 2 = 1 <;> simp [c] <;> omega

theorem Header.marshalTo_eq (h : Header) (b : Bytes) (hb : h.marshalLen ≤ b.length) :
    h.marshalTo b = ok (encH h ++ b.drop h.marshalLen) := by
  have hm := hb
  unfold Header.marshalLen at hm
  by_cases c : h.hasTEID = true
  · have c' := c; rw [hasTEID_iff, decide_eq_true_iff] at c'
    rw [if_pos c] at hm
    have e : h.marshalLen = 12 + h.payload.length := by simp [Header.marshalLen, c]; omega
    unfold Header.marshalTo
    have s1 := setAt_append (pre := []) (b := b) (x := h.flags) (i := 0) rfl (by omega)
    rw [List.nil_append] at s1
    rw [s1, bind_ok, setAt_append (by simp) (by simp; omega), bind_ok,
      copyAt_append (by simp) (by simp) (by simp; omega), bind_ok, if_pos c,
      copyAt_append (by simp) (by simp) (by simp; omega), bind_ok, bind_ok, Utils.uint32To24_eq]
    simp only []
    rw [copyAt_append (by simp) (by simp) (by simp; omega), bind_ok,
      setAt_append (by simp) (by simp; omega), bind_ok,
      copyAt_append (by simp) (by simp [e]) (by simp; omega)]
    simp [encH, c', e]
  · have c' := c; rw [hasTEID_iff, decide_eq_true_iff] at c'
    rw [if_neg c] at hm
    have e : h.marshalLen = 8 + h.payload.length := by simp [Header.marshalLen, c]
    unfold Header.marshalTo
    have s1 := setAt_append (pre := []) (b := b) (x := h.flags) (i := 0) rfl (by omega)
    rw [List.nil_append] at s1
    rw [s1, bind_ok, setAt_append (by simp) (by simp; omega), bind_ok,
      copyAt_append (by simp) (by simp) (by simp; omega), bind_ok, if_neg c, bind_ok, Utils.uint32To24_eq]
    simp only []
    rw [copyAt_append (by simp) (by simp) (by simp; omega), bind_ok,
      setAt_append (by simp) (by simp; omega), bind_ok,
      copyAt_append (by simp) (by simp [e]) (by simp; omega)]
    simp [encH, c', e]

/-- closed form of the parser -/
def Header.parseSpec (b : Bytes) : Res Header :=
  match b with
  | f :: t :: l0 :: l1 :: a0 :: a1 :: a2 :: a3 :: s0 :: s1 :: s2 :: sp :: r =>
    let n := l0.toNat * 256 + l1.toNat
    let len := UInt16.ofNat n
    if n < 4 then err .tooShortParse else
    if f.toNat / 8 % 2 = 1 then
      if n < 8 then err .tooShortParse else
      let h p : Header := ⟨f, t, len, UInt32.ofNat (a0.toNat * 16777216 + a1.toNat * 65536 + a2.toNat * 256 + a3.toNat),
        UInt32.ofNat (s0.toNat * 65536 + s1.toNat * 256 + s2.toNat), sp, p⟩
      if n + 4 > 12 + r.length then ok (h r)
      else if n + 4 < 65536 then ok (h (r.take (n - 8))) else err .invalidLength
    else
      let h p : Header := ⟨f, t, len, 0, UInt32.ofNat (a0.toNat * 65536 + a1.toNat * 256 + a2.toNat), a3, p⟩
      if n + 4 > 12 + r.length then ok (h (s0 :: s1 :: s2 :: sp :: r))
      else if n + 4 < 65536 then ok (h ((s0 :: s1 :: s2 :: sp :: r).take (n - 4))) else err .invalidLength
  | _ => err .tooShortParse

theorem Header.parse_eq (b : Bytes) : Header.parse b = Header.parseSpec b := by
  match b with
  | [] | [_] | [_, _] | [_, _, _] | [_, _, _, _] | [_, _, _, _, _] | [_, _, _, _, _, _] | [_, _, _, _, _, _, _]
  | [_, _, _, _, _, _, _, _] | [_, _, _, _, _, _, _, _, _] | [_, _, _, _, _, _, _, _, _, _]
  | [_, _, _, _, _, _, _, _, _, _, _] => simp [Header.parse, Header.parseSpec]
  | f :: t :: l0 :: l1 :: a0 :: a1 :: a2 :: a3 :: s0 :: s1 :: s2 :: sp :: r =>
    have hl0 := l0.toNat_lt; have hl1 := l1.toNat_lt
    have hN : (UInt16.ofNat (l0.toNat * 256 + l1.toNat)).toNat = l0.toNat * 256 + l1.toNat :=
      toNat_ofNat16 (by omega)
    have hW : (4 + UInt16.ofNat (l0.toNat * 256 + l1.toNat)).toNat = (4 + (l0.toNat * 256 + l1.toNat)) % 65536 := by
      rw [UInt16.toNat_add, hN]; rfl
    have sl : ∀ lo hi (h : lo ≤ hi ∧ hi ≤ 12), slice (f :: t :: l0 :: l1 :: a0 :: a1 :: a2 :: a3 :: s0 :: s1 :: s2 :: sp :: r) lo hi
        = ok ((([f, t, l0, l1, a0, a1, a2, a3, s0, s1, s2, sp] ++ r).drop lo).take (hi - lo)) := by
      intro lo hi h
      rw [slice_of_le h.1 (by simp; omega)]; rfl
    unfold Header.parse Header.parseSpec
    rw [if_neg (by simp)]
    rw [sl 2 4 (by omega), sl 4 8 (by omega), sl 8 11 (by omega), sl 4 7 (by omega)]
    simp only [idx_zero, idx_succ, bind_ok, List.cons_append, List.nil_append, List.drop_succ_cons, List.drop_zero,
      List.take_succ_cons, List.take_zero, rd16, rd32, hN, Nat.reduceSub, hasTEID_iff, decide_eq_true_eq,
      Utils.uint24To32_eq]
    by_cases c4 : l0.toNat * 256 + l1.toNat < 4
    · rw [if_pos c4, if_pos c4]
    rw [if_neg c4, if_neg c4]
    by_cases cT : f.toNat / 8 % 2 = 1
    · rw [if_pos cT, if_pos cT]
      by_cases c8 : l0.toNat * 256 + l1.toNat < 8
      · rw [if_pos c8, if_pos c8]
      rw [if_neg c8, if_neg c8]
      have hlen : (f :: t :: l0 :: l1 :: a0 :: a1 :: a2 :: a3 :: s0 :: s1 :: s2 :: sp :: r).length = 12 + r.length := by
        simp; omega
      rw [hlen]
      by_cases cl : l0.toNat * 256 + l1.toNat + 4 > 12 + r.length
      · rw [if_pos cl, if_pos cl]; simp [sliceFrom]
      · rw [if_neg cl, if_neg cl, hW]
        by_cases cw : l0.toNat * 256 + l1.toNat + 4 < 65536
        · rw [if_pos cw, Nat.mod_eq_of_lt (by omega), if_pos (by omega), slice_of_le (by omega) (by rw [hlen]; omega)]
          simp only [bind_ok, List.drop_succ_cons, List.drop_zero]
          rw [show 4 + (l0.toNat * 256 + l1.toNat) - 12 = l0.toNat * 256 + l1.toNat - 8 by omega]
        · rw [if_neg cw, if_neg (by omega)]
    · rw [if_neg cT, if_neg cT]
      have hlen : (f :: t :: l0 :: l1 :: a0 :: a1 :: a2 :: a3 :: s0 :: s1 :: s2 :: sp :: r).length = 12 + r.length := by
        simp; omega
      rw [hlen]
      by_cases cl : l0.toNat * 256 + l1.toNat + 4 > 12 + r.length
      · rw [if_pos cl, if_pos cl]; simp [sliceFrom]
      · rw [if_neg cl, if_neg cl, hW]
        by_cases cw : l0.toNat * 256 + l1.toNat + 4 < 65536
        · rw [if_pos cw, Nat.mod_eq_of_lt (by omega), if_pos (by omega), slice_of_le (by omega) (by rw [hlen]; omega)]
          simp only [bind_ok, List.drop_succ_cons, List.drop_zero]
          rw [show 4 + (l0.toNat * 256 + l1.toNat) - 8 = l0.toNat * 256 + l1.toNat - 4 by omega]
        · rw [if_neg cw, if_neg (by omega)]

theorem be16_cases (n : UInt16) : ∃ x y : UInt8, be16 n = [x, y] ∧ x.toNat * 256 + y.toNat = n.toNat :=
  ⟨_, _, rfl, by have := n.toNat_lt; simp only [UInt8.toNat_ofNat']; omega⟩

theorem be24_cases (n : UInt32) : ∃ x y z : UInt8, be24 n = [x, y, z] ∧
    x.toNat * 65536 + y.toNat * 256 + z.toNat = n.toNat % 16777216 :=
  ⟨_, _, _, rfl, by have := n.toNat_lt; simp only [UInt8.toNat_ofNat']; omega⟩

theorem be32_cases (n : UInt32) : ∃ x y z w : UInt8, be32 n = [x, y, z, w] ∧
    x.toNat * 16777216 + y.toNat * 65536 + z.toNat * 256 + w.toNat = n.toNat :=
  ⟨_, _, _, _, rfl, by have := n.toNat_lt; simp only [UInt8.toNat_ofNat']; omega⟩

/-- what a header must satisfy to survive the wire -/
structure Header.Wf (h : Header) : Prop where
  seq : h.seq.toNat < 2 ^ 24
  teid : h.flags.toNat / 8 % 2 = 0 → h.teid = 0
  len : h.length.toNat + 4 = h.marshalLen
  fits : h.marshalLen < 65536

theorem Header.parse_encH (h : Header) (rest : Bytes) (hw : h.Wf) (h12 : 12 ≤ h.marshalLen + rest.length) :
    Header.parse (encH h ++ rest) = ok h := by
  obtain ⟨hs, ht, hl, hf⟩ := hw
  simp only [Nat.reducePow] at hs
  rw [Header.parse_eq]
  obtain ⟨x, y, e16, v16⟩ := be16_cases h.length
  obtain ⟨s0, s1, s2, e24, v24⟩ := be24_cases h.seq
  obtain ⟨a0, a1, a2, a3, e32, v32⟩ := be32_cases h.teid
  rw [Nat.mod_eq_of_lt hs] at v24
  have hlen : UInt16.ofNat h.length.toNat = h.length := by simp
  have hseq : UInt32.ofNat h.seq.toNat = h.seq := by simp
  have hteid : UInt32.ofNat h.teid.toNat = h.teid := by simp
  simp only [encH, e16, e24, e32]
  by_cases c : h.flags.toNat / 8 % 2 = 1
  · have e : h.marshalLen = 12 + h.payload.length := by
      simp only [Header.marshalLen, hasTEID_iff, c]; simp; omega
    rw [if_pos c]
    simp only [List.cons_append, List.nil_append, Header.parseSpec, v16, v24, v32, hlen, hseq, hteid]
    rw [if_neg (by omega), if_pos c, if_neg (by omega)]
    rw [if_neg (by simp; omega), if_pos (by omega)]
    have : (h.payload ++ rest).take (h.length.toNat - 8) = h.payload := by
      rw [show h.length.toNat - 8 = h.payload.length by omega]; simp
    rw [this]
  · have e : h.marshalLen = 8 + h.payload.length := by
      simp only [Header.marshalLen, hasTEID_iff, c]; simp
    have ht0 := ht (by omega)
    rw [if_neg c]
    simp only [List.cons_append, List.nil_append]
    have hex : ∃ p0 p1 p2 p3 r, h.payload ++ rest = p0 :: p1 :: p2 :: p3 :: r := by
      have : 4 ≤ (h.payload ++ rest).length := by simp; omega
      match h.payload ++ rest, this with
      | p0 :: p1 :: p2 :: p3 :: r, _ => exact ⟨_, _, _, _, _, rfl⟩
    obtain ⟨p0, p1, p2, p3, r, er⟩ := hex
    have hrl : h.payload.length + rest.length = r.length + 4 := by
      have := congrArg List.length er; simpa using this
    rw [er]
    simp only [Header.parseSpec, v16, v24, hlen, hseq]
    rw [if_neg (by omega), if_neg c, if_neg (by omega), if_pos (by omega), ← er]
    have : (h.payload ++ rest).take (h.length.toNat - 4) = h.payload := by
      rw [show h.length.toNat - 4 = h.payload.length by omega]; simp
    rw [this, ← ht0]

theorem Header.parse_total (b : Bytes) : Returns (Header.parse b) := by
  rw [Header.parse_eq]; unfold Header.parseSpec; dsimp only
  split <;> repeat' split
  all_goals simp

end V2
end Verif
