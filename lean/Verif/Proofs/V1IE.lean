import Verif.Spec.V1IE
import Verif.Proofs.V2Header
import Verif.Proofs.Msg
/-
Helper lemmas on GTPv1 / GTPv0 information elements.
-/
namespace Verif.TLV
open Res

/-- the code's table and the specification agree -/
structure Agree (c : Cfg) (p : Spec.Proto) : Prop where
  tv : ∀ t, c.tvLen t = p.fixed t
  short : ∀ t, c.isEhtl t = p.short t
  below : ∀ t, p.fixed t ≠ none → t.toNat < 128
  above : ∀ t, p.short t = true → 128 ≤ t.toNat

theorem agree_v1 : Agree v1 Spec.v1 where
  tv := forall_byte (p := fun t => v1.tvLen t = Spec.v1.fixed t) (by decide +kernel)
  short := forall_byte (p := fun t => v1.isEhtl t = Spec.v1.short t) (by decide +kernel)
  below := forall_byte (p := fun t => Spec.v1.fixed t ≠ none → t.toNat < 128) (by decide +kernel)
  above := forall_byte (p := fun t => Spec.v1.short t = true → 128 ≤ t.toNat) (by decide +kernel)

theorem agree_v0 : Agree v0 Spec.v0 where
  tv := forall_byte (p := fun t => v0.tvLen t = Spec.v0.fixed t) (by decide +kernel)
  short := forall_byte (p := fun t => v0.isEhtl t = Spec.v0.short t) (by decide +kernel)
  below := forall_byte (p := fun t => Spec.v0.fixed t ≠ none → t.toNat < 128) (by decide +kernel)
  above := forall_byte (p := fun t => Spec.v0.short t = true → 128 ≤ t.toNat) (by decide +kernel)

variable {c : Cfg} {p : Spec.Proto}

/-- octets written for an IE whose Length member is arbitrary -/
def rawEnc (p : Spec.Proto) (x : IE) : Bytes :=
  if x.typ.toNat < 128 then x.typ :: x.payload
  else if p.short x.typ then x.typ :: UInt8.ofNat x.length.toNat :: x.payload
  else x.typ :: (be16 x.length ++ x.payload)

/-- fixed-size IEs hold a value of the right size -/
def sized (p : Spec.Proto) (x : IE) : Prop := ∀ n, p.fixed x.typ = some n → x.payload.length = n

theorem sized_of_wf (A : Agree c p) (x : IE) (h : Spec.wf p x = true) : sized p x := by
  intro n hn
  have hb : x.typ.toNat < 128 := A.below _ (by rw [hn]; simp)
  simp only [Spec.wf, hb, if_true, Bool.and_eq_true, decide_eq_true_eq, hn, Option.getD_some] at h
  exact h.1

theorem marshalLen_eq (A : Agree c p) (x : IE) (hs : sized p x) : x.marshalLen c =
    (if x.typ.toNat < 128 then 1 else if p.short x.typ then 2 else 3) + x.payload.length := by
  unfold IE.marshalLen
  rw [A.tv]
  cases hf : p.fixed x.typ with
  | some n =>
    have hb : x.typ.toNat < 128 := A.below _ (by rw [hf]; simp)
    simp only [hb, if_true, hs n hf]; omega
  | none =>
    simp only [A.short]
    by_cases h1 : x.typ.toNat < 128
    · simp [h1]
    · by_cases h2 : p.short x.typ = true <;> simp [h1, h2]

theorem length_rawEnc (A : Agree c p) (x : IE) (hs : sized p x) : (rawEnc p x).length = x.marshalLen c := by
  rw [marshalLen_eq A x hs]
  unfold rawEnc
  by_cases h1 : x.typ.toNat < 128
  · simp [h1]; omega
  · by_cases h2 : p.short x.typ = true <;> simp [h1, h2] <;> omega

theorem rawEnc_wf (x : IE) (h : Spec.wf p x = true) : rawEnc p x = Spec.enc p x := by
  unfold rawEnc Spec.enc
  by_cases h1 : x.typ.toNat < 128
  · simp [h1]
  · simp only [Spec.wf, h1, if_false, Bool.and_eq_true, decide_eq_true_eq] at h
    by_cases h2 : p.short x.typ = true
    · simp [h1, h2, h.2]
    · simp [h1, h2, be16, h.2]

theorem marshalTo_eq (A : Agree c p) (x : IE) (b : Bytes) (hs : sized p x) (hb : x.marshalLen c ≤ b.length) :
    x.marshalTo c b = ok (rawEnc p x ++ b.drop (x.marshalLen c)) := by
  have hl := marshalLen_eq A x hs
  unfold IE.marshalTo
  rw [if_neg (by omega)]
  have h0 : 0 < b.length := by
    rw [hl] at hb; revert hb; split <;> (try split) <;> omega
  obtain ⟨b0, r, rfl⟩ : ∃ b0 r, b = b0 :: r := by cases b with | nil => simp at h0 | cons a r => exact ⟨a, r, rfl⟩
  rw [show setAt (b0 :: r) 0 x.typ = ok (x.typ :: r) by simp [setAt], bind_ok]
  rw [A.short]
  simp only [List.length_cons] at hb
  generalize hm : x.marshalLen c = m at *
  by_cases h1 : x.typ.toNat < 128
  · have h2 : p.short x.typ = false := by
      cases h : p.short x.typ with
      | false => rfl
      | true => have := A.above _ h; omega
    simp only [h1, if_true] at hl
    simp only [h2, Bool.false_eq_true, if_false, isTV, h1, decide_true, Bool.not_true, rawEnc, if_true]
    subst hl
    simp only [copyAt, List.length_cons]
    rw [if_pos (by omega)]
    rw [show 1 + x.payload.length - 1 = x.payload.length by omega, List.take_length, Nat.min_self,
      show 1 + x.payload.length = x.payload.length + 1 by omega]
    simp
  · simp only [h1, if_false] at hl
    by_cases h2 : p.short x.typ = true
    · simp only [h2, if_true] at hl
      simp only [h2, if_true, rawEnc, h1, if_false]
      subst hl
      cases r with
      | nil => simp at hb; omega
      | cons b1 r =>
        rw [show setAt (x.typ :: b1 :: r) 1 (UInt8.ofNat x.length.toNat)
          = ok (x.typ :: UInt8.ofNat x.length.toNat :: r) by simp [setAt], bind_ok]
        simp only [List.length_cons] at hb
        simp only [copyAt, List.length_cons]
        rw [if_pos (by omega)]
        rw [show 2 + x.payload.length - 2 = x.payload.length by omega, List.take_length, Nat.min_self,
          show 2 + x.payload.length = x.payload.length + 1 + 1 by omega]
        simp
    · simp only [h2, Bool.false_eq_true, if_false] at hl
      have h3 : isTV x.typ = false := by simp [isTV]; omega
      simp only [h2, Bool.false_eq_true, if_false, h3, Bool.not_false, if_true, rawEnc, h1]
      subst hl
      match r, hb with
      | [], hb => simp at hb; omega
      | [_], hb => simp at hb; omega
      | b1 :: b2 :: r, hb =>
        have e : copyAt (x.typ :: b1 :: b2 :: r) 1 3 (be16 x.length) = ok (x.typ :: (be16 x.length ++ r)) := by
          simp [copyAt, be16]
        rw [e, bind_ok]
        simp only [List.length_cons] at hb
        simp only [copyAt, List.length_cons, List.length_append, length_be16]
        rw [if_pos (by omega)]
        rw [show 3 + x.payload.length - 3 = x.payload.length by omega, List.take_length, Nat.min_self,
          show 3 + x.payload.length = x.payload.length + 1 + 1 + 1 by omega]
        simp [be16]

theorem length_enc (A : Agree c p) (x : IE) (h : Spec.wf p x = true) : (Spec.enc p x).length = x.marshalLen c := by
  rw [← rawEnc_wf x h, length_rawEnc A x (sized_of_wf A x h)]

theorem two_le_enc (x : IE) (h : Spec.hasValue x = true) : 2 ≤ (Spec.enc p x).length := by
  unfold Spec.enc
  simp only [Spec.hasValue, Bool.or_eq_true, decide_eq_true_eq, Bool.not_eq_true'] at h
  by_cases h1 : x.typ.toNat < 128
  · have : x.payload ≠ [] := by
      rcases h with h | h
      · omega
      · intro e; simp [e] at h
    have := List.length_pos_iff.mpr this
    simp [h1]; omega
  · by_cases h2 : p.short x.typ = true <;> simp [h1, h2]

theorem one_le_enc (x : IE) : 1 ≤ (Spec.enc p x).length := by
  unfold Spec.enc; split
  · simp
  · split <;> simp

/-- parsing succeeds exactly on the octets of a representable IE followed by anything, in at least two octets -/
theorem parse_ok_iff (A : Agree c p) (b : Bytes) (x : IE) :
    parse c b = ok x ↔ Spec.wf p x = true ∧ 2 ≤ b.length ∧ ∃ r, b = Spec.enc p x ++ r := by
  unfold parse
  match b with
  | [] => simp
  | [_] => simp
  | t :: b1 :: r =>
    simp only [List.length_cons, show ¬ (r.length + 1 + 1 < 2) by omega, if_false, idx_zero, bind_ok, A.short]
    have hns : t.toNat < 128 → p.short t = false := by
      intro h1
      cases h : p.short t with
      | false => rfl
      | true => have := A.above _ h; omega
    by_cases h1 : t.toNat < 128
    · simp only [hns h1, Bool.false_eq_true, if_false, isTV, h1, decide_true, if_true, decodeTV, List.length_cons,
        show ¬ (r.length + 1 + 1 < 2) by omega]
      have hm : (IE.mk t 0 []).marshalLen c = (p.fixed t).getD 0 + 1 := by
        unfold IE.marshalLen
        rw [show (IE.mk t 0 []).typ = t from rfl, A.tv]
        cases p.fixed t <;> simp [h1]
      rw [hm]
      by_cases h2 : (p.fixed t).getD 0 + 1 > r.length + 1 + 1
      · simp only [h2, if_true]
        constructor
        · intro h; simp at h
        · rintro ⟨hw, _, s, hs⟩
          exfalso
          have ht : x.typ = t := by
            have := congrArg List.head? hs
            unfold Spec.enc at this
            split at this <;> (try split at this) <;> simp at this <;> exact this.symm
          simp only [Spec.wf, ht, h1, if_true, Bool.and_eq_true, decide_eq_true_eq] at hw
          have := congrArg List.length hs
          simp only [Spec.enc, ht, h1, if_true, List.length_append, List.length_cons] at this
          omega
      · simp only [h2, if_false]
        rw [slice_of_le (by omega) (by simp only [List.length_cons]; omega), bind_ok]
        simp only [List.drop_succ_cons, List.drop_zero, Nat.add_sub_cancel, ok.injEq]
        constructor
        · rintro rfl
          refine ⟨?_, by omega, (b1 :: r).drop ((p.fixed t).getD 0), ?_⟩
          · simp only [Spec.wf, h1, if_true, List.length_take, List.length_cons, Bool.and_eq_true, decide_eq_true_eq,
              beq_self_eq_true, and_true]
            omega
          · simp [Spec.enc, h1]
        · rintro ⟨hw, _, s, hs⟩
          have ht : x.typ = t := by
            have := congrArg List.head? hs
            unfold Spec.enc at this
            split at this <;> (try split at this) <;> simp at this <;> exact this.symm
          simp only [Spec.wf, ht, h1, if_true, Bool.and_eq_true, decide_eq_true_eq, beq_iff_eq] at hw
          simp only [Spec.enc, ht, h1, if_true, List.cons_append, List.cons.injEq, true_and] at hs
          rw [hs, ← hw.1, List.take_left, ← ht, ← hw.2]
    · have htv : isTV t = false := by simp [isTV]; omega
      by_cases h2 : p.short t = true
      · simp only [h2, if_true, decodeEHTL, List.length_cons, show ¬ (r.length + 1 + 1 < 2) by omega, if_false]
        have hf : p.fixed t = none := by
          cases h : p.fixed t with
          | none => rfl
          | some n => exact absurd (A.below t (by rw [h]; simp)) h1
        have hm : (IE.mk t 0 []).marshalLen c = 2 := by
          unfold IE.marshalLen
          rw [show (IE.mk t 0 []).typ = t from rfl, A.tv, hf]
          simp [h1, A.short, h2]
        simp only [hm, show ¬ (2 > r.length + 1 + 1) by omega, if_false, idx_succ, idx_zero, bind_ok]
        have h8 := b1.toNat_lt
        rw [toNat_ofNat16 (by omega)]
        by_cases h3 : 2 + b1.toNat > r.length + 1 + 1
        · simp only [h3, if_true]
          constructor
          · intro h; simp at h
          · rintro ⟨hw, _, s, hs⟩
            exfalso
            have ht : x.typ = t := by
              have := congrArg List.head? hs
              unfold Spec.enc at this
              split at this <;> (try split at this) <;> simp at this <;> exact this.symm
            simp only [Spec.wf, ht, h1, h2, if_false, if_true, Bool.and_eq_true, decide_eq_true_eq] at hw
            simp only [Spec.enc, ht, h1, h2, if_false, if_true, List.cons_append, List.cons.injEq, true_and] at hs
            have := congrArg List.length hs.2
            have h5 : b1.toNat = x.payload.length := by
              rw [hs.1]; simp only [UInt8.toNat_ofNat']; omega
            simp only [List.length_append] at this
            omega
        · simp only [h3, if_false]
          rw [slice_of_le (by omega) (by simp only [List.length_cons]; omega), bind_ok]
          simp only [List.drop_succ_cons, List.drop_zero, show 2 + b1.toNat - 2 = b1.toNat by omega, ok.injEq]
          constructor
          · rintro rfl
            have hlen : (r.take b1.toNat).length = b1.toNat := by simp only [List.length_take]; omega
            refine ⟨?_, by omega, r.drop b1.toNat, ?_⟩
            · simp only [Spec.wf, h1, h2, if_false, if_true, hlen, toNat_ofNat16 (show b1.toNat < 65536 by omega)]
              simp; omega
            · simp only [Spec.enc, h1, h2, if_false, if_true, hlen, UInt8.ofNat_toNat, List.cons_append,
                List.take_append_drop]
          · rintro ⟨hw, _, s, hs⟩
            have ht : x.typ = t := by
              have := congrArg List.head? hs
              unfold Spec.enc at this
              split at this <;> (try split at this) <;> simp at this <;> exact this.symm
            simp only [Spec.wf, ht, h1, h2, if_false, if_true, Bool.and_eq_true, decide_eq_true_eq] at hw
            simp only [Spec.enc, ht, h1, h2, if_false, if_true, List.cons_append, List.cons.injEq, true_and] at hs
            have h5 : b1.toNat = x.payload.length := by
              rw [hs.1]; simp only [UInt8.toNat_ofNat']; omega
            rw [hs.2, h5, List.take_left, ← ht]
            cases x with
            | mk xt xl xp =>
              simp only [IE.mk.injEq, true_and, and_true]
              apply UInt16.toNat_inj.mp
              rw [toNat_ofNat16 (by simp only at hw; omega)]
              exact hw.2.symm
      · simp only [h2, Bool.false_eq_true, if_false, htv, decodeTLV, List.length_cons]
        match r with
        | [] =>
          simp only [List.length_nil, show 0 + 1 + 1 < 3 by omega, if_true]
          constructor
          · intro h; simp at h
          · rintro ⟨hw, _, s, hs⟩
            exfalso
            have ht : x.typ = t := by
              have := congrArg List.head? hs
              unfold Spec.enc at this
              split at this <;> (try split at this) <;> simp at this <;> exact this.symm
            simp [Spec.enc, ht, h1, h2] at hs
        | b2 :: r =>
          simp only [List.length_cons, show ¬ (r.length + 1 + 1 + 1 < 3) by omega, if_false]
          rw [slice_of_le (by omega) (by simp only [List.length_cons]; omega), bind_ok]
          simp only [List.drop_succ_cons, List.drop_zero, show 3 - 1 = 2 from rfl, List.take_succ_cons, List.take_zero,
            rd16, bind_ok]
          have h8 := b1.toNat_lt; have h9 := b2.toNat_lt
          rw [toNat_ofNat16 (by omega)]
          by_cases h3 : b1.toNat * 256 + b2.toNat + 3 > r.length + 1 + 1 + 1
          · simp only [h3, if_true]
            constructor
            · intro h; simp at h
            · rintro ⟨hw, _, s, hs⟩
              exfalso
              have ht : x.typ = t := by
                have := congrArg List.head? hs
                unfold Spec.enc at this
                split at this <;> (try split at this) <;> simp at this <;> exact this.symm
              simp only [Spec.wf, ht, h1, h2, Bool.false_eq_true, if_false, Bool.and_eq_true, decide_eq_true_eq] at hw
              simp only [Spec.enc, ht, h1, h2, Bool.false_eq_true, if_false, List.cons_append, List.cons.injEq, true_and] at hs
              have := congrArg List.length hs.2.2
              have h5 : b1.toNat = x.payload.length / 256 := by
                rw [hs.1]; simp only [UInt8.toNat_ofNat']; omega
              have h6 : b2.toNat = x.payload.length % 256 := by
                rw [hs.2.1]; simp only [UInt8.toNat_ofNat']
              simp only [List.length_append] at this
              omega
          · simp only [h3, if_false]
            rw [slice_of_le (by omega) (by simp only [List.length_cons]; omega), bind_ok]
            simp only [List.drop_succ_cons, List.drop_zero,
              show 3 + (b1.toNat * 256 + b2.toNat) - 3 = b1.toNat * 256 + b2.toNat by omega, ok.injEq]
            constructor
            · rintro rfl
              have hlen : (r.take (b1.toNat * 256 + b2.toNat)).length = b1.toNat * 256 + b2.toNat := by
                simp only [List.length_take]; omega
              refine ⟨?_, by omega, r.drop (b1.toNat * 256 + b2.toNat), ?_⟩
              · simp only [Spec.wf, h1, h2, Bool.false_eq_true, if_false, hlen,
                  toNat_ofNat16 (show b1.toNat * 256 + b2.toNat < 65536 by omega)]
                simp; omega
              · simp only [Spec.enc, h1, h2, Bool.false_eq_true, if_false, hlen, List.cons_append,
                  List.take_append_drop]
                have e := be16_rd16 b1 b2
                simp only [be16, toNat_ofNat16 (show b1.toNat * 256 + b2.toNat < 65536 by omega), List.cons.injEq,
                  and_true] at e
                rw [e.1, e.2]
            · rintro ⟨hw, _, s, hs⟩
              have ht : x.typ = t := by
                have := congrArg List.head? hs
                unfold Spec.enc at this
                split at this <;> (try split at this) <;> simp at this <;> exact this.symm
              simp only [Spec.wf, ht, h1, h2, Bool.false_eq_true, if_false, Bool.and_eq_true, decide_eq_true_eq] at hw
              simp only [Spec.enc, ht, h1, h2, Bool.false_eq_true, if_false, List.cons_append, List.cons.injEq, true_and] at hs
              have h5 : b1.toNat = x.payload.length / 256 := by
                rw [hs.1]; simp only [UInt8.toNat_ofNat']; omega
              have h6 : b2.toNat = x.payload.length % 256 := by
                rw [hs.2.1]; simp only [UInt8.toNat_ofNat']
              have h7 : b1.toNat * 256 + b2.toNat = x.payload.length := by omega
              rw [hs.2.2, h7, List.take_left, ← ht]
              cases x with
              | mk xt xl xp =>
                simp only [IE.mk.injEq, true_and, and_true]
                apply UInt16.toNat_inj.mp
                rw [toNat_ofNat16 hw.1]
                exact hw.2.symm

theorem parse_total (A : Agree c p) (b : Bytes) : Returns (parse c b) := by
  unfold parse
  match b with
  | [] => simp
  | [_] => simp
  | t :: b1 :: r =>
    simp only [List.length_cons, show ¬ (r.length + 1 + 1 < 2) by omega, if_false, idx_zero, bind_ok, A.short]
    by_cases h2 : p.short t = true
    · simp only [h2, if_true, decodeEHTL, List.length_cons, show ¬ (r.length + 1 + 1 < 2) by omega, if_false]
      split
      · simp
      · simp only [idx_succ, idx_zero, bind_ok]
        split
        · simp
        · rw [slice_of_le (by omega) (by simp only [List.length_cons]; omega)]; simp
    · simp only [h2, Bool.false_eq_true, if_false]
      by_cases h1 : isTV t = true
      · simp only [h1, if_true, decodeTV, List.length_cons, show ¬ (r.length + 1 + 1 < 2) by omega, if_false]
        split
        · simp
        · rw [slice_of_le (by
            unfold IE.marshalLen; split
            · omega
            · split
              · omega
              · split <;> omega) (by simp only [List.length_cons]; omega)]; simp
      · simp only [h1, Bool.false_eq_true, if_false, decodeTLV, List.length_cons]
        split
        · simp
        · match r with
          | [] => simp at *
          | b2 :: r =>
            rw [slice_of_le (by omega) (by simp only [List.length_cons]; omega), bind_ok]
            simp only [List.drop_succ_cons, List.drop_zero, show 3 - 1 = 2 from rfl, List.take_succ_cons,
              List.take_zero, rd16, bind_ok]
            split
            · simp
            · rw [slice_of_le (by omega) (by simp only [List.length_cons] at *; omega)]; simp

theorem parse_step (A : Agree c p) (b : Bytes) (x : IE) (h : parse c b = ok x) :
    ∃ r, b = Spec.enc p x ++ r ∧ Spec.wf p x = true ∧ sliceFrom b (x.marshalLen c) = ok r ∧ r.length < b.length := by
  obtain ⟨hw, _, r, rfl⟩ := (parse_ok_iff A b x).mp h
  refine ⟨r, rfl, hw, ?_, ?_⟩
  · rw [← length_enc A x hw, sliceFrom_of_le (by simp)]; simp
  · have := one_le_enc (p := p) x
    simp only [List.length_append]; omega

theorem parseMultiF_total (A : Agree c p) : ∀ n b, b.length < n → Returns (parseMultiF c n b)
  | 0, _, h => by omega
  | n + 1, b, h => by
    rw [parseMultiF]
    split
    · refine returns_bind (parse_total A b) (fun x hx => ?_)
      obtain ⟨r, -, -, hs, hr⟩ := parse_step A b x hx
      rw [hs, bind_ok]
      exact returns_bind (parseMultiF_total A n r (by omega)) (fun _ _ => by simp)
    · simp

theorem parseMultiF_ok_iff (A : Agree c p) : ∀ n b l, b.length < n →
    (parseMultiF c n b = ok l ↔ (∀ x ∈ l, Spec.wf p x = true) ∧ b = Spec.encs p l ∧
      ∀ x, l.getLast? = some x → Spec.hasValue x = true)
  | 0, _, _, h => by omega
  | n + 1, b, l, h => by
    rw [parseMultiF]
    split
    · rename_i hb
      constructor
      · intro hp
        obtain ⟨x, hx, hp⟩ := bind_eq_ok.mp hp
        obtain ⟨r, e, hw, hs, hr⟩ := parse_step A b x hx
        rw [hs, bind_ok] at hp
        obtain ⟨l', hl', hp⟩ := bind_eq_ok.mp hp
        simp only [ok.injEq] at hp; subst hp
        obtain ⟨h1, h2, h3⟩ := (parseMultiF_ok_iff A n r l' (by omega)).mp hl'
        refine ⟨?_, ?_, ?_⟩
        · intro y hy
          rcases List.mem_cons.mp hy with rfl | hy
          · exact hw
          · exact h1 y hy
        · rw [e, h2]; simp [Spec.encs]
        · intro y hy
          cases l' with
          | nil =>
            simp only [List.getLast?_singleton, Option.some.injEq] at hy; subst hy
            have h2 := ((parse_ok_iff A b x).mp hx).2.1
            have hr0 : r = [] := by simpa [Spec.encs] using ‹r = _›
            rw [e, hr0, List.append_nil] at h2
            simp only [Spec.hasValue, Bool.or_eq_true, decide_eq_true_eq, Bool.not_eq_true']
            by_cases h1 : x.typ.toNat < 128
            · right
              simp only [Spec.enc, h1, if_true, List.length_cons] at h2
              cases hx : x.payload with
              | nil => rw [hx] at h2; simp at h2
              | cons _ _ => rfl
            · left; omega
          | cons z l' => exact h3 y (by simpa using hy)
      · rintro ⟨h1, h2, h3⟩
        cases l with
        | nil => rw [h2] at hb; simp [Spec.encs] at hb
        | cons x l' =>
          have hw := h1 x List.mem_cons_self
          have e : b = Spec.enc p x ++ Spec.encs p l' := by rw [h2]; simp [Spec.encs]
          have hx : parse c b = ok x := by
            refine (parse_ok_iff A b x).mpr ⟨hw, ?_, _, e⟩
            rw [e, List.length_append]
            cases l' with
            | nil =>
              have := two_le_enc (p := p) x (h3 x rfl); omega
            | cons y l' =>
              have h1 := one_le_enc (p := p) x
              have h2 := one_le_enc (p := p) y
              simp only [Spec.encs, List.map_cons, List.flatten_cons, List.length_append]; omega
          have hs : sliceFrom b (x.marshalLen c) = ok (Spec.encs p l') := by
            rw [e, ← length_enc A x hw, sliceFrom_of_le (by simp)]; simp
          rw [hx, bind_ok, hs, bind_ok]
          have hlen : (Spec.encs p l').length < n := by
            have := one_le_enc (p := p) x
            rw [e, List.length_append] at h; omega
          rw [(parseMultiF_ok_iff A n _ l' hlen).mpr ⟨fun y hy => h1 y (List.mem_cons_of_mem _ hy), rfl, ?_⟩]
          · simp
          · intro y hy
            apply h3 y
            cases l' with
            | nil => simp at hy
            | cons z l' => simpa using hy
    · rename_i hb
      have : b = [] := by cases b with | nil => rfl | cons _ _ => simp at hb
      subst this
      constructor
      · intro hp; simp only [ok.injEq] at hp; subst hp; simp [Spec.encs]
      · rintro ⟨h1, h2, _⟩
        cases l with
        | nil => rfl
        | cons x l =>
          have h1 := one_le_enc (p := p) x
          have := congrArg List.length h2
          simp [Spec.encs] at this
          omega

theorem parseMulti_ok_iff (A : Agree c p) (b : Bytes) (l : List IE) :
    parseMulti c b = ok l ↔ (∀ x ∈ l, Spec.wf p x = true) ∧ b = Spec.encs p l ∧
      ∀ x, l.getLast? = some x → Spec.hasValue x = true :=
  parseMultiF_ok_iff A _ b l (by omega)

theorem parseMulti_total (A : Agree c p) (b : Bytes) : Returns (parseMulti c b) :=
  parseMultiF_total A _ b (by omega)

theorem flatMap_rawEnc (l : List IE) (h : ∀ x ∈ l, Spec.wf p x = true) :
    l.flatMap (rawEnc p) = Spec.encs p l := by
  induction l with
  | nil => rfl
  | cons x l ih =>
    rw [List.flatMap_cons, rawEnc_wf x (h x List.mem_cons_self), ih (fun y hy => h y (List.mem_cons_of_mem _ hy))]
    simp [Spec.encs]

theorem ieLaws (A : Agree c p) : Msg.IELaws (ieOps c) (rawEnc p) (sized p)
    (fun x => Spec.wf p x = true ∧ Spec.hasValue x = true) where
  len x hs := length_rawEnc A x hs
  mto x b hs hb := marshalTo_eq A x b hs hb
  wf_sz x h := sized_of_wf A x h.1
  two x h := by
    show 2 ≤ x.marshalLen c
    rw [← length_enc A x h.1]; exact two_le_enc x h.2
  parse l h := by
    rw [flatMap_rawEnc l (fun x hx => (h x hx).1)]
    refine (parseMulti_ok_iff A _ l).mpr ⟨fun x hx => (h x hx).1, rfl, fun x hx => (h x (List.mem_of_getLast? hx)).2⟩
  sound b l h := by
    obtain ⟨h1, h2, -⟩ := (parseMulti_ok_iff A b l).mp h
    exact ⟨by rw [flatMap_rawEnc l h1, h2], fun x hx => sized_of_wf A x (h1 x hx)⟩
  total b := parseMulti_total A b

end Verif.TLV
