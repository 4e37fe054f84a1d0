import Verif.Spec.V2IE
namespace Verif.V2
open Res Spec

variable (g : UInt8 → Bool)

theorem encs_append (a b : List IE) : encs g (a ++ b) = encs g a ++ encs g b := by
  induction a with
  | nil => simp [encs]
  | cons x xs ih => simp [encs, ih]

theorem wfs_iff (l : List IE) : wfs g l = true ↔ ∀ x ∈ l, wf g x = true := by
  induction l with
  | nil => simp [wfs]
  | cons x xs ih => simp [wfs, ih]

/-- body of an element -/
def body : IE → Bytes
  | .mk t _ _ p cs => if g t then encs g cs else p

theorem enc_eq (x : IE) : enc g x = x.typ :: be16 (UInt16.ofNat (body g x).length) ++ [x.rawInst] ++ body g x := by
  cases x; simp [enc, body, IE.typ, IE.rawInst]

theorem length_enc (x : IE) : (enc g x).length = 4 + (body g x).length := by
  rw [enc_eq]; simp; omega

mutual
theorem marshalLen_enc : ∀ x : IE, x.marshalLen g = (enc g x).length
  | .mk t n i p cs => by
    have h := marshalLens_encs cs
    rw [length_enc, IE.marshalLen, body, h]
    split <;> rfl
theorem marshalLens_encs : ∀ cs : List IE, marshalLens g cs = (encs g cs).length
  | [] => by simp [marshalLens, encs]
  | c :: cs => by
    simp [marshalLens, encs, marshalLen_enc c, marshalLens_encs cs]
end

theorem wf_iff (x : IE) : wf g x = true ↔
    x.len.toNat = x.payload.length ∧ x.payload = body g x ∧
      (if g x.typ then wfs g x.children = true else x.children = []) := by
  cases x with
  | mk t n i p cs =>
    simp only [wf, IE.len, IE.payload, body, IE.typ, IE.children, Bool.and_eq_true, beq_iff_eq]
    split <;> simp_all

theorem wf_grouped {t n i p cs} (hg : g t = true) : wf g (.mk t n i p cs) = true ↔
    n.toNat = p.length ∧ p = encs g cs ∧ wfs g cs = true := by
  simp [wf, hg]

theorem wf_plain {t n i p cs} (hg : ¬ g t = true) : wf g (.mk t n i p cs) = true ↔
    n.toNat = p.length ∧ cs = [] := by
  simp [wf, hg]

theorem wf_len {t n i p cs} (h : wf g (.mk t n i p cs) = true) : n.toNat = p.length := by
  simp [wf] at h; exact h.1

/-- well-formed element as explicit bytes -/
theorem enc_of_wf {x : IE} (h : wf g x = true) :
    enc g x = x.typ :: be16 x.len ++ [x.rawInst] ++ x.payload := by
  obtain ⟨h1, h2, _⟩ := (wf_iff g x).mp h
  rw [enc_eq, ← h2, ← h1]; simp

/-! ### the parser inverts the specification -/

theorem parseF_step (fuel : Nat) (t : UInt8) (n : UInt16) (i : UInt8) (p r : Bytes) (hn : n.toNat = p.length) :
    parseF g (fuel + 1) (t :: be16 n ++ [i] ++ p ++ r) =
      if g t then (parseMultiF g fuel p >>= fun cs => ok (.mk t n i p cs)) else ok (.mk t n i p []) := by
  have hl : (t :: be16 n ++ [i] ++ p ++ r).length = 4 + p.length + r.length := by simp; omega
  have h1 : slice (t :: be16 n ++ [i] ++ p ++ r) 1 3 = ok (be16 n) := by
    rw [slice_of_le (by omega) (by omega)]; simp [be16]
  have h3 : idx (t :: be16 n ++ [i] ++ p ++ r) 3 = ok i := by simp [be16]
  have h4 : slice (t :: be16 n ++ [i] ++ p ++ r) 4 (4 + n.toNat) = ok p := by
    rw [slice_of_le (by omega) (by omega), hn]; simp [be16]
  have h0 : idx (t :: be16 n ++ [i] ++ p ++ r) 0 = ok t := rfl
  rw [parseF]
  rw [if_neg (by omega)]
  simp only [h0, h1, h3, bind_ok, rd16_be16']
  rw [if_neg (by omega)]
  simp only [h4, bind_ok]

theorem parse_enc_aux (fuel : Nat) :
    (∀ x r, wf g x = true → (enc g x).length ≤ fuel → parseF g fuel (enc g x ++ r) = ok x) ∧
    (∀ xs, wfs g xs = true → (encs g xs).length + 1 ≤ fuel → parseMultiF g fuel (encs g xs) = ok xs) := by
  induction fuel with
  | zero =>
    constructor
    · intro x r _ h; have := length_enc g x; omega
    · intros; omega
  | succ fuel ih =>
    constructor
    · intro x r hw hf
      have hl := length_enc g x
      cases x with
      | mk t n i p cs =>
        have hlen := wf_len g hw
        rw [enc_of_wf g hw, IE.typ, IE.len, IE.rawInst, IE.payload, parseF_step g _ _ _ _ _ _ hlen]
        by_cases hg : g t = true
        · obtain ⟨h1, h2, h3⟩ := (wf_grouped g hg).mp hw
          rw [if_pos hg]
          rw [body, if_pos hg] at hl
          rw [h2, ih.2 cs h3 (by omega)]; rfl
        · obtain ⟨h1, h2⟩ := (wf_plain g hg).mp hw
          rw [if_neg hg, h2]
    · intro xs hw hf
      cases xs with
      | nil => simp [parseMultiF, encs]
      | cons c cs =>
        simp only [wfs, Bool.and_eq_true] at hw
        have hl := length_enc g c
        simp only [encs, List.length_append] at hf
        rw [parseMultiF, encs]
        rw [if_pos (by simp only [List.length_append]; omega)]
        rw [ih.1 c (encs g cs) hw.1 (by omega)]
        simp only [bind_ok, sliceFrom, marshalLen_enc, List.length_append]
        rw [if_pos (by omega)]
        simp only [bind_ok, List.drop_left]
        rw [ih.2 cs hw.2 (by omega)]
        rfl

/-! ### everything the parser accepts is well-formed and re-encodes to the same bytes -/

theorem parse_sound_aux (fuel : Nat) :
    (∀ b, b.length ≤ fuel → 1 ≤ fuel →
      (∃ e, parseF g fuel b = err e) ∨
      ∃ x r, parseF g fuel b = ok x ∧ wf g x = true ∧ b = enc g x ++ r) ∧
    (∀ b, b.length + 1 ≤ fuel →
      (∃ e, parseMultiF g fuel b = err e) ∨
      ∃ xs, parseMultiF g fuel b = ok xs ∧ wfs g xs = true ∧ b = encs g xs) := by
  induction fuel with
  | zero => constructor <;> intros <;> omega
  | succ fuel ih =>
    constructor
    · intro b hb _
      match b, hb with
      | [], _ => exact .inl ⟨.eof, by simp [parseF]⟩
      | [_], _ => exact .inl ⟨.eof, by simp [parseF]⟩
      | [_, _], _ => exact .inl ⟨.eof, by simp [parseF]⟩
      | [_, _, _], _ => exact .inl ⟨.eof, by simp [parseF]⟩
      | t :: x :: y :: i :: q, hb =>
        simp only [List.length_cons] at hb
        generalize hn : UInt16.ofNat (x.toNat * 256 + y.toNat) = n
        have hxy : [x, y] = be16 n := by rw [← hn, be16_rd16]
        by_cases hlen : n.toNat > q.length
        · left; refine ⟨.invalidLength, ?_⟩
          rw [parseF, if_neg (by simp)]
          rw [slice_of_le (by omega) (by simp)]
          have h0 : idx (t :: x :: y :: i :: q) 0 = ok t := rfl
          have h1 : rd16 (List.take (3 - 1) (List.drop 1 (t :: x :: y :: i :: q))) = ok n := by
            rw [← hn]; rfl
          simp only [h0, h1, bind_ok, List.length_cons]
          rw [if_pos (by omega)]
        · have hq : q = q.take n.toNat ++ q.drop n.toNat := by simp
          have hp : n.toNat = (q.take n.toNat).length := by simp; omega
          have hbe : t :: x :: y :: i :: q = t :: be16 n ++ [i] ++ q.take n.toNat ++ q.drop n.toNat := by
            rw [← hxy]; simp
          rw [hbe, parseF_step g _ _ _ _ _ _ hp]
          generalize q.take n.toNat = p at *
          generalize q.drop n.toNat = r at *
          by_cases hg : g t = true
          · rw [if_pos hg]
            have hpl : p.length + 1 ≤ fuel := by
              subst hq; simp only [List.length_append] at hb; omega
            rcases ih.2 p hpl with ⟨e, he⟩ | ⟨cs, he, hw, henc⟩
            · left; exact ⟨e, by rw [he]; rfl⟩
            · right
              refine ⟨.mk t n i p cs, r, by rw [he]; rfl, ?_, ?_⟩
              · simp [wf, hg, hw, ← henc, hp]
              · rw [enc_of_wf g (x := .mk t n i p cs) (by simp [wf, hg, hw, ← henc, hp])]
                simp [IE.typ, IE.len, IE.rawInst, IE.payload]
          · rw [if_neg hg]
            right
            refine ⟨.mk t n i p [], r, rfl, ?_, ?_⟩
            · simp [wf, hg, hp]
            · rw [enc_of_wf g (x := .mk t n i p []) (by simp [wf, hg, hp])]
              simp [IE.typ, IE.len, IE.rawInst, IE.payload]
    · intro b hb
      by_cases h0 : b.length > 0
      · rw [parseMultiF, if_pos h0]
        rcases ih.1 b (by omega) (by omega) with ⟨e, he⟩ | ⟨x, r, he, hw, hbx⟩
        · left; exact ⟨e, by rw [he]; rfl⟩
        · subst hbx
          have hl := length_enc g x
          simp only [List.length_append] at hb
          rw [he]
          simp only [bind_ok, sliceFrom, marshalLen_enc, List.length_append]
          rw [if_pos (by omega)]
          simp only [bind_ok, List.drop_left]
          rcases ih.2 r (by omega) with ⟨e, he⟩ | ⟨xs, he, hws, hr⟩
          · left; exact ⟨e, by rw [he]; rfl⟩
          · right
            exact ⟨x :: xs, by rw [he]; rfl, by simp [wfs, hw, hws], by simp [encs, ← hr]⟩
      · right
        have : b = [] := by cases b with | nil => rfl | cons => simp at h0
        subst this
        exact ⟨[], by simp [parseMultiF], rfl, rfl⟩

theorem parse_total (b : Bytes) : (∃ e, parse g b = err e) ∨
      ∃ x r, parse g b = ok x ∧ wf g x = true ∧ b = enc g x ++ r :=
  (parse_sound_aux g (b.length + 1)).1 b (by omega) (by omega)

theorem parseMulti_total (b : Bytes) : (∃ e, parseMulti g b = err e) ∨
      ∃ xs, parseMulti g b = ok xs ∧ wfs g xs = true ∧ b = encs g xs :=
  (parse_sound_aux g (b.length + 1)).2 b (by omega)

theorem parse_enc (x : IE) (r : Bytes) (h : wf g x = true) : parse g (enc g x ++ r) = ok x :=
  (parse_enc_aux g _).1 x r h (by simp only [List.length_append]; omega)

theorem parseMulti_encs (xs : List IE) (h : wfs g xs = true) : parseMulti g (encs g xs) = ok xs :=
  (parse_enc_aux g _).2 xs h (by omega)

theorem parseMulti_ok_iff (b : Bytes) (xs : List IE) :
    parseMulti g b = ok xs ↔ wfs g xs = true ∧ b = encs g xs := by
  constructor
  · intro h
    rcases parseMulti_total g b with ⟨e, he⟩ | ⟨ys, he, hw, hb⟩
    · rw [he] at h; simp at h
    · rw [he] at h; simp at h; subst h; exact ⟨hw, hb⟩
  · rintro ⟨hw, rfl⟩; exact parseMulti_encs g xs hw

/-! ### MarshalTo writes exactly the element -/

mutual
/-- the bytes MarshalTo writes for an arbitrary (not necessarily well-formed) element -/
def rawEnc : IE → Bytes
  | .mk t n i p cs => t :: be16 n ++ [i] ++ (if g t then rawEncs cs else p)
def rawEncs : List IE → Bytes
  | [] => []
  | c :: cs => rawEnc c ++ rawEncs cs
end

mutual
theorem length_rawEnc : ∀ x : IE, (rawEnc g x).length = x.marshalLen g
  | .mk t n i p cs => by
    have h := length_rawEncs cs
    by_cases hg : g t = true <;> simp [rawEnc, IE.marshalLen, hg, h] <;> omega
theorem length_rawEncs : ∀ cs : List IE, (rawEncs g cs).length = marshalLens g cs
  | [] => by simp [rawEncs, marshalLens]
  | c :: cs => by simp [rawEncs, marshalLens, length_rawEnc c, length_rawEncs cs]
end

mutual
theorem marshalTo_eq : ∀ (x : IE) (b : Bytes), x.marshalLen g ≤ b.length →
    x.marshalTo g b = ok (rawEnc g x ++ b.drop (x.marshalLen g))
  | .mk t n i p cs, b, hb => by
    have h4 : 4 ≤ b.length := by
      have : 4 ≤ (IE.mk t n i p cs).marshalLen g := by
        rw [IE.marshalLen]; split <;> omega
      omega
    match b, h4 with
    | b0 :: b1 :: b2 :: b3 :: r, _ =>
      obtain ⟨x, y, hxy⟩ : ∃ x y, be16 n = [x, y] := ⟨_, _, rfl⟩
      rw [IE.marshalTo, if_neg (by simp)]
      simp only [setAt, copyAt, hxy, List.length_cons, List.length_nil, rawEnc]
      rw [if_pos (by omega)]
      simp only [bind_ok, List.set_cons_zero, List.length_cons]
      rw [if_pos (by omega)]
      simp only [bind_ok]
      rw [if_pos (by simp)]
      simp
      by_cases hg : g t = true
      · rw [if_pos hg, if_pos hg]
        have := marshalChildren_eq cs [t, x, y, i] r (by
            rw [IE.marshalLen, if_pos hg] at hb; simp at hb; omega)
        simp only [List.length_cons, List.length_nil, List.cons_append, List.nil_append, Nat.zero_add,
          Nat.reduceAdd] at this
        rw [this]
        rw [IE.marshalLen, if_pos hg, Nat.add_comm]
        simp
      · rw [if_neg hg, if_neg hg, IE.marshalLen, if_neg hg]
        rw [IE.marshalLen, if_neg hg] at hb
        simp only [List.length_cons] at hb
        rw [if_neg (by omega), if_pos (by omega)]
        have e1 : 4 + p.length - 4 = p.length := by omega
        rw [e1, Nat.min_self, Nat.add_comm 4]
        simp
theorem marshalChildren_eq : ∀ (cs : List IE) (pre r : Bytes), marshalLens g cs ≤ r.length →
    marshalChildren g cs pre.length (pre ++ r) = ok (pre ++ rawEncs g cs ++ r.drop (marshalLens g cs))
  | [], pre, r, _ => by simp [marshalChildren, rawEncs, marshalLens]
  | c :: cs, pre, r, hr => by
    rw [marshalLens] at hr
    rw [marshalChildren, if_neg (by simp; omega)]
    simp only [onSub]
    rw [slice_of_le (by omega) (by simp; omega)]
    simp only [bind_ok, List.drop_left, Nat.add_sub_cancel_left]
    rw [marshalTo_eq c _ (by simp; omega)]
    simp only [bind_ok, List.take_left]
    have h1 : (List.take (c.marshalLen g) r).drop (c.marshalLen g) = [] := by simp
    rw [h1]
    have h2 : (pre ++ r).drop (pre.length + c.marshalLen g) = r.drop (c.marshalLen g) := by simp
    rw [h2, List.append_nil]
    have := marshalChildren_eq cs (pre ++ rawEnc g c) (r.drop (c.marshalLen g)) (by simp; omega)
    rw [List.length_append, length_rawEnc] at this
    rw [this]
    simp [rawEncs, marshalLens]
end

theorem marshal_eq (x : IE) : x.marshal g = ok (rawEnc g x) := by
  rw [IE.marshal, marshalTo_eq g x _ (by simp)]; simp

mutual
theorem rawEnc_wf : ∀ x : IE, wf g x = true → rawEnc g x = enc g x
  | .mk t n i p cs, h => by
    rw [enc_of_wf g h, rawEnc, IE.typ, IE.len, IE.rawInst, IE.payload]
    by_cases hg : g t = true
    · obtain ⟨h1, h2, h3⟩ := (wf_grouped g hg).mp h
      rw [if_pos hg, rawEncs_wf cs h3, ← h2]
    · rw [if_neg hg]
theorem rawEncs_wf : ∀ cs : List IE, wfs g cs = true → rawEncs g cs = encs g cs
  | [], _ => by simp [rawEncs, encs]
  | c :: cs, h => by
    simp only [wfs, Bool.and_eq_true] at h
    simp [rawEncs, encs, rawEnc_wf c h.1, rawEncs_wf cs h.2]
end

end Verif.V2
