import Verif.Model.Cost
import Verif.Proofs.V2IE
import Verif.Proofs.V1IE
import Verif.Proofs.V1Header
/-
Helper lemmas for C87: the cost of parsing and serialising.
-/
namespace Verif.Cost
open Res

variable {α β : Type}

theorem bind_fst (x : Costed α) (f : α → Costed β) : (x >>= f).res = x.res >>= fun a => (f a).res := by
  obtain ⟨r, c⟩ := x
  cases r <;> rfl

theorem bind_snd (x : Costed α) (f : α → Costed β) :
    (x >>= f).cost = match x.res with | ok a => x.cost.seq (f a).cost | _ => x.cost := by
  obtain ⟨r, c⟩ := x
  cases r <;> rfl

@[simp] theorem pure_fst (a : α) : (pure a : Costed α).res = ok a := rfl
@[simp] theorem pure_snd (a : α) : (pure a : Costed α).cost = ⟨0, 0, 0⟩ := rfl
@[simp] theorem free_fst (r : Res α) : (free r).res = r := rfl
@[simp] theorem free_snd (r : Res α) : (free r).cost = ⟨0, 0, 0⟩ := rfl
@[simp] theorem look_fst (n : Nat) : (look n).res = ok () := rfl
@[simp] theorem look_snd (n : Nat) : (look n).cost = ⟨0, n, 0⟩ := rfl
@[simp] theorem call_fst (x : Costed α) : (call x).res = x.res := rfl
@[simp] theorem call_snd (x : Costed α) : (call x).cost = ⟨x.cost.calls + 1, x.cost.visits, x.cost.depth + 1⟩ := rfl

namespace V2
open Verif.V2 Spec
variable (g : UInt8 → Bool)

theorem parseF_head (fuel : Nat) (b : Bytes) : parseF g (fuel + 1) b = head b >>= fun x =>
    if g x.1 then parseMultiF g fuel x.2.2.2 >>= fun cs => ok (.mk x.1 x.2.1 x.2.2.1 x.2.2.2 cs)
    else ok (.mk x.1 x.2.1 x.2.2.1 x.2.2.2 []) := by
  rw [parseF, head]
  split
  · rfl
  · simp only [bind_assoc']
    congr 1; funext t
    congr 1; funext s
    congr 1; funext n
    split
    · rfl
    · simp only [bind_assoc', bind_ok]

/-- the counted parser gives what the parser gives -/
theorem parseC_fst (fuel : Nat) : (∀ b, (parseC g fuel b).res = parseF g fuel b) ∧
    (∀ b, (parseMultiC g fuel b).res = parseMultiF g fuel b) := by
  induction fuel with
  | zero => exact ⟨fun b => rfl, fun b => rfl⟩
  | succ fuel ih =>
    constructor
    · intro b
      rw [parseC, call_fst, bind_fst, parseF_head, free_fst]
      congr 1; funext x
      obtain ⟨t, n, i, p⟩ := x
      simp only []
      split
      · rw [bind_fst, ih.2]; rfl
      · rfl
    · intro b
      rw [parseMultiC, parseMultiF]
      split
      · rw [bind_fst, ih.1]
        congr 1; funext i
        rw [bind_fst, look_fst, bind_ok, bind_fst, free_fst]
        congr 1; funext r
        rw [bind_fst, ih.2]
        rfl
      · rfl

theorem onSub_eq (b : Bytes) (lo hi : Nat) (f : Bytes → Res Bytes) :
    onSub b lo hi f = slice b lo hi >>= fun s => f s >>= fun s => ok (b.take lo ++ s ++ b.drop hi) := rfl

mutual
/-- the counted writer writes what the writer writes -/
theorem writeC_fst : ∀ (x : IE) (b : Bytes), (writeC g x b).res = x.marshalTo g b
  | .mk t n i p cs, b => by
    rw [writeC, call_fst, bind_fst, free_fst, IE.marshalTo]
    split
    · rfl
    · rw [bind_assoc']
      congr 1; funext b
      rw [bind_assoc']
      congr 1; funext b
      congr 1; funext b
      split
      · exact writesC_fst cs 4 b
      · rw [bind_fst, look_fst, bind_ok]
        split
        · rfl
        · rw [bind_fst, look_fst, bind_ok]; rfl
theorem writesC_fst : ∀ (cs : List IE) (off : Nat) (b : Bytes), (writesC g cs off b).res = marshalChildren g cs off b
  | [], _, _ => by simp [writesC, marshalChildren]
  | c :: cs, off, b => by
    rw [writesC, bind_fst, look_fst, bind_ok, marshalChildren]
    split
    · rfl
    · rw [bind_fst, look_fst, bind_ok, bind_fst, free_fst, onSub_eq, bind_assoc']
      congr 1; funext s
      rw [bind_fst, writeC_fst c s, bind_assoc']
      congr 1; funext s
      rw [bind_fst, look_fst, bind_ok, bind_ok]
      exact writesC_fst cs _ _
end

/-! ### trees -/

mutual
/-- the number of elements in an element, itself included -/
def nodes : IE → Nat
  | .mk _ _ _ _ cs => 1 + nodess cs
def nodess : List IE → Nat
  | [] => 0
  | c :: cs => nodes c + nodess cs
end
mutual
/-- how deep elements are nested -/
def height : IE → Nat
  | .mk _ _ _ _ cs => 1 + heights cs
def heights : List IE → Nat
  | [] => 0
  | c :: cs => max (height c) (heights cs)
end
mutual
/-- the numbers of elements of all elements, added up: each element counts once for itself and once for each it lies in -/
def weight : IE → Nat
  | .mk t n i p cs => nodes (.mk t n i p cs) + weights cs
def weights : List IE → Nat
  | [] => 0
  | c :: cs => weight c + weights cs
end

mutual
theorem visits_wf : ∀ x : IE, wf g x = true → visits g x = nodes x
  | .mk t n i p cs, h => by
    rw [visits, nodes]
    by_cases hg : g t = true
    · rw [if_pos hg, visitss_wf cs ((wf_grouped g hg).mp h).2.2]
    · rw [if_neg hg, ((wf_plain g hg).mp h).2]; rfl
theorem visitss_wf : ∀ xs : List IE, wfs g xs = true → visitss g xs = nodess xs
  | [], _ => rfl
  | x :: xs, h => by
    simp only [wfs, Bool.and_eq_true] at h
    rw [visitss, nodess, visits_wf x h.1, visitss_wf xs h.2]
end

/-! ### what parsing costs, exactly -/

theorem head_enc {x : IE} (h : wf g x = true) (r : Bytes) :
    head (enc g x ++ r) = ok (x.typ, x.len, x.rawInst, x.payload) := by
  cases x with
  | mk t n i p cs =>
    have hn := wf_len g h
    rw [enc_of_wf g h]
    simp only [IE.typ, IE.len, IE.rawInst, IE.payload]
    have h0 : idx (t :: be16 n ++ [i] ++ p ++ r) 0 = ok t := rfl
    have h1 : slice (t :: be16 n ++ [i] ++ p ++ r) 1 3 = ok (be16 n) := by
      rw [slice_of_le (by omega) (by simp)]; simp [be16]
    have h3 : idx (t :: be16 n ++ [i] ++ p ++ r) 3 = ok i := by simp [be16]
    have hl : (t :: be16 n ++ [i] ++ p ++ r).length = 4 + p.length + r.length := by simp; omega
    have h4 : slice (t :: be16 n ++ [i] ++ p ++ r) 4 (4 + n.toNat) = ok p := by
      rw [slice_of_le (by omega) (by omega), hn]; simp [be16]
    rw [head, if_neg (by omega)]
    simp only [h0, h1, h3, bind_ok, rd16_be16']
    rw [if_neg (by omega)]
    simp only [h4, bind_ok]

theorem parseC_exact (fuel : Nat) :
    (∀ x r, wf g x = true → (enc g x).length ≤ fuel →
      (parseC g fuel (enc g x ++ r)).cost = ⟨nodes x, weights x.children, height x⟩) ∧
    (∀ xs, wfs g xs = true → (encs g xs).length + 1 ≤ fuel →
      (parseMultiC g fuel (encs g xs)).cost = ⟨nodess xs, weights xs, heights xs⟩) := by
  induction fuel with
  | zero =>
    constructor
    · intro x r _ h; have := length_enc g x; omega
    · intros; omega
  | succ fuel ih =>
    constructor
    · intro x r hw hf
      have hl := length_enc g x
      cases x with
      | mk t n i p cs =>
        have hh : head (enc g (.mk t n i p cs) ++ r) = ok (t, n, i, p) := head_enc g hw r
        rw [parseC, call_snd, bind_snd, free_fst, hh]
        simp only [IE.children]
        by_cases hg : g t = true
        · obtain ⟨h1, h2, h3⟩ := (wf_grouped g hg).mp hw
          rw [body, if_pos hg] at hl
          have e1 : (parseMultiC g fuel p).res = ok cs := by
            rw [(parseC_fst g fuel).2, h2, (parse_enc_aux g fuel).2 cs h3 (by omega)]
          have e2 := ih.2 cs h3 (by omega)
          rw [← h2] at e2
          rw [if_pos hg, bind_snd, e1, e2]
          simp [Cost.seq, nodes, height, Nat.add_comm]
        · obtain ⟨h1, h2⟩ := (wf_plain g hg).mp hw
          rw [if_neg hg, h2]
          simp [Cost.seq, nodes, nodess, weights, height, heights]
    · intro xs hw hf
      cases xs with
      | nil => simp [parseMultiC, encs, nodess, weights, heights]
      | cons c cs =>
        simp only [wfs, Bool.and_eq_true] at hw
        have hl := length_enc g c
        simp only [encs, List.length_append] at hf
        have e1 : (parseC g fuel (enc g c ++ encs g cs)).res = ok c := by
          rw [(parseC_fst g fuel).1, (parse_enc_aux g fuel).1 c _ hw.1 (by omega)]
        have e2 := ih.1 c (encs g cs) hw.1 (by omega)
        have e3 : sliceFrom (enc g c ++ encs g cs) (c.marshalLen g) = ok (encs g cs) := by
          rw [sliceFrom, marshalLen_enc, if_pos (by simp)]; simp
        have e4 : (parseMultiC g fuel (encs g cs)).res = ok cs := by
          rw [(parseC_fst g fuel).2, (parse_enc_aux g fuel).2 cs hw.2 (by omega)]
        have e5 := ih.2 cs hw.2 (by omega)
        rw [parseMultiC, encs, if_pos (by simp only [List.length_append]; omega), bind_snd, e1, e2]
        simp only []
        rw [bind_snd, look_fst, bind_snd, free_fst, e3]
        simp only []
        rw [bind_snd, e4, e5]
        have hv := visits_wf g c hw.1
        have hwt : weight c = nodes c + weights c.children := by cases c; rfl
        simp [Cost.seq, nodess, weights, heights, hv, hwt]
        omega

theorem head_len {b : Bytes} {x : UInt8 × UInt16 × UInt8 × Bytes} (h : head b = ok x) : 4 + x.2.2.2.length ≤ b.length := by
  unfold head at h
  split at h
  · simp at h
  · obtain ⟨t, -, h⟩ := bind_eq_ok.mp h
    obtain ⟨s, -, h⟩ := bind_eq_ok.mp h
    obtain ⟨n, -, h⟩ := bind_eq_ok.mp h
    split at h
    · simp at h
    · obtain ⟨i, -, h⟩ := bind_eq_ok.mp h
      obtain ⟨p, hp, h⟩ := bind_eq_ok.mp h
      simp only [Res.ok.injEq] at h
      subst h
      unfold slice at hp
      split at hp
      · simp only [Res.ok.injEq] at hp
        subst hp
        simp
        omega
      · simp at hp

theorem sq_add (a b : Nat) : (a + b) * (a + b) = a * a + b * b + 2 * (a * b) := by
  rw [Nat.add_mul, Nat.mul_add, Nat.mul_add, Nat.mul_comm b a]; omega

theorem cost_bound (fuel : Nat) :
    (∀ b, let r := parseC g fuel b
      r.cost.depth ≤ r.cost.calls ∧ 2 * r.cost.visits + r.cost.calls ≤ r.cost.calls * r.cost.calls ∧
      r.cost.visits + r.cost.calls ≤ r.cost.depth * r.cost.calls ∧
      4 * r.cost.calls ≤ max b.length 1 + 3 ∧
      ∀ x, r.res = ok x → 4 * r.cost.calls ≤ x.marshalLen g ∧ visits g x = r.cost.calls) ∧
    (∀ b, let r := parseMultiC g fuel b
      r.cost.depth ≤ r.cost.calls ∧ 2 * r.cost.visits ≤ r.cost.calls * r.cost.calls + r.cost.calls ∧
      r.cost.visits ≤ r.cost.depth * r.cost.calls ∧
      4 * r.cost.calls ≤ b.length + 3 ∧
      ∀ xs, r.res = ok xs → 4 * r.cost.calls ≤ marshalLens g xs ∧ visitss g xs = r.cost.calls) := by
  induction fuel with
  | zero =>
    refine ⟨fun b => ?_, fun b => ?_⟩
    · simp [parseC]
    · simp only [parseMultiC, free_snd, free_fst]
      refine ⟨by omega, by omega, by omega, by omega, fun xs h => ?_⟩
      split at h
      · simp at h
      · simp only [Res.ok.injEq] at h; subst h; simp [marshalLens, visitss]
  | succ fuel ih =>
    refine ⟨fun b => ?_, fun b => ?_⟩
    · intro r
      have hr : r = parseC g (fuel + 1) b := rfl
      rw [parseC] at hr
      cases hh : head b with
      | ok x =>
        obtain ⟨t, n, i, p⟩ := x
        have hl := head_len hh
        simp only at hl
        by_cases hg : g t = true
        · obtain ⟨i1, i2, i5, i3, i4⟩ := ih.2 p
          have hc : r.cost = ⟨(parseMultiC g fuel p).cost.calls + 1, (parseMultiC g fuel p).cost.visits,
              (parseMultiC g fuel p).cost.depth + 1⟩ := by
            rw [hr, call_snd, bind_snd, free_fst, hh]
            simp only [if_pos hg]
            rw [bind_snd]
            cases (parseMultiC g fuel p).res <;> simp [Cost.seq]
          have hv : r.res = (parseMultiC g fuel p).res >>= fun cs => ok (.mk t n i p cs) := by
            rw [hr, call_fst, bind_fst, free_fst, hh]
            simp only [bind_ok, if_pos hg]
            rw [bind_fst]; rfl
          rw [hc]
          refine ⟨by simp only; omega, ?_, ?_, by simp only; omega, fun x hx => ?_⟩
          · have := sq_add (parseMultiC g fuel p).cost.calls 1
            simp only
            omega
          · simp only [Nat.add_mul, Nat.mul_add]
            omega
          · rw [hv] at hx
            obtain ⟨cs, h1, h2⟩ := bind_eq_ok.mp hx
            simp only [Res.ok.injEq] at h2
            subst h2
            have := i4 cs h1
            simp only [IE.marshalLen, visits, if_pos hg]
            omega
        · have hc : r.cost = ⟨1, 0, 1⟩ := by
            rw [hr, call_snd, bind_snd, free_fst, hh]
            simp [if_neg hg, Cost.seq]
          have hv : r.res = ok (.mk t n i p []) := by
            rw [hr, call_fst, bind_fst, free_fst, hh]
            simp [if_neg hg]
          rw [hc, hv]
          refine ⟨by simp, by simp, by simp, by simp; omega, fun x hx => ?_⟩
          simp only [Res.ok.injEq] at hx
          subst hx
          simp [IE.marshalLen, visits, hg]
      | _ =>
        have hc : r.cost = ⟨1, 0, 1⟩ := by rw [hr, call_snd, bind_snd, free_fst, hh]; rfl
        have hv : ∀ x, r.res ≠ ok x := by intro x; rw [hr, call_fst, bind_fst, free_fst, hh]; simp
        rw [hc]
        exact ⟨by simp, by simp, by simp, by simp only; omega, fun x hx => absurd hx (hv x)⟩
    · intro r
      have hr : r = parseMultiC g (fuel + 1) b := rfl
      rw [parseMultiC] at hr
      by_cases hb : b.length > 0
      · rw [if_pos hb] at hr
        obtain ⟨i1, i2, i5, i3, i4⟩ := ih.1 b
        cases h1 : (parseC g fuel b).res with
        | ok x =>
          obtain ⟨j1, j2⟩ := i4 x h1
          cases h2 : sliceFrom b (x.marshalLen g) with
          | ok rest =>
            have hrl : rest.length = b.length - x.marshalLen g ∧ x.marshalLen g ≤ b.length := by
              unfold sliceFrom at h2
              split at h2
              · simp only [Res.ok.injEq] at h2; subst h2; simp; assumption
              · simp at h2
            obtain ⟨k1, k2, k5, k3, k4⟩ := ih.2 rest
            have hc : r.cost = ((parseC g fuel b).cost.seq ⟨0, visits g x, 0⟩).seq (parseMultiC g fuel rest).cost := by
              rw [hr, bind_snd, h1]
              simp only []
              rw [bind_snd, look_fst]
              simp only []
              rw [bind_snd, free_fst, h2]
              simp only []
              rw [bind_snd]
              cases (parseMultiC g fuel rest).res <;> simp [Cost.seq, Nat.add_assoc]
            have hv : r.res = (parseMultiC g fuel rest).res >>= fun xs => ok (x :: xs) := by
              rw [hr, bind_fst, h1, bind_ok, bind_fst, look_fst, bind_ok, bind_fst, free_fst, h2, bind_ok, bind_fst]
              rfl
            rw [hc]
            simp only [Cost.seq, Nat.add_zero, Nat.zero_add]
            refine ⟨by omega, ?_, ?_, by omega, fun xs hx => ?_⟩
            · have := sq_add (parseC g fuel b).cost.calls (parseMultiC g fuel rest).cost.calls
              omega
            · rw [Nat.mul_add]
              have m1 := Nat.mul_le_mul_right (parseC g fuel b).cost.calls
                (Nat.le_max_left (parseC g fuel b).cost.depth (parseMultiC g fuel rest).cost.depth)
              have m2 := Nat.mul_le_mul_right (parseMultiC g fuel rest).cost.calls
                (Nat.le_max_right (parseC g fuel b).cost.depth (parseMultiC g fuel rest).cost.depth)
              rw [Nat.max_zero]
              omega
            · rw [hv] at hx
              obtain ⟨ys, h3, h4⟩ := bind_eq_ok.mp hx
              simp only [Res.ok.injEq] at h4
              subst h4
              have := k4 ys h3
              simp only [marshalLens, visitss]
              omega
          | _ =>
            have hc : r.cost = (parseC g fuel b).cost.seq ⟨0, visits g x, 0⟩ := by
              rw [hr, bind_snd, h1]
              simp only []
              rw [bind_snd, look_fst]
              simp only []
              rw [bind_snd, free_fst, h2]
              simp [Cost.seq]
            have hv : ∀ x, r.res ≠ ok x := by
              intro x
              rw [hr, bind_fst, h1, bind_ok, bind_fst, look_fst, bind_ok, bind_fst, free_fst, h2]
              simp
            rw [hc]
            simp only [Cost.seq, Nat.add_zero, Nat.max_zero]
            refine ⟨by omega, by omega, by omega, by omega, fun x hx => absurd hx (hv x)⟩
        | _ =>
          have hc : r.cost = (parseC g fuel b).cost := by rw [hr, bind_snd, h1]
          have hv : ∀ x, r.res ≠ ok x := by intro x; rw [hr, bind_fst, h1]; simp
          rw [hc]
          refine ⟨by omega, by omega, by omega, by omega, fun x hx => absurd hx (hv x)⟩
      · rw [if_neg hb] at hr
        rw [hr]
        refine ⟨by simp, by simp, by simp, by simp, fun xs hx => ?_⟩
        simp only [pure_fst, Res.ok.injEq] at hx
        subst hx
        simp [marshalLens, visitss]

/-! ### what serialising costs -/

theorem seq_calls (a b : Cost) : (a.seq b).calls = a.calls + b.calls := rfl
theorem seq_visits (a b : Cost) : (a.seq b).visits = a.visits + b.visits := rfl
theorem seq_depth (a b : Cost) : (a.seq b).depth = max a.depth b.depth := rfl

mutual
theorem visits_le : ∀ x : IE, visits g x ≤ nodes x
  | .mk t n i p cs => by
    rw [visits, nodes]
    split
    · have := visitss_le cs; omega
    · omega
theorem visitss_le : ∀ xs : List IE, visitss g xs ≤ nodess xs
  | [] => Nat.le_refl _
  | x :: xs => by
    have := visits_le x
    have := visitss_le xs
    rw [visitss, nodess]; omega
end

mutual
theorem writeC_bound : ∀ (x : IE) (b : Bytes), (writeC g x b).cost.calls ≤ nodes x ∧
    (writeC g x b).cost.visits ≤ 2 + 2 * nodess x.children + 3 * weights x.children ∧ (writeC g x b).cost.depth ≤ height x
  | .mk t n i p cs, b => by
    rw [writeC, call_snd, bind_snd, free_fst, free_snd]
    simp only [nodes, height, IE.children]
    split
    · rename_i b' _
      split
      · obtain ⟨h1, h2, h3⟩ := writesC_bound cs 4 b'
        simp only [Cost.seq, Nat.zero_add, Nat.zero_max]
        exact ⟨by omega, by omega, by omega⟩
      · rename_i hg
        have hv : visits g (.mk t n i p cs) = 1 := by rw [visits, if_neg hg]
        rw [hv, bind_snd, look_fst, look_snd]
        simp only []
        split
        · simp [Cost.seq]; omega
        · rw [bind_snd, look_fst, look_snd]
          simp only [Cost.seq, free_snd, Nat.zero_add, Nat.zero_max, Nat.add_zero, Nat.max_zero]
          exact ⟨by omega, by omega, by omega⟩
    · simp
theorem writesC_bound : ∀ (cs : List IE) (off : Nat) (b : Bytes), (writesC g cs off b).cost.calls ≤ nodess cs ∧
    (writesC g cs off b).cost.visits ≤ 2 * nodess cs + 3 * weights cs ∧ (writesC g cs off b).cost.depth ≤ heights cs
  | [], _, _ => by simp [writesC]
  | c :: cs, off, b => by
    have hv := visits_le g c
    have hwt : weight c = nodes c + weights c.children := by cases c; rfl
    have hnt : nodes c = 1 + nodess c.children := by cases c; rfl
    rw [writesC, bind_snd, look_fst, look_snd]
    simp only [nodess, weights, heights, hwt]
    split
    · simp [Cost.seq]; omega
    · rw [bind_snd, look_fst, look_snd]
      simp only []
      rw [bind_snd, free_fst, free_snd]
      split
      · rename_i s _
        obtain ⟨h1, h2, h3⟩ := writeC_bound c s
        rw [bind_snd]
        split
        · rename_i s' _
          rw [bind_snd, look_fst, look_snd]
          simp only [seq_calls, seq_visits, seq_depth, Nat.zero_add, Nat.zero_max]
          obtain ⟨k1, k2, k3⟩ := writesC_bound cs (off + c.marshalLen g)
            (List.take off b ++ s' ++ List.drop (off + c.marshalLen g) b)
          exact ⟨by omega, by omega, by omega⟩
        · simp only [seq_calls, seq_visits, seq_depth, Nat.zero_add, Nat.zero_max]
          exact ⟨by omega, by omega, by omega⟩
      · simp only [Cost.seq]
        exact ⟨by omega, by omega, by omega⟩
end

mutual
theorem weight_le : ∀ x : IE, weight x ≤ height x * nodes x
  | .mk t n i p cs => by
    rw [weight, nodes, height]
    have := weights_le cs
    simp only [Nat.add_mul, Nat.mul_add]
    omega
theorem weights_le : ∀ xs : List IE, weights xs ≤ heights xs * nodess xs
  | [] => Nat.le_refl _
  | x :: xs => by
    have := weight_le x
    have := weights_le xs
    rw [weights, nodess, heights, Nat.mul_add]
    have m1 := Nat.mul_le_mul_right (nodes x) (Nat.le_max_left (height x) (heights xs))
    have m2 := Nat.mul_le_mul_right (nodess xs) (Nat.le_max_right (height x) (heights xs))
    omega
end

mutual
theorem nodes_enc : ∀ x : IE, wf g x = true → 4 * nodes x ≤ (enc g x).length
  | .mk t n i p cs, h => by
    have := length_enc g (.mk t n i p cs)
    rw [this, nodes, body]
    by_cases hg : g t = true
    · have := nodess_encs cs ((wf_grouped g hg).mp h).2.2
      rw [if_pos hg]; omega
    · rw [if_neg hg, ((wf_plain g hg).mp h).2, nodess]; omega
theorem nodess_encs : ∀ xs : List IE, wfs g xs = true → 4 * nodess xs ≤ (encs g xs).length
  | [], _ => by simp [nodess]
  | x :: xs, h => by
    simp only [wfs, Bool.and_eq_true] at h
    have := nodes_enc x h.1
    have := nodess_encs xs h.2
    rw [nodess, encs, List.length_append]; omega
end

end V2

namespace TLV
open Verif.TLV
variable {c : Cfg}

theorem parseMultiC_fst : ∀ (n : Nat) (b : Bytes), (parseMultiC c n b).res = parseMultiF c n b
  | 0, b => rfl
  | n + 1, b => by
    rw [parseMultiC, parseMultiF]
    split
    · rw [bind_fst, call_fst, bind_fst, look_fst, bind_ok, free_fst]
      congr 1; funext i
      rw [bind_fst, look_fst, bind_ok, bind_fst, free_fst]
      congr 1; funext r
      rw [bind_fst, parseMultiC_fst n r]
      rfl
    · rfl

theorem cost_bound {p : Spec.Proto} (A : Agree c p) : ∀ (n : Nat) (b : Bytes), let r := parseMultiC c n b
    r.cost.calls ≤ b.length ∧ r.cost.visits ≤ 3 * r.cost.calls ∧ r.cost.depth ≤ 1
  | 0, b => by simp [parseMultiC]
  | n + 1, b => by
    intro r
    have hr : r = parseMultiC c (n + 1) b := rfl
    rw [parseMultiC] at hr
    by_cases hb : b.length > 0
    · rw [if_pos hb] at hr
      have h1 : (call (do look 2; free (parse c b) : Costed IE)).cost = ⟨1, 2, 1⟩ := by
        rw [call_snd, bind_snd]; simp [Cost.seq]
      have h2 : (call (do look 2; free (parse c b) : Costed IE)).res = parse c b := by
        rw [call_fst, bind_fst]; rfl
      cases hp : parse c b with
      | ok x =>
        obtain ⟨s, -, -, h3, h4⟩ := parse_step A b x hp
        obtain ⟨i1, i2, i3⟩ := cost_bound A n s
        have hc : r.cost = ((⟨1, 2, 1⟩ : Cost).seq ⟨0, 1, 0⟩).seq (parseMultiC c n s).cost := by
          rw [hr, bind_snd, h2, h1, hp]
          simp only []
          rw [bind_snd, look_fst]
          simp only []
          rw [bind_snd, free_fst, h3]
          simp only []
          rw [bind_snd]
          cases (parseMultiC c n s).res <;> simp [Cost.seq] <;> omega
        rw [hc]
        simp only [Cost.seq]
        exact ⟨by omega, by omega, by omega⟩
      | _ =>
        have hc : r.cost = ⟨1, 2, 1⟩ := by rw [hr, bind_snd, h2, h1, hp]
        rw [hc]
        exact ⟨hb, by simp, by simp⟩
    · rw [if_neg hb] at hr
      rw [hr]; simp

end TLV

theorem extsC_fst : ∀ (n : Nat) (t : UInt8) (b : Bytes), (extsC n t b).res = V1.Ext.parseMultiF n t b
  | 0, _, _ => rfl
  | n + 1, t, b => by
    rw [extsC, V1.Ext.parseMultiF, bind_fst, call_fst, free_fst]
    congr 1; funext eh
    rw [bind_fst, look_fst, bind_ok, bind_fst, free_fst]
    congr 1; funext r
    split
    · rfl
    · rw [bind_fst, extsC_fst n _ r]; rfl

theorem exts_bound : ∀ (n : Nat) (t : UInt8) (b : Bytes), let r := extsC n t b
    4 * r.cost.calls ≤ b.length + 4 ∧ r.cost.visits ≤ r.cost.calls ∧ r.cost.depth ≤ 1
  | 0, _, _ => by simp [extsC]
  | n + 1, t, b => by
    intro r
    have hr : r = extsC (n + 1) t b := rfl
    rw [extsC] at hr
    cases hp : V1.Ext.parse b with
    | ok x =>
      cases h3 : sliceFrom b ({ x with typ := t } : V1.Ext).marshalLen with
      | ok s =>
        have hs : s.length + 4 ≤ b.length := by
          unfold sliceFrom at h3
          have h4 : 4 ≤ ({ x with typ := t } : V1.Ext).marshalLen := by
            simp only [V1.Ext.marshalLen, V1.pad4Len]; omega
          split at h3
          · simp only [Res.ok.injEq] at h3; subst h3; simp; omega
          · simp at h3
        obtain ⟨i1, i2, i3⟩ := exts_bound n x.next s
        have hc : r.cost = ⟨1, 1, 1⟩ ∨ r.cost = (⟨1, 1, 1⟩ : Cost).seq (extsC n x.next s).cost := by
          rw [hr, bind_snd, call_fst, call_snd, free_fst, free_snd, hp]
          simp only []
          rw [bind_snd, look_fst, look_snd]
          simp only []
          rw [bind_snd, free_fst, free_snd, h3]
          simp only []
          split
          · left; simp [Cost.seq]
          · right
            rw [bind_snd]
            cases (extsC n x.next s).res <;> simp [Cost.seq]
        rcases hc with hc | hc <;> rw [hc]
        · exact ⟨by simp, by simp, by simp⟩
        · simp only [Cost.seq]
          exact ⟨by omega, by omega, by omega⟩
      | _ =>
        have hc : r.cost = ⟨1, 1, 1⟩ := by
          rw [hr, bind_snd, call_fst, call_snd, free_fst, free_snd, hp]
          simp only []
          rw [bind_snd, look_fst, look_snd]
          simp only []
          rw [bind_snd, free_fst, free_snd, h3]
          simp [Cost.seq]
        rw [hc]
        exact ⟨by simp, by simp, by simp⟩
    | _ =>
      have hc : r.cost = ⟨1, 0, 1⟩ := by
        rw [hr, bind_snd, call_fst, call_snd, free_fst, free_snd, hp]
      rw [hc]
      exact ⟨by simp, by simp, by simp⟩

end Verif.Cost
