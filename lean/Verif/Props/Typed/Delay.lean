import Verif.Model.Typed.Delay
import Verif.Props.Typed.Time
/-
Property theorems C50 for the constructor of Delay Value from a duration.
-/
namespace Verif.F64

/-! ### rounding is monotone -/

theorem near_mono {p p' q : Nat} (hq : 0 < q) (h : p ≤ p') : near p q ≤ near p' q := by
  have h1 := Nat.div_add_mod p q
  have h2 := Nat.div_add_mod p' q
  have l1 := Nat.mod_lt p hq
  have l2 := Nat.mod_lt p' hq
  have hm : p / q ≤ p' / q := Nat.div_le_div_right h
  unfold near
  by_cases e : p / q = p' / q
  · have hr : p % q ≤ p' % q := by rw [e] at h1; omega
    simp only [e]
    split <;> split <;> omega
  · simp only
    split <;> split <;> omega

theorem near_le {p q b : Nat} (hq : 0 < q) (h : p ≤ b * q) : near p q ≤ b := by
  have := near_mono hq h
  have e : near (b * q) q = b := by
    unfold near
    rw [Nat.mul_div_cancel _ hq, Nat.mul_mod_left]
    simp; omega
  omega

theorem le_near {p q b : Nat} (hq : 0 < q) (h : b * q ≤ p) : b ≤ near p q := by
  have := near_mono hq h
  have e : near (b * q) q = b := by
    unfold near
    rw [Nat.mul_div_cancel _ hq, Nat.mul_mod_left]
    simp; omega
  omega

theorem rnd_mono {p p' q : Nat} (hq : 0 < q) (h : p ≤ p') : rnd p q ≤ rnd p' q := by
  have hm : p / q ≤ p' / q := Nat.div_le_div_right h
  have hlog : Nat.log2 (p / q) ≤ Nat.log2 (p' / q) := by
    by_cases h0 : p / q = 0
    · simp [h0, Nat.log2_zero]
    · have h1 : p' / q ≠ 0 := fun e => h0 (Nat.le_zero.mp (e ▸ hm))
      rw [Nat.le_log2 h1]
      exact Nat.le_trans (Nat.log2_self_le h0) hm
  unfold rnd
  generalize hk : Nat.log2 (p / q) + 1 - 53 = k
  generalize hk' : Nat.log2 (p' / q) + 1 - 53 = k'
  have hkk : k ≤ k' := by omega
  by_cases e : k = k'
  · subst e
    exact Nat.mul_le_mul_right _ (near_mono (Nat.mul_pos hq (Nat.two_pow_pos k)) h)
  · -- the upper one is at least 2^(52 + k'), the lower one at most 2^(53 + k)
    have hlt : p / q < 2 ^ (Nat.log2 (p / q) + 1) := Nat.lt_log2_self
    have a1 : near p (q * 2 ^ k) ≤ 2 ^ 53 := by
      apply near_le (Nat.mul_pos hq (Nat.two_pow_pos k))
      have : p < q * 2 ^ (Nat.log2 (p / q) + 1) := by
        have := (Nat.div_lt_iff_lt_mul hq).mp hlt
        rw [Nat.mul_comm]; exact this
      have hp : 2 ^ (Nat.log2 (p / q) + 1) ≤ 2 ^ (53 + k) := Nat.pow_le_pow_right (by decide) (by omega)
      have : p ≤ q * 2 ^ (53 + k) := Nat.le_trans (Nat.le_of_lt this) (Nat.mul_le_mul_left _ hp)
      rw [Nat.pow_add] at this
      calc p ≤ q * (2 ^ 53 * 2 ^ k) := this
        _ = 2 ^ 53 * (q * 2 ^ k) := by rw [Nat.mul_left_comm]
    have a2 : 2 ^ 52 ≤ near p' (q * 2 ^ k') := by
      apply le_near (Nat.mul_pos hq (Nat.two_pow_pos k'))
      have h0 : p' / q ≠ 0 := by
        intro h0; simp [h0, Nat.log2_zero] at hk'; omega
      have : 2 ^ Nat.log2 (p' / q) ≤ p' / q := Nat.log2_self_le h0
      have he : Nat.log2 (p' / q) = 52 + k' := by omega
      rw [he, Nat.pow_add] at this
      have := (Nat.le_div_iff_mul_le hq).mp this
      calc 2 ^ 52 * (q * 2 ^ k') = 2 ^ 52 * 2 ^ k' * q := by rw [Nat.mul_assoc, Nat.mul_comm q]
        _ ≤ p' := this
    calc near p (q * 2 ^ k) * 2 ^ k ≤ 2 ^ 53 * 2 ^ k := Nat.mul_le_mul_right _ a1
      _ = 2 ^ 52 * 2 ^ (k + 1) := by rw [Nat.pow_succ]; omega
      _ ≤ 2 ^ 52 * 2 ^ k' := Nat.mul_le_mul_left _ (Nat.pow_le_pow_right (by decide) (by omega))
      _ ≤ near p' (q * 2 ^ k') * 2 ^ k' := Nat.mul_le_mul_right _ a2

theorem one_eq : ∃ E, E = 1074 ∧ one = 2 ^ E := ⟨1074, rfl, by rw [one]⟩
theorem one_pos : 0 < one := by obtain ⟨E, _, h⟩ := one_eq; rw [h]; exact Nat.two_pow_pos _

/-! ### rounding a representable number, and a fraction that can be reduced -/

theorem near_mul (b : Nat) {q : Nat} (hq : 0 < q) : near (b * q) q = b := by
  unfold near
  rw [Nat.mul_div_cancel _ hq, Nat.mul_mod_left]
  simp; omega

theorem near_scale (p : Nat) {q c : Nat} (hc : 0 < c) : near (p * c) (q * c) = near p q := by
  unfold near
  rw [Nat.mul_div_mul_right _ _ hc, Nat.mul_mod_mul_right]
  have e1 : 2 * (p % q * c) > q * c ↔ 2 * (p % q) > q := by
    rw [← Nat.mul_assoc]; exact Nat.mul_lt_mul_right hc
  have e2 : 2 * (p % q * c) = q * c ↔ 2 * (p % q) = q := by
    rw [← Nat.mul_assoc]; exact Nat.mul_left_inj (by omega)
  simp only [e1, e2]

theorem rnd_scale (p : Nat) {q c : Nat} (hc : 0 < c) : rnd (p * c) (q * c) = rnd p q := by
  unfold rnd
  rw [Nat.mul_div_mul_right _ _ hc]
  simp only
  rw [Nat.mul_right_comm q c, near_scale p hc]

theorem ofNat_exact {n : Nat} (h : n < 2 ^ 53) : ofNat n = n * one := by
  obtain ⟨E, _, hE⟩ := one_eq
  unfold ofNat rnd
  simp only [Nat.div_one, Nat.one_mul, hE]
  generalize hk : Nat.log2 (n * 2 ^ E) + 1 - 53 = k
  have hk' : k ≤ E := by
    by_cases h0 : n * 2 ^ E = 0
    · rw [h0, Nat.log2_zero] at hk; omega
    · have : Nat.log2 (n * 2 ^ E) < 53 + E := by
        rw [Nat.log2_lt h0, Nat.pow_add]
        exact Nat.mul_lt_mul_of_pos_right h (Nat.two_pow_pos _)
      omega
  have e : n * 2 ^ E = n * 2 ^ (E - k) * 2 ^ k := by
    rw [Nat.mul_assoc, ← Nat.pow_add, Nat.sub_add_cancel hk']
  rw [e, near_mul _ (Nat.two_pow_pos k)]

/-! ### the same functions by arithmetic alone, for the kernel -/

def nearA (p q : Nat) : Nat := (2 * p + q) / (2 * q) - (1 - (2 * p + q) % (2 * q)) * ((2 * p + q) / (2 * q) % 2)
def rndA (p q : Nat) : Nat := nearA p (q * 2 ^ (Nat.log2 (p / q) + 1 - 53)) * 2 ^ (Nat.log2 (p / q) + 1 - 53)

theorem nearA_eq {p q : Nat} (hq : 0 < q) : nearA p q = near p q := by
  have h1 := Nat.div_add_mod p q
  have l1 := Nat.mod_lt p hq
  unfold nearA near
  generalize p / q = m at *
  generalize p % q = r at *
  have key : ∀ a b, 2 * r + q = 2 * q * a + b → b < 2 * q → (2 * p + q) / (2 * q) = m + a ∧ (2 * p + q) % (2 * q) = b := by
    intro a b hab hb
    have e : 2 * p + q = b + 2 * q * (m + a) := by
      rw [Nat.mul_add, ← h1, Nat.mul_add, ← Nat.mul_assoc]; omega
    rw [e]
    refine ⟨?_, ?_⟩
    · rw [Nat.add_mul_div_left _ _ (by omega), Nat.div_eq_of_lt hb, Nat.zero_add]
    · rw [Nat.add_mul_mod_self_left, Nat.mod_eq_of_lt hb]
  by_cases hc : 2 * r < q
  · obtain ⟨a, b⟩ := key 0 (2 * r + q) (by simp) (by omega)
    rw [a, b, if_neg (by omega), show 1 - (2 * r + q) = 0 by omega]; simp
  · obtain ⟨a, b⟩ := key 1 (2 * r - q) (by omega) (by omega)
    rw [a, b]
    by_cases he : 2 * r = q
    · rw [he, Nat.sub_self]; simp only; split <;> omega
    · rw [if_pos (by omega), show 1 - (2 * r - q) = 0 by omega]; simp

theorem rndA_eq {p q : Nat} (hq : 0 < q) : rndA p q = rnd p q := by
  rw [rndA, nearA_eq (Nat.mul_pos hq (Nat.two_pow_pos _))]; rfl

end Verif.F64

namespace Verif.V2
open Res F64 Duration

theorem ofNat50_pos : 0 < F64.ofNat 50 := by rw [ofNat_exact (by decide)]; exact Nat.mul_pos (by decide) one_pos
theorem ofNat9_pos : 0 < F64.ofNat 1000000000 := by
  rw [ofNat_exact (by decide)]; exact Nat.mul_pos (by decide) one_pos

/-- within one second a longer delay does not yield a smaller number -/
theorem delayF_mono {d d' : Nat} (hs : d / 1000000000 = d' / 1000000000) (h : d ≤ d') : delayF d ≤ delayF d' := by
  have hm : d % 1000000000 ≤ d' % 1000000000 := by omega
  unfold delayF secondsF
  rw [hs]
  apply rnd_mono ofNat50_pos
  apply Nat.mul_le_mul_right
  apply rnd_mono one_pos
  apply Nat.mul_le_mul_right
  apply rnd_mono (by decide)
  apply Nat.add_le_add_left
  apply rnd_mono ofNat9_pos
  apply Nat.mul_le_mul_right
  apply rnd_mono (by decide)
  exact Nat.mul_le_mul_right _ hm

def delayA (u d : Nat) : Nat := rndA (rndA (rndA (d / 1000000000 * u + rndA (d % 1000000000 * u) 1000000000) 1 * 1000) 1) 50 / u

theorem delayA_eq {d : Nat} (h : d < 12800000000) : delayA one d = trunc (delayF d) := by
  have h1 : d / 1000000000 < 2 ^ 53 := by omega
  have h2 : d % 1000000000 < 2 ^ 53 := by omega
  unfold delayA trunc delayF secondsF F64.div F64.mul F64.add
  rw [ofNat_exact h1, ofNat_exact h2, ofNat_exact (n := 1000000000) (by decide), ofNat_exact (n := 1000) (by decide),
    ofNat_exact (n := 50) (by decide)]
  have hm : ∀ s, rnd (s * (1000 * one)) one = rnd (s * 1000) 1 := by
    intro s
    have := rnd_scale (q := 1) (s * 1000) one_pos
    rwa [Nat.one_mul, Nat.mul_assoc] at this
  rw [hm, rnd_scale _ one_pos, rnd_scale _ one_pos, rndA_eq (by decide), rndA_eq (by decide), rndA_eq (by decide),
    rndA_eq (by decide)]

def endsOK (k : Nat) : Bool :=
  Nat.beq (delayA one (k * 50000000)) k && Nat.beq (delayA one (k * 50000000 + 49999999)) k

/-- the ends of the 256 intervals of 50 ms -/
theorem ends0 : ∀ k : Fin 64, endsOK k = true := by decide +kernel
theorem ends1 : ∀ k : Fin 64, endsOK (64 + k) = true := by decide +kernel
theorem ends2 : ∀ k : Fin 64, endsOK (128 + k) = true := by decide +kernel
theorem ends3 : ∀ k : Fin 64, endsOK (192 + k) = true := by decide +kernel
theorem ends {k : Nat} (h : k < 256) : endsOK k = true := by
  by_cases h0 : k < 64
  · exact ends0 ⟨k, h0⟩
  by_cases h1 : k < 128
  · have := ends1 ⟨k - 64, by omega⟩; rwa [show 64 + (k - 64) = k by omega] at this
  by_cases h2 : k < 192
  · have := ends2 ⟨k - 128, by omega⟩; rwa [show 128 + (k - 128) = k by omega] at this
  · have := ends3 ⟨k - 192, by omega⟩; rwa [show 192 + (k - 192) = k by omega] at this
theorem delayF_ends (k : Fin 256) : trunc (delayF (k.val * 50000000)) = k.val ∧
    trunc (delayF (k.val * 50000000 + 49999999)) = k.val := by
  have := ends k.isLt
  rw [endsOK, Bool.and_eq_true] at this
  rw [← delayA_eq (by omega), ← delayA_eq (by omega)]; exact ⟨Nat.eq_of_beq_eq_true this.1, Nat.eq_of_beq_eq_true this.2⟩

theorem delayF_eq {d : Nat} (h : d < 12800000000) : trunc (delayF d) = d / 50000000 := by
  have hk : d / 50000000 < 256 := by omega
  obtain ⟨h1, h2⟩ := delayF_ends ⟨d / 50000000, hk⟩
  simp only at h1 h2
  have l1 : trunc (delayF (d / 50000000 * 50000000)) ≤ trunc (delayF d) :=
    Nat.div_le_div_right (delayF_mono (by omega) (by omega))
  have l2 : trunc (delayF d) ≤ trunc (delayF (d / 50000000 * 50000000 + 49999999)) :=
    Nat.div_le_div_right (delayF_mono (by omega) (by omega))
  omega

/-- C50, Delay Value (TS 29.274 8.27: integer multiples of 50 ms): the constructor writes the number of whole 50 ms of every delay
below 12.8 s, in spite of the rounding of float64 -/
theorem C50_new_delay_value {d : Duration} (h0 : 0 ≤ d) (h1 : d < 12800 * 1000000) (n : UInt8) :
    ∃ i, newDelayValue d = some i ∧ (i.withInstance n).typ = 92 ∧ (i.withInstance n).payload = [UInt8.ofNat (d.toNat / 50000000)] ∧
      (d.toNat / 50000000 < 256) := by
  have hd : d.toNat < 12800000000 := by simp only [Duration] at *; omega
  have e := delayF_eq hd
  have hk : d.toNat / 50000000 < 256 := by omega
  refine ⟨newUint8IE 92 (UInt8.ofNat (d.toNat / 50000000)), ?_, rfl, rfl, hk⟩
  rw [newDelayValue, e, if_pos ⟨h0, hk⟩]

/-- C50: so the octet stands for the delay itself when it is a multiple of 50 ms, and for the next smaller multiple otherwise -/
theorem C50_new_delay_multiple (k : UInt8) : newDelayValue (k.toNat * 50000000 : Int) = some (newDelayValueRaw k) := by
  have hk := k.toNat_lt
  have e := delayF_eq (d := k.toNat * 50000000) (by omega)
  rw [Nat.mul_div_cancel _ (by decide)] at e
  have ht : ((k.toNat * 50000000 : Int)).toNat = k.toNat * 50000000 := by
    rw [show ((k.toNat : Int) * 50000000) = ((k.toNat * 50000000 : Nat) : Int) by simp, Int.toNat_natCast]
  rw [newDelayValue, ht, e, if_pos ⟨Int.mul_nonneg (Int.natCast_nonneg _) (by decide), hk⟩]
  simp [newDelayValueRaw]

example : trunc (delayF 1234567890) = 24 := (delayA_eq (by decide)).symm.trans (by decide +kernel)

end Verif.V2

/-! ### cases that meet the hypotheses -/

namespace Verif.V2
open Res F64 Duration
example := C50_new_delay_value (d := 1234567890) (by decide) (by decide) 0
end Verif.V2
