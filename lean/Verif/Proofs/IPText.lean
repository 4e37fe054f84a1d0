import Verif.Model.IPText
import Verif.Spec.IPText
/-
Lemmas on the reading and writing of addresses as text.
-/
namespace Verif.NetIP
open IPSpec

/-! ### decimal fields -/

abbrev decStep (v : Nat) (c : UInt8) : Nat := v * 10 + (c.toNat - 48)

theorem isDigit_iff (c : UInt8) : isDigit c = true ↔ 48 ≤ c ∧ c ≤ 57 := by simp [isDigit]

theorem digit_ne_dot {c : UInt8} (h : isDigit c = true) : c ≠ dot := by
  rintro rfl; exact absurd h (by decide)

theorem decStep_mono (t : Bytes) : ∀ v, v ≤ t.foldl decStep v := by
  induction t with
  | nil => intro v; exact Nat.le_refl _
  | cons c t ih => intro v; exact Nat.le_trans (by simp only [decStep]; omega) (ih _)

theorem toNat_gt_48 {c : UInt8} (h : 48 ≤ c) (hn : c ≠ 48) : 48 < c.toNat := by
  have h1 : (48 : UInt8).toNat ≤ c.toNat := UInt8.le_iff_toNat_le.mp h
  have h2 : c.toNat ≠ (48 : UInt8).toNat := fun e => hn (UInt8.toNat_inj.mp e)
  simp at h1 h2
  omega

/-- the digits of a field are read one after another -/
theorem v4Loop_digits (rest : Bytes) (fs : Bytes) (t : Bytes) : ∀ (prev : Option UInt8) (val dl : Nat), t ≠ [] →
    (∀ c ∈ t, isDigit c = true) → t.foldl decStep val ≤ 255 →
    (dl = 0 → val = 0 ∧ (t.head? = some 48 → t.length = 1)) → (dl ≠ 0 → val ≠ 0) →
    ∃ c, isDigit c = true ∧ v4Loop (t ++ rest) prev val dl fs = v4Loop rest (some c) (t.foldl decStep val) (dl + t.length) fs := by
  induction t with
  | nil => intro _ _ _ h; exact absurd rfl h
  | cons c t ih =>
    intro prev val dl _ hd hv h0 h1
    have hc := hd c (by simp)
    have hle : decStep val c ≤ 255 := Nat.le_trans (decStep_mono t _) hv
    have e : v4Loop (c :: t ++ rest) prev val dl fs = v4Loop (t ++ rest) (some c) (decStep val c) (dl + 1) fs := by
      rw [List.cons_append, v4Loop, if_pos hc, if_neg (by rintro ⟨h, h'⟩; exact h1 (by omega) h')]
      simp only []
      rw [if_neg (by simp only [decStep] at hle; omega)]
    by_cases ht : t = []
    · subst ht
      refine ⟨c, hc, ?_⟩
      rw [e]; rfl
    · obtain ⟨c', hc', e'⟩ := ih (some c) (decStep val c) (dl + 1) ht (fun x hx => hd x (by simp [hx])) hv (by omega) (by
        intro _ hz
        by_cases hdl : dl = 0
        · obtain ⟨hv0, hl⟩ := h0 hdl
          have hne : c ≠ 48 := by
            rintro rfl
            have := hl rfl
            simp only [List.length_cons] at this
            exact ht (List.length_eq_zero_iff.mp (by omega))
          have := toNat_gt_48 ((isDigit_iff c).mp hc).1 hne
          simp only [decStep] at hz; omega
        · have := h1 hdl
          simp only [decStep] at hz; omega)
      refine ⟨c', hc', ?_⟩
      rw [e, e']
      simp only [List.foldl_cons, List.length_cons]
      congr 1; omega

theorem _root_.Verif.IPSpec.IsDec.digits {t : Bytes} {n : UInt8} (h : IsDec t n) : ∀ c ∈ t, isDigit c = true :=
  fun c hc => (isDigit_iff c).mpr (h.dig c hc)

/-- a decimal number followed by a dot and more -/
theorem v4Loop_dec_dot {t : Bytes} {n : UInt8} (h : IsDec t n) (s fs : Bytes) (prev : Option UInt8) (hs : s ≠ [])
    (hf : fs.length < 3) : v4Loop (t ++ dot :: s) prev 0 0 fs = v4Loop s (some dot) 0 0 (fs ++ [n]) := by
  obtain ⟨c, hc, e⟩ := v4Loop_digits (dot :: s) fs t prev 0 0 h.ne h.digits (by rw [h.val]; have := n.toNat_lt; omega)
    (fun _ => ⟨rfl, h.lead⟩) (fun h => absurd rfl h)
  rw [e, v4Loop, if_neg (by decide), if_pos rfl, if_neg (by simp [hs, digit_ne_dot hc]), if_neg (by omega), h.val]
  simp

/-- a decimal number at the end -/
theorem v4Loop_dec_end {t : Bytes} {n : UInt8} (h : IsDec t n) (fs : Bytes) (prev : Option UInt8)
    (hf : fs.length = 3) : v4Loop t prev 0 0 fs = some (fs ++ [n]) := by
  obtain ⟨c, hc, e⟩ := v4Loop_digits [] fs t prev 0 0 h.ne h.digits (by rw [h.val]; have := n.toNat_lt; omega)
    (fun _ => ⟨rfl, h.lead⟩) (fun h => absurd rfl h)
  rw [List.append_nil] at e
  rw [e, v4Loop, if_neg (by omega), h.val]
  simp

theorem v4Fields_of {t v : Bytes} (h : IsV4 t v) : v4Fields t = some v := by
  obtain ⟨a, b, c, d, ta, tb, tc, td, rfl, ha, hb, hc, hd, rfl⟩ := h
  have n1 := hb.ne
  have n2 := hc.ne
  have n3 := hd.ne
  have e1 := v4Loop_dec_dot ha (tb ++ 46 :: (tc ++ 46 :: td)) [] none (by simp) (by simp)
  have e2 := v4Loop_dec_dot hb (tc ++ 46 :: td) [a] (some dot) (by simp) (by simp)
  have e3 := v4Loop_dec_dot hc td [a, b] (some dot) n3 (by simp)
  have e4 := v4Loop_dec_end hd [a, b, c] (some dot) rfl
  simp only [dot, List.nil_append, List.cons_append] at e1 e2 e3 e4
  rw [v4Fields, e1, e2, e3, e4]

/-- the text of the fields read so far -/
def dotted (fs : List (Bytes × UInt8)) : Bytes := fs.flatMap (fun p => p.1 ++ [dot])

/-- what is accepted is in dotted decimal: the fields read (`fs`, with their texts) and the digits `t` of the current one -/
theorem v4Loop_sound (s : Bytes) : ∀ (prev : Option UInt8) (val dl : Nat) (fs : List (Bytes × UInt8)) (t v : Bytes),
    (∀ p ∈ fs, IsDec p.1 p.2) → (∀ c ∈ t, isDigit c = true) → t.foldl decStep 0 = val → val ≤ 255 → dl = t.length →
    (t.head? = some 48 → t.length = 1) → (t = [] → s = [] → fs = []) → (t = [] → prev = none ∨ prev = some dot) →
    fs.length ≤ 3 → v4Loop s prev val dl (fs.map (·.2)) = some v →
    ∃ gs : List (Bytes × UInt8), ∃ u n, (∀ p ∈ gs, IsDec p.1 p.2) ∧ IsDec u n ∧ gs.length = 3 ∧
      v = gs.map (·.2) ++ [n] ∧ dotted fs ++ t ++ s = dotted gs ++ u := by
  induction s with
  | nil =>
    intro prev val dl fs t v hfs hd hv hle hdl hlead hne _ h3 h
    rw [v4Loop] at h
    split at h
    · simp at h
    · rename_i hl
      have hl3 : ¬ fs.length < 3 := by simpa using hl
      have htne : t ≠ [] := by
        intro ht
        have := hne ht rfl
        subst this
        simp at hl3
      simp only [Option.some.injEq] at h
      refine ⟨fs, t, UInt8.ofNat val, hfs, ⟨htne, fun c hc => (isDigit_iff c).mp (hd c hc), ?_, hlead⟩, by omega, h.symm, by simp⟩
      rw [UInt8.toNat_ofNat_of_lt' (by show val < 256; omega)]; exact hv
  | cons c s ih =>
    intro prev val dl fs t v hfs hd hv hle hdl hlead hne hp h3 h
    rw [v4Loop] at h
    split at h
    · rename_i hc
      split at h
      · simp at h
      · rename_i hz
        simp only [] at h
        split at h
        · simp at h
        · rename_i h255
          obtain ⟨gs, u, n, a1, a2, a3, a4, a5⟩ := ih (some c) (val * 10 + (c.toNat - 48)) (dl + 1) fs (t ++ [c]) v hfs
            (by intro x hx; rcases List.mem_append.mp hx with hx | hx; exact hd x hx; simp at hx; subst hx; exact hc)
            (by rw [List.foldl_append, hv]; rfl) (by omega) (by simp; omega)
            (by
              intro hh
              cases t with
              | nil => rfl
              | cons a t =>
                exfalso
                simp only [List.cons_append, List.head?_cons, Option.some.injEq] at hh
                subst hh
                have hl1 := hlead rfl
                have ht : t = [] := List.length_eq_zero_iff.mp (by simpa using hl1)
                subst ht
                exact hz ⟨by simpa using hdl, by rw [← hv]; rfl⟩)
            (by intro hh; simp at hh) (by intro hh; simp at hh) h3 h
          exact ⟨gs, u, n, a1, a2, a3, a4, by rw [← a5]; simp⟩
    · split at h
      · rename_i hc hdot
        subst hdot
        split at h
        · simp at h
        · rename_i hn
          have hprev : prev ≠ none ∧ s ≠ [] ∧ prev ≠ some dot := by
            refine ⟨fun e => hn (.inl e), fun e => hn (.inr (.inl e)), fun e => hn (.inr (.inr e))⟩
          have htne : t ≠ [] := fun ht => by
            rcases hp ht with e | e
            · exact hprev.1 e
            · exact hprev.2.2 e
          split at h
          · simp at h
          · rename_i hl3
            have hl3' : fs.length ≠ 3 := by simpa using hl3
            have hdec : IsDec t (UInt8.ofNat val) := ⟨htne, fun c hc => (isDigit_iff c).mp (hd c hc), by
              rw [UInt8.toNat_ofNat_of_lt' (by show val < 256; omega)]; exact hv, hlead⟩
            obtain ⟨gs, u, n, a1, a2, a3, a4, a5⟩ := ih (some dot) 0 0 (fs ++ [(t, UInt8.ofNat val)]) [] v
              (by intro p hp; rcases List.mem_append.mp hp with hp | hp; exact hfs p hp; simp at hp; subst hp; exact hdec)
              (by simp) rfl (by omega) rfl (by simp) (fun _ e => absurd e hprev.2.1) (fun _ => .inr rfl)
              (by simp; omega) (by simpa using h)
            exact ⟨gs, u, n, a1, a2, a3, a4, by rw [← a5]; simp [dotted]⟩
      · simp at h

theorem v4Fields_iff (t v : Bytes) : v4Fields t = some v ↔ IsV4 t v := by
  refine ⟨fun h => ?_, v4Fields_of⟩
  obtain ⟨gs, u, n, a1, a2, a3, a4, a5⟩ := v4Loop_sound t none 0 0 [] [] v (by simp) (by simp) rfl (by omega) rfl (by simp)
    (fun _ _ => rfl) (fun _ => .inl rfl) (by simp) h
  match gs, a3 with
  | [(ta, a), (tb, b), (tc, c)], _ =>
    refine ⟨a, b, c, n, ta, tb, tc, u, a4, a1 (ta, a) (by simp), a1 (tb, b) (by simp), a1 (tc, c) (by simp), a2, ?_⟩
    simpa [dotted, dot] using a5

theorem dec8_isDec : ∀ n : UInt8, IsDec (dec8 n) n := by
  have h : ∀ n : UInt8, dec8 n ≠ [] ∧ (∀ c ∈ dec8 n, 48 ≤ c ∧ c ≤ 57) ∧
      (dec8 n).foldl decStep 0 = n.toNat ∧ ((dec8 n).head? = some 48 → (dec8 n).length = 1) :=
    forall_byte (by decide +kernel)
  exact fun n => ⟨(h n).1, (h n).2.1, (h n).2.2.1, (h n).2.2.2⟩

theorem digit_cases {c : UInt8} (h : 48 ≤ c ∧ c ≤ 57) : ∃ d : Fin 10, c = UInt8.ofNat (48 + d.val) := by
  have h1 : 48 ≤ c.toNat := UInt8.le_iff_toNat_le.mp h.1
  have h2 : c.toNat ≤ 57 := UInt8.le_iff_toNat_le.mp h.2
  refine ⟨⟨c.toNat - 48, by omega⟩, ?_⟩
  apply UInt8.toNat_inj.mp
  rw [UInt8.toNat_ofNat_of_lt' (by show 48 + (c.toNat - 48) < 256; omega)]
  show c.toNat = 48 + (c.toNat - 48)
  omega

theorem dec8_1 : ∀ x : Fin 10, [UInt8.ofNat (48 + x.val)] = dec8 (UInt8.ofNat x.val) ∧
    [UInt8.ofNat (48 + x.val)].foldl (fun v c => v * 10 + (c.toNat - 48)) 0 = (UInt8.ofNat x.val).toNat := by decide
theorem dec8_2 : ∀ x y : Fin 10, x ≠ 0 →
    [UInt8.ofNat (48 + x.val), UInt8.ofNat (48 + y.val)] = dec8 (UInt8.ofNat (10 * x.val + y.val)) ∧
    [UInt8.ofNat (48 + x.val), UInt8.ofNat (48 + y.val)].foldl (fun v c => v * 10 + (c.toNat - 48)) 0 =
      (UInt8.ofNat (10 * x.val + y.val)).toNat := by decide +kernel
theorem dec8_3 : ∀ x y z : Fin 10, x ≠ 0 → 100 * x.val + 10 * y.val + z.val < 256 →
    [UInt8.ofNat (48 + x.val), UInt8.ofNat (48 + y.val), UInt8.ofNat (48 + z.val)] =
      dec8 (UInt8.ofNat (100 * x.val + 10 * y.val + z.val)) := by decide +kernel
theorem decVal_3 : ∀ x y z : Fin 10,
    [UInt8.ofNat (48 + x.val), UInt8.ofNat (48 + y.val), UInt8.ofNat (48 + z.val)].foldl
        (fun v c => v * 10 + (c.toNat - 48)) 0 = 100 * x.val + 10 * y.val + z.val := by decide +kernel

theorem isDec_unique {t : Bytes} {n : UInt8} (h : IsDec t n) : t = dec8 n := by
  have hv := h.val
  have hn := n.toNat_lt
  match t, h with
  | [], h => exact absurd rfl h.ne
  | [a], h =>
    obtain ⟨x, rfl⟩ := digit_cases (h.dig a (by simp))
    rw [(dec8_1 x).1, show n = UInt8.ofNat x.val from UInt8.toNat_inj.mp (by rw [← hv, (dec8_1 x).2])]
  | [a, b], h =>
    obtain ⟨x, rfl⟩ := digit_cases (h.dig a (by simp))
    obtain ⟨y, rfl⟩ := digit_cases (h.dig b (by simp))
    have hx : x ≠ 0 := by rintro rfl; have := h.lead rfl; simp at this
    rw [(dec8_2 x y hx).1, show n = UInt8.ofNat (10 * x.val + y.val) from
      UInt8.toNat_inj.mp (by rw [← hv, (dec8_2 x y hx).2])]
  | [a, b, c], h =>
    obtain ⟨x, rfl⟩ := digit_cases (h.dig a (by simp))
    obtain ⟨y, rfl⟩ := digit_cases (h.dig b (by simp))
    obtain ⟨z, rfl⟩ := digit_cases (h.dig c (by simp))
    have hx : x ≠ 0 := by rintro rfl; have := h.lead rfl; simp at this
    rw [decVal_3] at hv
    rw [dec8_3 x y z hx (by omega), show n = UInt8.ofNat (100 * x.val + 10 * y.val + z.val) from
      UInt8.toNat_inj.mp (by rw [← hv, UInt8.toNat_ofNat_of_lt' (by show _ < 256; omega)])]
  | a :: b :: c :: d :: t, h =>
    exfalso
    have hx : a ≠ 48 := by rintro rfl; have := h.lead rfl; simp at this
    have := toNat_gt_48 (h.dig a (by simp)).1 hx
    have := decStep_mono t (decStep (decStep (decStep (decStep 0 a) b) c) d)
    rw [List.foldl_cons, List.foldl_cons, List.foldl_cons, List.foldl_cons] at hv
    have hv' : t.foldl decStep (decStep (decStep (decStep (decStep 0 a) b) c) d) = n.toNat := hv
    rw [hv'] at this
    simp only [decStep] at this
    omega

theorem isV4_str4 (a b c d : UInt8) : IsV4 (str4 [a, b, c, d]) [a, b, c, d] :=
  ⟨a, b, c, d, _, _, _, _, rfl, dec8_isDec a, dec8_isDec b, dec8_isDec c, dec8_isDec d, by simp [str4, dot]⟩

theorem isV4_unique {t v : Bytes} (h : IsV4 t v) : t = str4 v := by
  obtain ⟨a, b, c, d, ta, tb, tc, td, rfl, ha, hb, hc, hd, rfl⟩ := h
  rw [isDec_unique ha, isDec_unique hb, isDec_unique hc, isDec_unique hd]
  simp [str4, dot]

/-! ### groups -/

theorem hexVal_iff (c : UInt8) (d : Nat) : hexVal c = some d ↔ IsHexDigit c d := by
  constructor
  · intro h
    unfold hexVal at h
    split at h
    · rename_i h1
      obtain ⟨a, b⟩ := (isDigit_iff c).mp h1
      simp only [Option.some.injEq] at h; subst h; exact .num c a b
    · split at h
      · rename_i h1
        simp only [Option.some.injEq] at h
        have : c.toNat - 97 + 10 = c.toNat - 87 := by
          have : 97 ≤ c.toNat := UInt8.le_iff_toNat_le.mp h1.1
          omega
        rw [← h, this]; exact .low c h1.1 h1.2
      · split at h
        · rename_i h1
          simp only [Option.some.injEq] at h
          have : c.toNat - 65 + 10 = c.toNat - 55 := by
            have : 65 ≤ c.toNat := UInt8.le_iff_toNat_le.mp h1.1
            omega
          rw [← h, this]; exact .up c h1.1 h1.2
        · simp at h
  · intro h
    cases h with
    | num h1 h2 => rw [hexVal, if_pos ((isDigit_iff c).mpr ⟨h1, h2⟩)]
    | low h1 h2 =>
      exact (forall_byte (p := fun c => 97 ≤ c → c ≤ 102 → hexVal c = some (c.toNat - 87)) (by decide +kernel)) c h1 h2
    | up h1 h2 =>
      exact (forall_byte (p := fun c => 65 ≤ c → c ≤ 70 → hexVal c = some (c.toNat - 55)) (by decide +kernel)) c h1 h2

theorem hexVal_lt {c : UInt8} {d : Nat} (h : hexVal c = some d) : d < 16 := by
  have : ∀ c : UInt8, (hexVal c).getD 0 < 16 := forall_byte (by decide +kernel)
  have := this c
  rw [h] at this; exact this

theorem hex_special {c : UInt8} {d : Nat} (h : hexVal c = some d) : c ≠ dot ∧ c ≠ colon ∧ c ≠ percent := by
  refine ⟨?_, ?_, ?_⟩ <;> (rintro rfl; revert h; decide +revert)

theorem isHex_lt {t : Bytes} {n : Nat} (h : IsHex t n) : n < 16 ^ t.length := by
  induction h with
  | one c d h => have := hexVal_lt ((hexVal_iff c d).mpr h); simpa using this
  | snoc t n c d _ h ih =>
    have := hexVal_lt ((hexVal_iff c d).mpr h)
    simp only [List.length_append, List.length_singleton, Nat.pow_succ]
    omega

theorem isHex_chars {t : Bytes} {n : Nat} (h : IsHex t n) : t ≠ [] ∧ ∀ c ∈ t, hexVal c ≠ none := by
  induction h with
  | one c d h => simp [(hexVal_iff c d).mpr h]
  | snoc t n c d _ h ih =>
    refine ⟨by simp, fun x hx => ?_⟩
    rcases List.mem_append.mp hx with hx | hx
    · exact ih.2 x hx
    · simp at hx; subst hx; simp [(hexVal_iff x d).mpr h]

theorem hexRun_isHex {t : Bytes} {n : Nat} (h : IsHex t n) : ∀ s, t.length ≤ 4 → hexRun (t ++ s) 0 0 = hexRun s t.length n := by
  induction h with
  | one c d h =>
    intro s _
    have hd := (hexVal_iff c d).mpr h
    have := hexVal_lt hd
    rw [List.singleton_append, hexRun, hd]
    simp only []
    rw [if_neg (by omega), if_neg (by omega)]
    simp
  | snoc t n c d ht h ih =>
    intro s hl
    have hd := (hexVal_iff c d).mpr h
    have h16 := hexVal_lt hd
    simp only [List.length_append, List.length_singleton] at hl
    have hn : n < 16 ^ 3 := Nat.lt_of_lt_of_le (isHex_lt ht) (Nat.pow_le_pow_right (by omega) (by omega))
    rw [List.append_assoc, List.singleton_append, ih _ (by omega), hexRun, hd]
    simp only []
    rw [if_neg (by omega), if_neg (by omega)]
    simp

/-- nothing of the rest is a hexadecimal digit -/
def Stops (s : Bytes) : Prop := ∀ c, s.head? = some c → hexVal c = none

theorem hexRun_stop {s : Bytes} (h : Stops s) (off acc : Nat) : hexRun s off acc = some (off, acc, s) := by
  cases s with
  | nil => rfl
  | cons c s => rw [hexRun, h c rfl]

theorem hexRun_group {t : Bytes} {n : Nat} (h : IsHex t n) (hl : t.length ≤ 4) {s : Bytes} (hs : Stops s) :
    hexRun (t ++ s) 0 0 = some (t.length, n, s) := by
  rw [hexRun_isHex h s hl, hexRun_stop hs]

theorem hexRun_sound (s : Bytes) : ∀ (t : Bytes) (acc off' acc' : Nat) (rest : Bytes),
    (t = [] ∧ acc = 0 ∨ IsHex t acc) → t.length ≤ 4 → hexRun s t.length acc = some (off', acc', rest) →
    ∃ u, s = u ++ rest ∧ off' = (t ++ u).length ∧ off' ≤ 4 ∧ (t ++ u = [] ∧ acc' = 0 ∨ IsHex (t ++ u) acc') ∧ Stops rest := by
  induction s with
  | nil =>
    intro t acc off' acc' rest ht hl h
    simp only [hexRun, Option.some.injEq, Prod.mk.injEq] at h
    obtain ⟨rfl, rfl, rfl⟩ := h
    exact ⟨[], rfl, by simp, hl, by simpa using ht, fun c h => by simp at h⟩
  | cons c s ih =>
    intro t acc off' acc' rest ht hl h
    rw [hexRun] at h
    split at h
    · rename_i hc
      simp only [Option.some.injEq, Prod.mk.injEq] at h
      obtain ⟨rfl, rfl, rfl⟩ := h
      exact ⟨[], rfl, by simp, hl, by simpa using ht, fun x hx => by simp at hx; subst hx; exact hc⟩
    · rename_i d hc
      split at h
      · simp at h
      · split at h
        · simp at h
        · have hd := (hexVal_iff c d).mp hc
          obtain ⟨u, e, a, b, x, y⟩ := ih (t ++ [c]) (acc * 16 + d) off' acc' rest (by
            right
            rcases ht with ⟨rfl, rfl⟩ | ht
            · simpa using IsHex.one c d hd
            · exact .snoc t acc c d ht hd) (by simp; omega) (by simpa using h)
          exact ⟨c :: u, by simp [e], by rw [a]; simp, b, by simpa using x, y⟩

theorem stops_colon (s : Bytes) : Stops (colon :: s) := fun c h => by simp at h; subst h; decide
theorem stops_dot (s : Bytes) : Stops (dot :: s) := fun c h => by simp at h; subst h; decide
theorem stops_nil : Stops [] := fun c h => by simp at h

theorem isGroup_len {t o : Bytes} (h : IsGroup t o) : o.length = 2 := by
  obtain ⟨n, _, _, rfl⟩ := h; rfl

theorem groups_len {s o : Bytes} (h : Groups s o) : 2 ≤ o.length ∧ o.length % 2 = 0 := by
  induction h with
  | last t o h => have := isGroup_len h; omega
  | cons t o s p h _ ih => have := isGroup_len h; simp; omega

theorem isV4_len {t v : Bytes} (h : IsV4 t v) : v.length = 4 := by
  obtain ⟨a, b, c, d, _, _, _, _, rfl, _⟩ := h; rfl

theorem fields_len {s o : Bytes} (h : Fields s o) : 2 ≤ o.length ∧ o.length % 2 = 0 := by
  induction h with
  | last t o h => have := isGroup_len h; omega
  | v4 t o h => have := isV4_len h; omega
  | cons t o s p h _ ih => have := isGroup_len h; simp; omega

theorem isHex_append (u : Bytes) : ∀ (t : Bytes) (n : Nat), IsHex t n → (∀ c ∈ u, isDigit c = true) → ∃ m, IsHex (t ++ u) m := by
  induction u with
  | nil => intro t n h _; exact ⟨n, by simpa using h⟩
  | cons c u ih =>
    intro t n h hu
    have hc : hexVal c = some (c.toNat - 48) := by rw [hexVal, if_pos (hu c (by simp))]
    obtain ⟨m, hm⟩ := ih (t ++ [c]) _ (.snoc t n c _ h ((hexVal_iff _ _).mp hc)) (fun x hx => hu x (by simp [hx]))
    exact ⟨m, by simpa using hm⟩

/-- decimal digits are hexadecimal digits -/
theorem isHex_of_digits (t : Bytes) (hne : t ≠ []) (h : ∀ c ∈ t, isDigit c = true) : ∃ n, IsHex t n := by
  cases t with
  | nil => exact absurd rfl hne
  | cons c u =>
    have hc : hexVal c = some (c.toNat - 48) := by rw [hexVal, if_pos (h c (by simp))]
    exact isHex_append u [c] _ (.one c _ ((hexVal_iff _ _).mp hc)) (fun x hx => h x (by simp [hx]))

theorem dec8_len : ∀ n : UInt8, (dec8 n).length ≤ 3 := forall_byte (by decide +kernel)

theorem hexRun_v4 {t v : Bytes} (h : IsV4 t v) : ∃ off acc rest, hexRun t 0 0 = some (off, acc, dot :: rest) ∧ off ≠ 0 := by
  obtain ⟨a, b, c, d, ta, tb, tc, td, rfl, ha, hb, hc, hd, rfl⟩ := h
  obtain ⟨n, hn⟩ := isHex_of_digits ta ha.ne ha.digits
  have hl : ta.length ≤ 4 := by rw [isDec_unique ha]; have := dec8_len a; omega
  refine ⟨_, _, _, hexRun_group hn hl (stops_dot _), ?_⟩
  exact fun e => ha.ne (List.length_eq_zero_iff.mp e)

/-! ### the loop over the groups -/

theorem v4_head {t v : Bytes} (h : IsV4 t v) : ∃ c s, t = c :: s ∧ hexVal c ≠ none := by
  obtain ⟨a, b, c, d, ta, tb, tc, td, rfl, ha, hb, hc, hd, rfl⟩ := h
  cases ta with
  | nil => exact absurd rfl ha.ne
  | cons x ta => exact ⟨x, _, rfl, by rw [hexVal, if_pos (ha.digits x (by simp))]; simp⟩

theorem group_head {t o : Bytes} (h : IsGroup t o) : ∃ c s, t = c :: s ∧ hexVal c ≠ none := by
  obtain ⟨n, h, _, _⟩ := h
  cases t with
  | nil => exact absurd rfl (isHex_chars h).1
  | cons x t => exact ⟨x, t, rfl, (isHex_chars h).2 x (by simp)⟩

theorem fields_head {s o : Bytes} (h : Fields s o) : ∃ c r, s = c :: r ∧ hexVal c ≠ none := by
  cases h with
  | last _ _ h => exact group_head h
  | v4 _ _ h => exact v4_head h
  | cons t o s p h _ => obtain ⟨c, r, rfl, hc⟩ := group_head h; exact ⟨c, _, rfl, hc⟩

theorem groups_head {s o : Bytes} (h : Groups s o) : ∃ c r, s = c :: r ∧ hexVal c ≠ none := by
  cases h with
  | last _ _ h => exact group_head h
  | cons t o s p h _ => obtain ⟨c, r, rfl, hc⟩ := group_head h; exact ⟨c, _, rfl, hc⟩

theorem ne_special {c : UInt8} (h : hexVal c ≠ none) : c ≠ dot ∧ c ≠ colon ∧ c ≠ percent := by
  obtain ⟨d, hd⟩ := Option.ne_none_iff_exists'.mp h
  exact hex_special hd

/-- a group at the end -/
theorem v6Loop_last {t o : Bytes} (h : IsGroup t o) (n : Nat) (ip : Bytes) (el : Option Nat) :
    v6Loop (n + 1) t ip el = some (ip ++ o, el, []) := by
  obtain ⟨m, hm, hl, rfl⟩ := h
  have e := hexRun_group hm hl stops_nil
  rw [List.append_nil] at e
  have hne : t.length ≠ 0 := fun e => (isHex_chars hm).1 (List.length_eq_zero_iff.mp e)
  rw [v6Loop, e]
  simp [hne]

/-- a group, a colon and more -/
theorem v6Loop_cons {t o : Bytes} (h : IsGroup t o) (n : Nat) (ip : Bytes) (el : Option Nat) (c : UInt8) (s : Bytes)
    (hc : c ≠ colon) : v6Loop (n + 1) (t ++ colon :: c :: s) ip el = v6Loop n (c :: s) (ip ++ o) el := by
  obtain ⟨m, hm, hl, rfl⟩ := h
  have e := hexRun_group hm hl (stops_colon (c :: s))
  have hne : t.length ≠ 0 := fun e => (isHex_chars hm).1 (List.length_eq_zero_iff.mp e)
  rw [v6Loop, e]
  simp only [List.head?_cons, Option.some.injEq]
  rw [if_neg hne, if_neg (by decide), if_neg (by simp), if_neg hc]

/-- a group and an ellipsis -/
theorem v6Loop_ellipsis {t o : Bytes} (h : IsGroup t o) (n : Nat) (ip : Bytes) (s : Bytes) :
    v6Loop (n + 1) (t ++ colon :: colon :: s) ip none =
      if s = [] then some (ip ++ o, some (ip ++ o).length, []) else v6Loop n s (ip ++ o) (some (ip ++ o).length) := by
  obtain ⟨m, hm, hl, rfl⟩ := h
  have e := hexRun_group hm hl (stops_colon (colon :: s))
  have hne : t.length ≠ 0 := fun e => (isHex_chars hm).1 (List.length_eq_zero_iff.mp e)
  rw [v6Loop, e]
  simp only [List.head?_cons, Option.some.injEq]
  rw [if_neg hne, if_neg (by decide), if_neg (by simp), if_pos trivial, if_neg (by simp)]

theorem v6Loop_v4 {t v : Bytes} (h : IsV4 t v) (n : Nat) (ip : Bytes) (el : Option Nat) (h1 : el = none → ip.length = 12)
    (h2 : ip.length + 4 ≤ 16) : v6Loop (n + 1) t ip el = some (ip ++ v, el, []) := by
  obtain ⟨off, acc, rest, e, h0⟩ := hexRun_v4 h
  rw [v6Loop, e]
  simp only [List.head?_cons, if_true]
  rw [if_neg h0, if_neg (by rintro ⟨a, b⟩; exact b (h1 a)), if_neg (by omega), v4Fields_of h]
  rfl

theorem v6Loop_fields {s o : Bytes} (h : Fields s o) : ∀ (n : Nat) (ip : Bytes) (el : Option Nat),
    ip.length + 2 * n = 16 → ip.length + o.length ≤ 16 → (el = none → ip.length + o.length = 16) →
    v6Loop n s ip el = some (ip ++ o, el, []) := by
  induction h with
  | last t o h =>
    intro n ip el hn hle _
    have := isGroup_len h
    obtain ⟨n, rfl⟩ : ∃ k, n = k + 1 := ⟨n - 1, by omega⟩
    exact v6Loop_last h n ip el
  | v4 t o h =>
    intro n ip el hn hle hel
    have := isV4_len h
    obtain ⟨n, rfl⟩ : ∃ k, n = k + 1 := ⟨n - 1, by omega⟩
    exact v6Loop_v4 h n ip el (fun e => by have := hel e; omega) (by omega)
  | cons t o s p h hs ih =>
    intro n ip el hn hle hel
    have h2 := isGroup_len h
    rw [List.length_append] at hle hel
    obtain ⟨n, rfl⟩ : ∃ k, n = k + 1 := ⟨n - 1, by omega⟩
    have e := ih n (ip ++ o) el (by simp; omega) (by simp; omega) (fun e => by have := hel e; simp; omega)
    obtain ⟨c, r, rfl, hc⟩ := fields_head hs
    have := v6Loop_cons h n ip el c r (ne_special hc).2.1
    rw [show (58 : UInt8) = colon from rfl, this, e]
    simp

theorem v6Loop_groups {l p : Bytes} (h : Groups l p) : ∀ (n : Nat) (ip r : Bytes),
    ip.length + 2 * n = 16 → ip.length + p.length ≤ 16 →
    v6Loop n (l ++ colon :: colon :: r) ip none =
      if r = [] then some (ip ++ p, some (ip ++ p).length, [])
      else v6Loop (n - p.length / 2) r (ip ++ p) (some (ip ++ p).length) := by
  induction h with
  | last t o h =>
    intro n ip r hn hle
    have h2 := isGroup_len h
    obtain ⟨n, rfl⟩ : ∃ k, n = k + 1 := ⟨n - 1, by omega⟩
    rw [v6Loop_ellipsis h, h2]
    simp
  | cons t o s p h hs ih =>
    intro n ip r hn hle
    have h2 := isGroup_len h
    rw [List.length_append] at hle
    obtain ⟨n, rfl⟩ : ∃ k, n = k + 1 := ⟨n - 1, by omega⟩
    have e := ih n (ip ++ o) r (by simp; omega) (by simp; omega)
    obtain ⟨c, s', rfl, hc⟩ := groups_head hs
    have := v6Loop_cons h n ip none c (s' ++ colon :: colon :: r) (ne_special hc).2.1
    rw [show (58 : UInt8) = colon from rfl, List.append_assoc, List.cons_append, List.cons_append, this]
    rw [List.cons_append] at e
    rw [e]
    have : n - p.length / 2 = n + 1 - (o ++ p).length / 2 := by simp; omega
    rw [this]
    simp

/-- after the ellipsis -/
theorem v6Loop_sound_some (n : Nat) : ∀ (s ip : Bytes) (e : Nat) (ip' : Bytes) (el' : Option Nat), s ≠ [] →
    v6Loop n s ip (some e) = some (ip', el', []) → el' = some e ∧ ∃ o, Fields s o ∧ ip' = ip ++ o := by
  induction n with
  | zero =>
    intro s ip e ip' el' hs h
    simp only [v6Loop, Option.some.injEq, Prod.mk.injEq] at h
    exact absurd h.2.2 hs
  | succ n ih =>
    intro s ip e ip' el' hs h
    rw [v6Loop] at h
    split at h
    · simp at h
    · rename_i off acc rest hr
      obtain ⟨u, rfl, h1, h2, h3, h4⟩ := hexRun_sound s [] 0 off acc rest (.inl ⟨rfl, rfl⟩) (by simp) hr
      simp only [List.nil_append] at h1 h3
      split at h
      · simp at h
      · rename_i hoff
        have hu : IsHex u acc := by
          rcases h3 with ⟨rfl, -⟩ | h3
          · simp at h1; exact absurd h1 hoff
          · exact h3
        have hg : IsGroup u [UInt8.ofNat (acc / 256), UInt8.ofNat (acc % 256)] := ⟨acc, hu, by omega, rfl⟩
        split at h
        · split at h
          · simp at h
          · split at h
            · simp at h
            · rw [Option.map_eq_some_iff] at h
              obtain ⟨f, hf, h⟩ := h
              simp only [Prod.mk.injEq] at h
              obtain ⟨rfl, rfl, -⟩ := h
              exact ⟨rfl, f, .v4 _ _ ((v4Fields_iff _ _).mp hf), rfl⟩
        · simp only [] at h
          split at h
          · simp only [Option.some.injEq, Prod.mk.injEq] at h
            obtain ⟨rfl, rfl, -⟩ := h
            exact ⟨rfl, _, by rw [List.append_nil]; exact .last _ _ hg, rfl⟩
          · rename_i c s1 _
            split at h
            · simp at h
            · rename_i hc
              have hc : c = colon := Classical.byContradiction hc
              subst hc
              split at h
              · simp at h
              · rename_i c2 s2 _
                split at h
                · simp at h
                · obtain ⟨a, o, b, rfl⟩ := ih _ _ _ _ _ (by simp) h
                  exact ⟨a, _, .cons _ _ _ _ hg b, by simp⟩

/-- before the ellipsis -/
theorem v6Loop_sound_none (n : Nat) : ∀ (s ip : Bytes) (ip' : Bytes) (el' : Option Nat), s ≠ [] →
    v6Loop n s ip none = some (ip', el', []) →
    (el' = none ∧ ∃ o, Fields s o ∧ ip' = ip ++ o) ∨
    (∃ l r p q, s = l ++ colon :: colon :: r ∧ Groups l p ∧ (r = [] ∧ q = [] ∨ Fields r q) ∧ ip' = ip ++ p ++ q ∧
      el' = some (ip ++ p).length) := by
  induction n with
  | zero =>
    intro s ip ip' el' hs h
    simp only [v6Loop, Option.some.injEq, Prod.mk.injEq] at h
    exact absurd h.2.2 hs
  | succ n ih =>
    intro s ip ip' el' hs h
    rw [v6Loop] at h
    split at h
    · simp at h
    · rename_i off acc rest hr
      obtain ⟨u, rfl, h1, h2, h3, h4⟩ := hexRun_sound s [] 0 off acc rest (.inl ⟨rfl, rfl⟩) (by simp) hr
      simp only [List.nil_append] at h1 h3
      split at h
      · simp at h
      · rename_i hoff
        have hu : IsHex u acc := by
          rcases h3 with ⟨rfl, -⟩ | h3
          · simp at h1; exact absurd h1 hoff
          · exact h3
        have hg : IsGroup u [UInt8.ofNat (acc / 256), UInt8.ofNat (acc % 256)] := ⟨acc, hu, by omega, rfl⟩
        split at h
        · split at h
          · simp at h
          · split at h
            · simp at h
            · rw [Option.map_eq_some_iff] at h
              obtain ⟨f, hf, h⟩ := h
              simp only [Prod.mk.injEq] at h
              obtain ⟨rfl, rfl, -⟩ := h
              exact .inl ⟨rfl, f, .v4 _ _ ((v4Fields_iff _ _).mp hf), rfl⟩
        · simp only [] at h
          split at h
          · simp only [Option.some.injEq, Prod.mk.injEq] at h
            obtain ⟨rfl, rfl, -⟩ := h
            exact .inl ⟨rfl, _, by rw [List.append_nil]; exact .last _ _ hg, rfl⟩
          · rename_i c s1 _
            split at h
            · simp at h
            · rename_i hc
              have hc : c = colon := Classical.byContradiction hc
              subst hc
              split at h
              · simp at h
              · rename_i c2 s2 _
                split at h
                · rename_i hc2
                  subst hc2
                  split at h
                  · simp at h
                  · split at h
                    · rename_i hs2
                      subst hs2
                      simp only [Option.some.injEq, Prod.mk.injEq] at h
                      obtain ⟨rfl, rfl, -⟩ := h
                      exact .inr ⟨u, [], _, [], rfl, .last _ _ hg, .inl ⟨rfl, rfl⟩, by simp, rfl⟩
                    · rename_i hs2
                      obtain ⟨a, o, b, rfl⟩ := v6Loop_sound_some _ _ _ _ _ _ hs2 h
                      exact .inr ⟨u, s2, _, o, rfl, .last _ _ hg, .inr b, rfl, a⟩
                · rcases ih _ _ _ _ (by simp) h with ⟨a, o, b, rfl⟩ | ⟨l, r, p, q, e, b, d, rfl, rfl⟩
                  · exact .inl ⟨a, _, .cons _ _ _ _ hg b, by simp⟩
                  · exact .inr ⟨u ++ 58 :: l, r, _, q, by rw [e]; simp [colon], .cons _ _ _ _ hg b, d, by simp, by simp⟩

/-! ### the whole text -/

/-- characters of an address: hexadecimal digits, dots and colons -/
def Plain (s : Bytes) : Prop := ∀ c ∈ s, c ≠ percent

theorem plain_hex {t : Bytes} (h : ∀ c ∈ t, hexVal c ≠ none) : Plain t := fun c hc => (ne_special (h c hc)).2.2
theorem plain_group {t o : Bytes} (h : IsGroup t o) : Plain t := by
  obtain ⟨n, h, _, _⟩ := h; exact plain_hex (isHex_chars h).2
theorem dec_hex {t : Bytes} {n : UInt8} (h : IsDec t n) : ∀ c ∈ t, hexVal c ≠ none := fun c hc => by
  rw [hexVal, if_pos (h.digits c hc)]; simp
theorem plain_append {s t : Bytes} (h1 : Plain s) (h2 : Plain t) : Plain (s ++ t) := fun c hc => by
  rcases List.mem_append.mp hc with h | h
  · exact h1 c h
  · exact h2 c h
theorem plain_cons {c : UInt8} {t : Bytes} (h1 : c ≠ percent) (h2 : Plain t) : Plain (c :: t) := fun x hx => by
  rcases List.mem_cons.mp hx with rfl | h
  · exact h1
  · exact h2 x h
theorem plain_v4 {t v : Bytes} (h : IsV4 t v) : Plain t := by
  obtain ⟨a, b, c, d, ta, tb, tc, td, rfl, ha, hb, hc, hd, rfl⟩ := h
  exact plain_append (plain_hex (dec_hex ha)) (plain_cons (by decide) (plain_append (plain_hex (dec_hex hb))
    (plain_cons (by decide) (plain_append (plain_hex (dec_hex hc)) (plain_cons (by decide) (plain_hex (dec_hex hd)))))))
theorem plain_groups {s o : Bytes} (h : Groups s o) : Plain s := by
  induction h with
  | last t o h => exact plain_group h
  | cons t o s p h _ ih => exact plain_append (plain_group h) (plain_cons (by decide) ih)
theorem plain_fields {s o : Bytes} (h : Fields s o) : Plain s := by
  induction h with
  | last t o h => exact plain_group h
  | v4 t o h => exact plain_v4 h
  | cons t o s p h _ ih => exact plain_append (plain_group h) (plain_cons (by decide) ih)

abbrev special (c : UInt8) : Bool := c = dot || c = colon || c = percent

theorem find_special {t : Bytes} (h : ∀ c ∈ t, hexVal c ≠ none) (c : UInt8) (hc : special c = true) (s : Bytes) :
    (t ++ c :: s).find? special = some c := by
  rw [List.find?_append, List.find?_eq_none.mpr]
  · simp [hc]
  · intro x hx
    have := ne_special (h x hx)
    simp [special, this]

theorem groups_find {l p : Bytes} (h : Groups l p) (r : Bytes) : (l ++ colon :: r).find? special = some colon := by
  cases h with
  | last _ _ h =>
    obtain ⟨n, h, _, _⟩ := h
    exact find_special (isHex_chars h).2 colon (by decide) r
  | cons t o s p h _ =>
    obtain ⟨n, h, _, _⟩ := h
    rw [List.append_assoc, List.cons_append]
    exact find_special (isHex_chars h).2 58 (by decide) _

theorem parse6_of {s a : Bytes} (h : IsV6 s a) : parse6 s = some a := by
  cases h with
  | full _ _ h hl =>
    obtain ⟨c, r, rfl, hc⟩ := fields_head h
    have hn : ¬ (percent ∈ c :: r) := fun hp => plain_fields h _ hp rfl
    rw [parse6, if_neg hn, if_neg (by
      intro e
      simp only [List.take_succ_cons, List.cons.injEq] at e
      exact (ne_special hc).2.1 e.1),
      v6Loop_fields h 8 [] none (by simp) (by simp [hl]) (by simp [hl])]
    simp [v6Finish, hl]
  | short l r p q k hl hr hk h0 =>
    have hpr : Plain r := by
      rcases hr with ⟨rfl, -⟩ | hr
      · intro c hc; simp at hc
      · exact plain_fields hr
    rcases hl with ⟨rfl, rfl⟩ | hl
    · have hn : ¬ (percent ∈ ([] ++ 58 :: 58 :: r : Bytes)) := fun hp =>
        plain_cons (by decide) (plain_cons (by decide) hpr) _ hp rfl
      rw [parse6, if_neg hn, if_pos (by simp [colon])]
      rcases hr with ⟨rfl, rfl⟩ | hr
      · rw [if_pos (by simp)]
        simp only [List.length_nil] at hk
        rw [show 2 * k = 16 by omega]; simp
      · obtain ⟨c, r, rfl, hc⟩ := fields_head hr
        simp only [List.length_nil] at hk
        rw [if_neg (by simp)]
        simp only [List.nil_append, List.drop_succ_cons, List.drop_zero]
        rw [v6Loop_fields hr 8 [] (some 0) (by simp) (by simp; omega) (by simp)]
        simp only [v6Finish, List.nil_append]
        rw [if_neg (by simp), if_pos (by omega), show 16 - q.length = 2 * k by omega]
        simp
    · obtain ⟨c, s, hcs, hc⟩ := groups_head hl
      have hn : ¬ (percent ∈ (l ++ 58 :: 58 :: r : Bytes)) := fun hp =>
        plain_append (plain_groups hl) (plain_cons (by decide) (plain_cons (by decide) hpr)) _ hp rfl
      have hgl := groups_len hl
      rw [parse6, if_neg hn, if_neg (by
        rw [hcs]
        intro e
        simp only [List.cons_append, List.take_succ_cons, List.cons.injEq] at e
        exact (ne_special hc).2.1 e.1)]
      have e := v6Loop_groups hl 8 [] r (by simp) (by simp; omega)
      simp only [List.nil_append, colon] at e
      rw [e]
      rcases hr with ⟨rfl, rfl⟩ | hr
      · simp only [List.length_nil] at hk
        rw [if_pos rfl]
        simp only [v6Finish]
        rw [if_neg (by simp), if_pos (by omega), show 16 - p.length = 2 * k by omega]
        simp
      · obtain ⟨c', r', hcr, hc'⟩ := fields_head hr
        have hfl := fields_len hr
        rw [if_neg (by rw [hcr]; simp), v6Loop_fields hr (8 - p.length / 2) p (some p.length) (by omega) (by omega) (by simp)]
        simp only [v6Finish]
        rw [if_neg (by simp), if_pos (by simp; omega), List.length_append, show 16 - (p.length + q.length) = 2 * k by omega]
        simp

theorem v6Finish_some {x : Option (Bytes × Option Nat × Bytes)} {a : Bytes} (h : v6Finish x = some a) :
    ∃ ip el, x = some (ip, el, []) ∧ ((el = none ∧ 16 ≤ ip.length ∧ a = ip) ∨ ∃ e, el = some e ∧ ip.length < 16 ∧
      a = ip.take e ++ List.replicate (16 - ip.length) 0 ++ ip.drop e) := by
  unfold v6Finish at h
  split at h
  · simp at h
  · rename_i ip el s
    split at h
    · simp at h
    · rename_i hs
      have hs : s = [] := Classical.byContradiction hs
      subst hs
      split at h
      · split at h
        · simp at h
        · rename_i hl _ e
          simp only [Option.some.injEq] at h
          exact ⟨ip, _, rfl, .inr ⟨e, rfl, hl, h.symm⟩⟩
      · rename_i hl
        split at h
        · simp at h
        · rename_i hel
          simp only [Option.some.injEq] at h
          exact ⟨ip, el, rfl, .inl ⟨by simpa using hel, by omega, h.symm⟩⟩

/-- there are never more than 16 octets -/
theorem v6Loop_len (n : Nat) : ∀ (s ip : Bytes) (el : Option Nat) (ip' : Bytes) (el' : Option Nat) (s' : Bytes),
    ip.length + 2 * n = 16 → v6Loop n s ip el = some (ip', el', s') → ip'.length ≤ 16 := by
  induction n with
  | zero =>
    intro s ip el ip' el' s' hl h
    simp only [v6Loop, Option.some.injEq, Prod.mk.injEq] at h
    rw [← h.1]; omega
  | succ n ih =>
    intro s ip el ip' el' s' hl h
    rw [v6Loop] at h
    split at h
    · simp at h
    · split at h
      · simp at h
      · split at h
        · split at h
          · simp at h
          · split at h
            · simp at h
            · rw [Option.map_eq_some_iff] at h
              obtain ⟨f, hf, h⟩ := h
              simp only [Prod.mk.injEq] at h
              have := isV4_len ((v4Fields_iff _ _).mp hf)
              rw [← h.1, List.length_append]; omega
        · simp only [] at h
          split at h
          · simp only [Option.some.injEq, Prod.mk.injEq] at h
            rw [← h.1]; simp; omega
          · split at h
            · simp at h
            · split at h
              · simp at h
              · split at h
                · split at h
                  · simp at h
                  · split at h
                    · simp only [Option.some.injEq, Prod.mk.injEq] at h
                      rw [← h.1]; simp; omega
                    · exact ih _ _ _ _ _ _ (by simp; omega) h
                · exact ih _ _ _ _ _ _ (by simp; omega) h

theorem parse6_sound {s a : Bytes} (hs : s ≠ []) (h : parse6 s = some a) : IsV6 s a := by
  unfold parse6 at h
  split at h
  · simp at h
  · split at h
    · rename_i h2
      have es : s = 58 :: 58 :: s.drop 2 := by
        have := List.take_append_drop 2 s
        rw [h2] at this
        exact this.symm
      split at h
      · rename_i hd
        rw [hd] at es
        simp only [Option.some.injEq] at h
        subst h es
        exact .short [] [] [] [] 8 (.inl ⟨rfl, rfl⟩) (.inl ⟨rfl, rfl⟩) (by simp) (by simp)
      · rename_i hd
        obtain ⟨ip, el, e, hx⟩ := v6Finish_some h
        obtain ⟨rfl, o, ho, hio⟩ := v6Loop_sound_some _ _ _ _ _ _ hd e
        rw [List.nil_append] at hio
        subst hio
        rcases hx with ⟨h0, -⟩ | ⟨k, hk, hl, rfl⟩
        · simp at h0
        · simp only [Option.some.injEq] at hk
          subst hk
          have := fields_len ho
          change ip.length < 16 at hl
          change IsV6 s ([] ++ List.replicate (16 - ip.length) 0 ++ ip)
          rw [es, show 16 - ip.length = 2 * ((16 - ip.length) / 2) by omega]
          exact .short [] _ [] ip _ (.inl ⟨rfl, rfl⟩) (.inr ho) (by simp; omega) (by omega)
    · obtain ⟨ip, el, e, hx⟩ := v6Finish_some h
      rcases v6Loop_sound_none _ _ _ _ _ hs e with ⟨rfl, o, ho, rfl⟩ | ⟨l, r, p, q, rfl, hl, hr, rfl, rfl⟩
      · rcases hx with ⟨-, hl, rfl⟩ | ⟨k, hk, _⟩
        · refine .full _ _ ho ?_
          have := v6Loop_len 8 _ _ _ _ _ _ (by simp) e
          omega
        · simp at hk
      · rcases hx with ⟨h0, -⟩ | ⟨k, hk, hlen, rfl⟩
        · simp at h0
        · simp only [Option.some.injEq, List.nil_append] at hk
          subst hk
          have h1 := groups_len hl
          have h2 : q.length % 2 = 0 := by
            rcases hr with ⟨-, rfl⟩ | hr
            · rfl
            · exact (fields_len hr).2
          simp only [List.nil_append, List.length_append] at hlen ⊢
          rw [show 16 - (p.length + q.length) = 2 * ((16 - (p.length + q.length)) / 2) by omega, List.take_left' rfl, List.drop_left' rfl]
          exact .short l r p q _ (.inr hl) hr (by omega) (by omega)

theorem parse6_iff {s : Bytes} (hs : s ≠ []) (a : Bytes) : parse6 s = some a ↔ IsV6 s a :=
  ⟨parse6_sound hs, parse6_of⟩

theorem isV6_find {s a : Bytes} (h : IsV6 s a) : s.find? special = some colon := by
  cases h with
  | full _ _ h hl =>
    cases h with
    | last _ _ h => have := isGroup_len h; omega
    | v4 _ _ h => have := isV4_len h; omega
    | cons t o s p h _ => obtain ⟨n, h, _, _⟩ := h; exact find_special (isHex_chars h).2 58 (by decide) s
  | short l r p q k hl _ _ _ =>
    rcases hl with ⟨rfl, -⟩ | hl
    · rfl
    · exact groups_find hl _

theorem isV4_find {s v : Bytes} (h : IsV4 s v) : s.find? special = some dot := by
  obtain ⟨a, b, c, d, ta, tb, tc, td, rfl, ha, hb, hc, hd, rfl⟩ := h
  exact find_special (dec_hex ha) 46 (by decide) _

theorem parseIP_iff (s a : Bytes) : parseIP s = some a ↔ IsIP s a := by
  constructor
  · intro h
    unfold parseIP at h
    split at h
    · simp at h
    · split at h
      · rw [Option.map_eq_some_iff] at h
        obtain ⟨v, hv, rfl⟩ := h
        exact .inl ⟨v, (v4Fields_iff _ _).mp hv, rfl⟩
      · split at h
        · rename_i hf _ _
          exact .inr (parse6_sound (by rintro rfl; simp at hf) h)
        · simp at h
  · rintro (⟨v, hv, rfl⟩ | h)
    · have := isV4_find hv
      rw [parseIP, this]
      simp only [if_true]
      rw [v4Fields_of hv]; rfl
    · have := isV6_find h
      rw [parseIP, this]
      simp only []
      rw [if_neg (by decide), if_pos trivial, parse6_of h]

/-! ### writing -/

theorem digit_hex : ∀ k : Fin 16, hexVal (digit k.val) = some k.val := by decide

theorem isHexDigit_digit {k : Nat} (h : k < 16) : IsHexDigit (digit k) k := (hexVal_iff _ _).mp (digit_hex ⟨k, h⟩)

theorem isHex_hex16 {n : Nat} (h : n < 65536) : IsHex (hex16 n) n ∧ (hex16 n).length ≤ 4 := by
  have hd : IsHexDigit (digit (n % 16)) (n % 16) := isHexDigit_digit (by omega)
  have hc : IsHexDigit (digit (n / 16 % 16)) (n / 16 % 16) := isHexDigit_digit (by omega)
  have hb : IsHexDigit (digit (n / 256 % 16)) (n / 256 % 16) := isHexDigit_digit (by omega)
  have ha : IsHexDigit (digit (n / 4096)) (n / 4096) := isHexDigit_digit (by omega)
  unfold hex16
  by_cases h1 : n ≥ 0x1000
  · rw [if_pos h1, if_pos (by omega), if_pos (by omega)]
    have := IsHex.snoc _ _ _ _ (.snoc _ _ _ _ (.snoc _ _ _ _ (.one _ _ ha) hb) hc) hd
    rw [show ((n / 4096 * 16 + n / 256 % 16) * 16 + n / 16 % 16) * 16 + n % 16 = n by omega] at this
    exact ⟨this, by simp⟩
  · by_cases h2 : n ≥ 0x100
    · rw [if_neg h1, if_pos h2, if_pos (by omega)]
      rw [show n / 256 % 16 = n / 256 by omega] at hb ⊢
      have := IsHex.snoc _ _ _ _ (.snoc _ _ _ _ (.one _ _ hb) hc) hd
      rw [show (n / 256 * 16 + n / 16 % 16) * 16 + n % 16 = n by omega] at this
      exact ⟨this, by simp⟩
    · by_cases h3 : n ≥ 0x10
      · rw [if_neg h1, if_neg h2, if_pos h3]
        rw [show n / 16 % 16 = n / 16 by omega] at hc ⊢
        have := IsHex.snoc _ _ _ _ (.one _ _ hc) hd
        rw [show n / 16 * 16 + n % 16 = n by omega] at this
        exact ⟨this, by simp⟩
      · rw [if_neg h1, if_neg h2, if_neg h3]
        rw [show n % 16 = n by omega] at hd ⊢
        exact ⟨.one _ _ hd, by simp⟩

/-- the groups between colons -/
def joinHex : List Nat → Bytes
  | [] => []
  | x :: xs => hex16 x ++ xs.flatMap (fun y => colon :: hex16 y)

/-- the octets of groups -/
def octs (g : List Nat) : Bytes := g.flatMap (fun n => [UInt8.ofNat (n / 256), UInt8.ofNat (n % 256)])

theorem isGroup_hex16 {n : Nat} (h : n < 65536) : IsGroup (hex16 n) [UInt8.ofNat (n / 256), UInt8.ofNat (n % 256)] :=
  ⟨n, (isHex_hex16 h).1, (isHex_hex16 h).2, rfl⟩

theorem groups_join (xs : List Nat) : ∀ x, (∀ y ∈ x :: xs, y < 65536) → Groups (joinHex (x :: xs)) (octs (x :: xs)) := by
  induction xs with
  | nil => intro x h; simpa [joinHex, octs] using Groups.last _ _ (isGroup_hex16 (h x (by simp)))
  | cons y ys ih =>
    intro x h
    have := Groups.cons _ _ _ _ (isGroup_hex16 (h x (by simp))) (ih y (fun z hz => h z (by simp [hz])))
    simpa [joinHex, octs, colon] using this

theorem fields_of_groups {s o : Bytes} (h : Groups s o) : Fields s o := by
  induction h with
  | last t o h => exact .last _ _ h
  | cons t o s p h _ ih => exact .cons _ _ _ _ h ih

theorem groups_lt (ip : Bytes) : ∀ y ∈ groups ip, y < 65536 := by
  induction ip using groups.induct with
  | case1 a b r ih =>
    intro y hy
    rw [groups, List.mem_cons] at hy
    rcases hy with rfl | hy
    · have := a.toNat_lt; have := b.toNat_lt; omega
    · exact ih y hy
  | case2 t h => intro y hy; unfold groups at hy; split at hy <;> simp_all

theorem octs_groups (ip : Bytes) : ip.length % 2 = 0 → octs (groups ip) = ip := by
  induction ip using groups.induct with
  | case1 a b r ih =>
    intro h
    have := ih (by simp at h; omega)
    rw [groups]
    simp only [octs, List.flatMap_cons] at this ⊢
    rw [this]
    have ha := a.toNat_lt; have hb := b.toNat_lt
    rw [show (a.toNat * 256 + b.toNat) / 256 = a.toNat by omega, show (a.toNat * 256 + b.toNat) % 256 = b.toNat by omega]
    simp
  | case2 t h =>
    intro hl
    match t, h with
    | [], _ => rfl
    | [a], _ => simp at hl
    | a :: b :: r, h => exact absurd rfl (h a b r)

theorem groups_length (ip : Bytes) : (groups ip).length = ip.length / 2 := by
  induction ip using groups.induct with
  | case1 a b r ih => rw [groups]; simp; omega
  | case2 t h =>
    match t, h with
    | [], _ => rfl
    | [a], _ => simp [groups]
    | a :: b :: r, h => exact absurd rfl (h a b r)

theorem octs_zero (k : Nat) : octs (List.replicate k 0) = List.replicate (2 * k) 0 := by
  induction k with
  | zero => rfl
  | succ k ih =>
    rw [List.replicate_succ, show 2 * (k + 1) = 2 * k + 1 + 1 by omega, List.replicate_succ, List.replicate_succ, ← ih]
    rfl

theorem octs_length (g : List Nat) : (octs g).length = 2 * g.length := by
  induction g with
  | nil => rfl
  | cons x g ih => simp only [octs, List.flatMap_cons, List.length_append] at ih ⊢; rw [ih]; simp; omega

theorem getD_get {g : List Nat} {i : Nat} (h : i < g.length) : g.getD i 0 = g[i] := by simp [List.getD, h]

/-- the tail of the text when the ellipsis is not ahead -/
theorem put6_plain (g : List Nat) (zs ze : Nat) (hg : g.length = 8) (n : Nat) : ∀ i, 0 < i → (zs < i ∨ 8 ≤ zs) → 8 ≤ i + n →
    put6 g zs ze n i = (g.drop i).flatMap (fun y => colon :: hex16 y) := by
  induction n with
  | zero => intro i _ _ h; rw [put6, List.drop_eq_nil_of_le (by omega)]; rfl
  | succ n ih =>
    intro i h0 hz hn
    rw [put6]
    split
    · rw [List.drop_eq_nil_of_le (by omega)]; rfl
    · have hi : ¬ i = zs := by omega
      rw [if_neg hi, ih (i + 1) (by omega) (by omega) (by omega),
        List.drop_eq_getElem_cons (i := i) (by omega), getD_get (by omega)]
      simp only [List.flatMap_cons, List.cons_append, List.nil_append]

theorem joinHex_drop (g : List Nat) (i : Nat) (h : i < g.length) :
    hex16 (g.getD i 0) ++ (g.drop (i + 1)).flatMap (fun y => colon :: hex16 y) = joinHex (g.drop i) := by
  rw [List.drop_eq_getElem_cons h, getD_get h]
  rfl

/-- the text from the ellipsis on -/
theorem put6_at (g : List Nat) (zs ze : Nat) (hg : g.length = 8) (hz : zs < ze) (h8 : ze ≤ 8) (n : Nat)
    (hn : 8 ≤ zs + n) : put6 g zs ze n zs = colon :: colon :: joinHex (g.drop ze) := by
  obtain ⟨n, rfl⟩ : ∃ k, n = k + 1 := ⟨n - 1, by omega⟩
  rw [put6, if_neg (by omega), if_pos rfl]
  split
  · rw [List.drop_eq_nil_of_le (by omega)]; rfl
  · rw [put6_plain g zs ze hg n (ze + 1) (by omega) (by omega) (by omega), joinHex_drop g ze (by omega)]; rfl

theorem put6_before (g : List Nat) (zs ze : Nat) (hg : g.length = 8) (hz : zs < ze) (h8 : ze ≤ 8) (n : Nat) : ∀ i, 0 < i →
    i ≤ zs → 8 ≤ i + n →
    put6 g zs ze n i = ((g.take zs).drop i).flatMap (fun y => colon :: hex16 y) ++ colon :: colon :: joinHex (g.drop ze) := by
  induction n with
  | zero => intro i h0 h1 h2; omega
  | succ n ih =>
    intro i h0 h1 hn
    by_cases he : i = zs
    · subst he
      rw [put6_at g i ze hg hz h8 (n + 1) hn, List.drop_eq_nil_of_le (as := g.take i) (by simp; omega)]; rfl
    · rw [put6, if_neg (by omega), if_neg he, if_pos h0, ih (i + 1) (by omega) (by omega) (by omega),
        List.drop_eq_getElem_cons (l := g.take zs) (i := i) (by simp; omega), getD_get (by omega)]
      simp only [List.flatMap_cons, List.cons_append, List.nil_append, List.append_assoc, List.getElem_take]

/-- the text without an ellipsis -/
theorem put6_full (g : List Nat) (zs ze : Nat) (hg : g.length = 8) (hz : 8 ≤ zs) : put6 g zs ze 8 0 = joinHex g := by
  rw [put6, if_neg (by omega), if_neg (by omega), if_neg (by omega), put6_plain g zs ze hg 7 1 (by omega) (by omega) (by omega),
    List.nil_append, joinHex_drop g 0 (by omega), List.drop_zero]

/-- the text with an ellipsis -/
theorem put6_short (g : List Nat) (zs ze : Nat) (hg : g.length = 8) (hz : zs < ze) (h8 : ze ≤ 8) :
    put6 g zs ze 8 0 = joinHex (g.take zs) ++ colon :: colon :: joinHex (g.drop ze) := by
  by_cases h0 : zs = 0
  · subst h0
    rw [put6_at g 0 ze hg hz h8 8 (by omega)]; simp [joinHex]
  · rw [put6, if_neg (by omega), if_neg (by omega), if_neg (by omega),
      put6_before g zs ze hg hz h8 7 1 (by omega) (by omega) (by omega), List.nil_append, ← List.append_assoc]
    congr 1
    have := joinHex_drop (g.take zs) 0 (by simp; omega)
    rw [List.drop_zero] at this
    rw [← this, getD_get (by omega), getD_get (by simp; omega)]
    simp

/-- `g` is zero from `a` up to `b` -/
def ZeroAt (g : List Nat) (a b : Nat) : Prop := b ≤ g.length ∧ ∀ j, a ≤ j → j < b → g[j]? = some 0

theorem zeros_run (g : List Nat) : zeros g ≤ g.length ∧ (∀ j, j < zeros g → g[j]? = some 0) ∧
    ∀ b, b ≤ g.length → (∀ j, j < b → g[j]? = some 0) → b ≤ zeros g := by
  induction g with
  | nil => exact ⟨by simp [zeros], fun j h => by simp [zeros] at h, fun b h _ => by simpa [zeros] using h⟩
  | cons x g ih =>
    obtain ⟨i1, i2, i3⟩ := ih
    by_cases hx : x = 0
    · subst hx
      refine ⟨by simp [zeros]; omega, fun j h => ?_, fun b hb h => ?_⟩
      · cases j with
        | zero => rfl
        | succ j => simp only [zeros] at h; simpa using i2 j (by omega)
      · cases b with
        | zero => omega
        | succ b =>
          have := i3 b (by simpa using hb) (fun j hj => by simpa using h (j + 1) (by omega))
          simp only [zeros]; omega
    · have hz : zeros (x :: g) = 0 := by
        unfold zeros; split
        · rename_i h; simp at h; exact absurd h.1 hx
        · rfl
      rw [hz]
      refine ⟨by omega, fun j h => by omega, fun b hb h => ?_⟩
      cases b with
      | zero => omega
      | succ b => have := h 0 (by omega); simp at this; exact absurd this hx

/-- the best run so far: the longest of at least two groups that begins before `i`, and of those the first -/
def Best (G : List Nat) (i : Nat) (r : Nat × Nat) : Prop :=
  (∀ a b, a < i → a + 2 ≤ b → ZeroAt G a b → b - a ≤ r.2 - r.1 ∧ (b - a = r.2 - r.1 → r.1 ≤ a)) ∧
  (r = (255, 255) ∨ (r.1 < i ∧ r.1 + 2 ≤ r.2 ∧ ZeroAt G r.1 r.2))

theorem bestRun_best (G : List Nat) (g : List Nat) : ∀ i r, G.drop i = g → Best G i r → Best G G.length (bestRun g i r) := by
  induction g with
  | nil =>
    intro i r hg ⟨h1, h2⟩
    have hi : G.length ≤ i := by
      have := congrArg List.length hg
      simp at this; omega
    refine ⟨fun a b ha => h1 a b (by omega), ?_⟩
    rcases h2 with h2 | ⟨h2, h3, h4⟩
    · exact .inl h2
    · refine .inr ⟨?_, h3, h4⟩
      have := h4.1
      simp only [bestRun]
      omega
  | cons x g ih =>
    intro i r hg ⟨h1, h2⟩
    have hlen : G.length = i + (x :: g).length := by
      have := congrArg List.length hg
      simp at this ⊢; omega
    have hget : ∀ j, (x :: g)[j]? = G[i + j]? := fun j => by rw [← hg, List.getElem?_drop]
    obtain ⟨z1, z2, z3⟩ := zeros_run (x :: g)
    have hrun : ZeroAt G i (i + zeros (x :: g)) := by
      refine ⟨by omega, fun j ha hb => ?_⟩
      have := z2 (j - i) (by omega)
      rw [hget, show i + (j - i) = j by omega] at this
      exact this
    have hmax : ∀ b, i + 2 ≤ b → ZeroAt G i b → b ≤ i + zeros (x :: g) := by
      intro b hb ⟨hz1, hz2⟩
      have := z3 (b - i) (by omega) (fun j hj => by rw [hget]; exact hz2 (i + j) (by omega) (by omega))
      omega
    rw [bestRun]
    refine ih (i + 1) _ (by rw [← List.drop_drop, hg]; rfl) ?_
    split
    · rename_i hl
      refine ⟨fun a b ha hab hz => ?_, .inr ⟨by simp, by simp; omega, hrun⟩⟩
      simp only []
      by_cases hai : a = i
      · subst hai
        have := hmax b hab hz
        omega
      · have := h1 a b (by omega) hab hz
        omega
    · rename_i hl
      refine ⟨fun a b ha hab hz => ?_, ?_⟩
      · by_cases hai : a = i
        · subst hai
          have hm := hmax b hab hz
          rcases h2 with rfl | h2
          · simp at hl; omega
          · omega
        · exact h1 a b (by omega) hab hz
      · rcases h2 with h2 | ⟨h2, h3⟩
        · exact .inl h2
        · exact .inr ⟨by omega, h3⟩

theorem best_zero (G : List Nat) : Best G G.length (bestRun G 0 (255, 255)) :=
  bestRun_best G G 0 (255, 255) rfl ⟨fun a b h => by omega, .inl rfl⟩

/-- a run of zeros splits the groups -/
theorem zeroAt_split {g : List Nat} {a b : Nat} (hab : a ≤ b) (h : ZeroAt g a b) :
    g = g.take a ++ List.replicate (b - a) 0 ++ g.drop b := by
  obtain ⟨h1, h2⟩ := h
  apply List.ext_getElem?
  intro j
  by_cases hj : j < a
  · rw [List.append_assoc, List.getElem?_append_left (by simp; omega), List.getElem?_take, if_pos hj]
  · by_cases hb : j < b
    · rw [List.append_assoc, List.getElem?_append_right (by simp; omega), List.getElem?_append_left (by simp; omega),
        h2 j (by omega) hb, List.getElem?_replicate, if_pos (by simp; omega)]
    · rw [List.getElem?_append_right (by simp; omega), List.getElem?_drop]
      congr 1
      simp; omega

theorem isV6_str6 {ip : Bytes} (h : ip.length = 16) : IsV6 (str6 ip) ip := by
  have hg : (groups ip).length = 8 := by rw [groups_length, h]
  have hlt := groups_lt ip
  have ho := octs_groups ip (by omega)
  obtain ⟨-, hb⟩ := best_zero (groups ip)
  unfold str6
  simp only []
  rcases hb with hb | ⟨-, hb, hz⟩
  · rw [hb, put6_full _ _ _ hg (by omega)]
    match e : groups ip, hg with
    | x :: xs, _ =>
      rw [e] at hlt ho
      have := fields_of_groups (groups_join xs x hlt)
      rw [ho] at this
      exact .full _ _ this h
  · generalize bestRun (groups ip) 0 (255, 255) = r at *
    rw [put6_short _ _ _ hg (by omega) (by have := hz.1; omega)]
    have es := zeroAt_split (by omega) hz
    have e1 : octs ((groups ip).take r.1) ++ List.replicate (2 * (r.2 - r.1)) 0 ++ octs ((groups ip).drop r.2) = ip := by
      rw [← octs_zero]
      conv => rhs; rw [← ho, es]
      simp [octs]
    have l1 := octs_length ((groups ip).take r.1)
    have l2 := octs_length ((groups ip).drop r.2)
    have := hz.1
    have key := IsV6.short (joinHex ((groups ip).take r.1)) (joinHex ((groups ip).drop r.2)) (octs ((groups ip).take r.1))
      (octs ((groups ip).drop r.2)) (r.2 - r.1) (by
        match e : (groups ip).take r.1 with
        | [] => exact .inl ⟨rfl, rfl⟩
        | x :: xs => exact .inr (groups_join xs x (fun y hy => hlt y (List.mem_of_mem_take (by rw [e]; exact hy))))) (by
        match e : (groups ip).drop r.2 with
        | [] => exact .inl ⟨rfl, rfl⟩
        | x :: xs => exact .inr (fields_of_groups (groups_join xs x (fun y hy => hlt y (List.mem_of_mem_drop (by rw [e]; exact hy))))))
      (by rw [l1, l2]; simp; omega) (by omega)
    rw [e1] at key
    exact key

/-! ### the characters of an address, and socket addresses -/

/-- a hexadecimal digit, a dot or a colon -/
def AddrChar (c : UInt8) : Prop := hexVal c ≠ none ∨ c = dot ∨ c = colon

theorem addrChar_ne {c : UInt8} (h : AddrChar c) : c ≠ percent ∧ c ≠ lbr ∧ c ≠ rbr := by
  rcases h with h | rfl | rfl
  · refine ⟨?_, ?_, ?_⟩ <;> rintro rfl <;> exact h (by decide)
  · decide
  · decide

theorem ac_hex {t : Bytes} (h : ∀ c ∈ t, hexVal c ≠ none) : ∀ c ∈ t, AddrChar c := fun c hc => .inl (h c hc)
theorem ac_append {s t : Bytes} (h1 : ∀ c ∈ s, AddrChar c) (h2 : ∀ c ∈ t, AddrChar c) : ∀ c ∈ s ++ t, AddrChar c :=
  fun c hc => by
    rcases List.mem_append.mp hc with h | h
    · exact h1 c h
    · exact h2 c h
theorem ac_cons {c : UInt8} {t : Bytes} (h1 : AddrChar c) (h2 : ∀ c ∈ t, AddrChar c) : ∀ x ∈ c :: t, AddrChar x :=
  fun x hx => by
    rcases List.mem_cons.mp hx with rfl | h
    · exact h1
    · exact h2 x h
theorem ac_group {t o : Bytes} (h : IsGroup t o) : ∀ c ∈ t, AddrChar c := by
  obtain ⟨n, h, _, _⟩ := h; exact ac_hex (isHex_chars h).2
theorem ac_v4 {t v : Bytes} (h : IsV4 t v) : ∀ c ∈ t, AddrChar c := by
  obtain ⟨a, b, c, d, ta, tb, tc, td, rfl, ha, hb, hc, hd, rfl⟩ := h
  have hdot : AddrChar 46 := .inr (.inl rfl)
  exact ac_append (ac_hex (dec_hex ha)) (ac_cons hdot (ac_append (ac_hex (dec_hex hb))
    (ac_cons hdot (ac_append (ac_hex (dec_hex hc)) (ac_cons hdot (ac_hex (dec_hex hd)))))))
theorem ac_groups {s o : Bytes} (h : Groups s o) : ∀ c ∈ s, AddrChar c := by
  induction h with
  | last t o h => exact ac_group h
  | cons t o s p h _ ih => exact ac_append (ac_group h) (ac_cons (.inr (.inr rfl)) ih)
theorem ac_fields {s o : Bytes} (h : Fields s o) : ∀ c ∈ s, AddrChar c := by
  induction h with
  | last t o h => exact ac_group h
  | v4 t o h => exact ac_v4 h
  | cons t o s p h _ ih => exact ac_append (ac_group h) (ac_cons (.inr (.inr rfl)) ih)

theorem isIP_chars {s a : Bytes} (h : IsIP s a) : s ≠ [] ∧ ∀ c ∈ s, AddrChar c := by
  refine ⟨?_, ?_⟩
  · rintro rfl
    have := (parseIP_iff _ _).mpr h
    simp [parseIP] at this
  · rcases h with ⟨v, hv, -⟩ | h
    · exact ac_v4 hv
    · cases h with
      | full _ _ h _ => exact ac_fields h
      | short l r p q k hl hr _ _ =>
        refine ac_append ?_ (ac_cons (.inr (.inr rfl)) (ac_cons (.inr (.inr rfl)) ?_))
        · rcases hl with ⟨rfl, -⟩ | hl
          · simp
          · exact ac_groups hl
        · rcases hr with ⟨rfl, -⟩ | hr
          · simp
          · exact ac_fields hr

theorem decNat_digits (n : Nat) : decNat n ≠ [] ∧ ∀ c ∈ decNat n, 48 ≤ c ∧ c ≤ 57 := by
  have hd : ∀ k : Fin 10, 48 ≤ digit k.val ∧ digit k.val ≤ 57 := by decide
  induction n using Nat.strongRecOn with
  | _ n ih =>
    rw [decNat]
    split
    · rename_i h
      refine ⟨by simp, fun c hc => ?_⟩
      rw [List.mem_singleton] at hc
      subst hc
      exact hd ⟨n, h⟩
    · refine ⟨by simp, fun c hc => ?_⟩
      rcases List.mem_append.mp hc with h | h
      · exact (ih (n / 10) (by omega)).2 c h
      · rw [List.mem_singleton] at h
        subst h
        exact hd ⟨n % 10, by omega⟩

theorem decNat_val (n : Nat) : (decNat n).foldl (fun v c => v * 10 + (c.toNat - 48)) 0 = n := by
  have hd : ∀ k : Fin 10, (digit k.val).toNat = 48 + k.val := by decide
  induction n using Nat.strongRecOn with
  | _ n ih =>
    rw [decNat]
    split
    · rename_i h
      simp [hd ⟨n, h⟩]
    · rw [List.foldl_append, ih (n / 10) (by omega)]
      simp [hd ⟨n % 10, by omega⟩]
      omega

theorem decNat_inj {m n : Nat} (h : decNat m = decNat n) : m = n := by
  rw [← decNat_val m, ← decNat_val n, h]

theorem decNat_ne {n : Nat} (c : UInt8) (h : c < 48 ∨ 57 < c) : c ∉ decNat n := fun hc => by
  have := (decNat_digits n).2 c hc
  have h1 := UInt8.le_iff_toNat_le.mp this.1
  have h2 := UInt8.le_iff_toNat_le.mp this.2
  rcases h with h | h <;> have := UInt8.lt_iff_toNat_lt.mp h <;> simp at * <;> omega

/-- what separates two texts at the last occurrence of `c` is unique -/
theorem split_last {c : UInt8} {x y p q : Bytes} (hp : c ∉ p) (hq : c ∉ q) (h : x ++ c :: p = y ++ c :: q) : x = y ∧ p = q := by
  rcases List.append_eq_append_iff.mp h with ⟨k, hk, e⟩ | ⟨k, hk, e⟩
  · cases k with
    | nil => simp at hk e; exact ⟨hk.symm, e⟩
    | cons z k =>
      simp only [List.cons_append, List.cons.injEq] at e
      exact absurd (by rw [e.2]; simp) hp
  · cases k with
    | nil => simp at hk e; exact ⟨hk, e.symm⟩
    | cons z k =>
      simp only [List.cons_append, List.cons.injEq] at e
      exact absurd (by rw [e.2]; simp) hq

/-- what separates two texts at the first occurrence of `c` is unique -/
theorem split_first {c : UInt8} {x y p q : Bytes} (hx : c ∉ x) (hy : c ∉ y) (h : x ++ c :: p = y ++ c :: q) : x = y ∧ p = q := by
  rcases List.append_eq_append_iff.mp h with ⟨k, hk, e⟩ | ⟨k, hk, e⟩
  · cases k with
    | nil => simp at hk e; exact ⟨hk.symm, e⟩
    | cons z k =>
      simp only [List.cons_append, List.cons.injEq] at e
      exact absurd (by rw [hk, e.1]; simp) hy
  · cases k with
    | nil => simp at hk e; exact ⟨hk, e.symm⟩
    | cons z k =>
      simp only [List.cons_append, List.cons.injEq] at e
      exact absurd (by rw [hk, e.1]; simp) hx

theorem indexByte_at {c : UInt8} {x p : Bytes} (h : c ∉ x) : indexByte c (x ++ c :: p) = some x.length := by
  unfold indexByte
  induction x with
  | nil => simp [List.findIdx?_cons]
  | cons y x ih =>
    have hy : y ≠ c := fun e => h (by simp [e])
    have := ih (fun hx => h (by simp [hx]))
    rw [List.cons_append, List.findIdx?_cons]
    simp [hy, this]

theorem lastIndexByte_at {c : UInt8} {x p : Bytes} (h : c ∉ p) : lastIndexByte c (x ++ c :: p) = some x.length := by
  unfold lastIndexByte
  have : (x ++ c :: p).reverse = p.reverse ++ c :: x.reverse := by simp
  rw [this, indexByte_at (by simpa using h)]
  simp

/-- a joined text is split where it was joined -/
theorem split_join {host port : Bytes} (h1 : ∀ c ∈ host, c ≠ lbr ∧ c ≠ rbr) (h2 : colon ∉ port ∧ lbr ∉ port ∧ rbr ∉ port) :
    splitHostPort (joinHostPort host port) = some (host, port) := by
  have hl : lbr ∉ host := fun h => (h1 _ h).1 rfl
  have hr : rbr ∉ host := fun h => (h1 _ h).2 rfl
  unfold joinHostPort
  split
  · have e : [lbr] ++ host ++ [rbr, colon] ++ port = (lbr :: (host ++ [rbr])) ++ colon :: port := by simp
    have e' : [lbr] ++ host ++ [rbr, colon] ++ port = (lbr :: host) ++ rbr :: colon :: port := by simp
    rw [splitHostPort, e, lastIndexByte_at h2.1, ← e, e', indexByte_at (by simp [hr]; decide)]
    have hp : rbr ≠ colon ∧ lbr ≠ rbr ∧ lbr ≠ colon := by decide
    have d1 : List.drop (host.length + 1 + 1) (lbr :: host ++ rbr :: colon :: port) = colon :: port := by
      rw [show lbr :: host ++ rbr :: colon :: port = (lbr :: host ++ [rbr]) ++ (colon :: port) by simp]
      exact List.drop_left' (by simp)
    have d2 : List.drop (host.length + 1 + 1 + 1) (lbr :: host ++ rbr :: colon :: port) = port := by
      rw [show lbr :: host ++ rbr :: colon :: port = (lbr :: host ++ [rbr, colon]) ++ port by simp]
      exact List.drop_left' (by simp)
    have t : List.take host.length (host ++ rbr :: colon :: port) = host := List.take_left' rfl
    simp [d1, d2, t, hl, h2, hp] at *
  · rename_i hc
    have e : host ++ [colon] ++ port = host ++ colon :: port := by simp
    rw [e, splitHostPort, lastIndexByte_at h2.1]
    have t : List.take host.length (host ++ colon :: port) = host := List.take_left' rfl
    have d : List.drop (host.length + 1) (host ++ colon :: port) = port := by
      rw [show host ++ colon :: port = (host ++ [colon]) ++ port by simp]
      exact List.drop_left' (by simp)
    have hh : (host ++ colon :: port).head? ≠ some lbr := by
      cases host with
      | nil => simp; decide
      | cons x r => simp; exact (h1 x (by simp)).1
    have hp : lbr ≠ colon ∧ rbr ≠ colon := by decide
    simp only [if_neg hh, t, if_neg hc, d]
    simp [hl, hr, h2, hp]

theorem join_inj {h1 h2 p1 p2 : Bytes} (a1 : h1.head? ≠ some lbr) (a2 : h2.head? ≠ some lbr) (c1 : colon ∉ p1)
    (c2 : colon ∉ p2) (e : joinHostPort h1 p1 = joinHostPort h2 p2) : h1 = h2 ∧ p1 = p2 := by
  have f : ∀ h p, joinHostPort h p = (if colon ∈ h then lbr :: (h ++ [rbr]) else h) ++ colon :: p := by
    intro h p; unfold joinHostPort; split <;> simp
  rw [f, f] at e
  obtain ⟨e1, e2⟩ := split_last c1 c2 e
  refine ⟨?_, e2⟩
  split at e1 <;> split at e1
  · simpa using e1
  · rw [← e1] at a2; simp at a2
  · rw [e1] at a1; simp at a1
  · exact e1

end Verif.NetIP
