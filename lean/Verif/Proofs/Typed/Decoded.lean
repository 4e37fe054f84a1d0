import Verif.Props.Typed.Into
/-
What the decoders of traffic flow templates return: structures within the limits of the format.
-/
namespace Verif.V2
open Res

theorem parseComp_ok {b : Bytes} {c : Comp} (h : parseComp b = ok c) :
    CompOK c ∧ c.marshalLen ≤ b.length ∧ encComp c = b.take c.marshalLen := by
  unfold parseComp at h
  match b, h with
  | [], h => cases h
  | t :: r, h =>
    rw [if_neg (by simp), idx_zero, bind_ok] at h
    split at h
    · cases h
    rename_i hl
    simp only [List.length_cons] at hl
    rw [slice_of_le (by omega) (by simp; omega), bind_ok] at h
    cases h
    have e : (List.take (1 + compLen t - 1) (List.drop 1 (t :: r))).length = compLen t := by simp; omega
    refine ⟨?_, ?_, ?_⟩
    · rw [CompOK, ← compLen_eq, e]
    · simp only [Comp.marshalLen, e, List.length_cons]; omega
    · simp only [Comp.marshalLen, e, encComp]
      rw [show 1 + compLen t = compLen t + 1 by omega]
      simp

theorem parseComps_ok : ∀ (fuel : Nat) (b : Bytes) (cs : List Comp), parseComps fuel b = ok cs →
    (∀ c ∈ cs, CompOK c) ∧ encComps cs = b
  | 0, _, _, h => by cases h
  | fuel + 1, b, cs, h => by
    unfold parseComps at h
    by_cases hb : b.length > 0
    · rw [if_pos hb] at h
      obtain ⟨c, hc, h⟩ := bind_eq_ok.1 h
      obtain ⟨h1, h2, h3⟩ := parseComp_ok hc
      rw [sliceFrom_of_le h2, bind_ok] at h
      obtain ⟨r, hr, h⟩ := bind_eq_ok.1 h
      cases h
      obtain ⟨i1, i2⟩ := parseComps_ok fuel _ _ hr
      refine ⟨?_, ?_⟩
      · intro x hx
        rcases List.mem_cons.1 hx with rfl | hx
        · exact h1
        · exact i1 x hx
      · rw [show encComps (c :: r) = encComp c ++ encComps r by simp [encComps], i2, h3, List.take_append_drop]
    · rw [if_neg hb] at h
      cases h
      have : b = [] := List.length_eq_zero_iff.1 (by omega)
      exact ⟨by simp, by rw [this]; rfl⟩

theorem filter_first : ∀ x : UInt8, ((x >>> 4) &&& 3) < 4 ∧ (x &&& 0xf) < 16 ∧
    UInt8.ofNat (((x >>> 4) &&& 3).toNat * 16 + (x &&& 0xf).toNat) = x &&& 0x3f :=
  forall_byte (p := fun x => ((x >>> 4) &&& 3) < 4 ∧ (x &&& 0xf) < 16 ∧
    UInt8.ofNat (((x >>> 4) &&& 3).toNat * 16 + (x &&& 0xf).toNat) = x &&& 0x3f) (by decide +kernel)

theorem parseFilter_ok {b : Bytes} {p : Filter} (h : parseFilter b = ok p) :
    FilterOK p ∧ p.marshalLen ≤ b.length ∧
      ∃ x r, b = x :: r ∧ encFilter p = (x &&& 0x3f) :: r.take (p.marshalLen - 1) := by
  unfold parseFilter at h
  match b, h with
  | [], h => cases h
  | [_], h => cases h
  | [_, _], h => cases h
  | x :: y :: z :: r, h =>
    rw [if_neg (by simp), idx_zero, bind_ok, idx_succ, idx_zero, bind_ok, idx_succ, idx_succ, idx_zero, bind_ok] at h
    split at h
    · cases h
    rename_i hl
    simp only [List.length_cons] at hl
    rw [slice_of_le (by omega) (by simp; omega), bind_ok] at h
    obtain ⟨cs, hc, h⟩ := bind_eq_ok.1 h
    cases h
    obtain ⟨h1, h2⟩ := parseComps_ok _ _ _ hc
    have e : (encComps cs).length = z.toNat := by rw [h2]; simp; omega
    obtain ⟨o1, o2, o3⟩ := filter_first x
    have hz := z.toNat_lt
    refine ⟨⟨o1, o2, h1, show (encComps cs).length < 256 by omega, e.symm⟩, ?_, x, _, rfl, ?_⟩
    · simp only [Filter.marshalLen, compsLen_eq, e, List.length_cons]; omega
    · simp only [Filter.marshalLen, compsLen_eq, e, encFilter, o3]
      rw [show 3 + z.toNat - 1 = z.toNat + 1 + 1 by omega, UInt8.ofNat_toNat, h2]
      simp

theorem parseParam_ok {b : Bytes} {p : Param} (h : parseParam b = ok p) :
    ParamOK p ∧ p.marshalLen ≤ b.length ∧ encParam p = b.take p.marshalLen := by
  unfold parseParam at h
  match b, h with
  | [], h => cases h
  | [_], h => cases h
  | x :: y :: r, h =>
    rw [if_neg (by simp), idx_zero, bind_ok, idx_succ, idx_zero, bind_ok] at h
    split at h
    · cases h
    rename_i hl
    simp only [List.length_cons] at hl
    rw [slice_of_le (by omega) (by simp; omega), bind_ok] at h
    cases h
    have e : (List.take (2 + y.toNat - 2) (List.drop 2 (x :: y :: r))).length = y.toNat := by simp; omega
    have hy := y.toNat_lt
    refine ⟨⟨show (List.take (2 + y.toNat - 2) (List.drop 2 (x :: y :: r))).length < 256 by omega, e.symm⟩, ?_, ?_⟩
    · simp only [Param.marshalLen, e, List.length_cons]; omega
    · simp only [Param.marshalLen, e, encParam]
      rw [show 2 + y.toNat = y.toNat + 1 + 1 by omega, UInt8.ofNat_toNat]
      simp

theorem parseParams_ok : ∀ (fuel : Nat) (b : Bytes) (ps : List Param), parseParams fuel b = ok ps →
    (∀ p ∈ ps, ParamOK p) ∧ encParams ps = b
  | 0, _, _, h => by cases h
  | fuel + 1, b, ps, h => by
    unfold parseParams at h
    by_cases hb : b.length > 0
    · rw [if_pos hb] at h
      obtain ⟨c, hc, h⟩ := bind_eq_ok.1 h
      obtain ⟨h1, h2, h3⟩ := parseParam_ok hc
      rw [sliceFrom_of_le h2, bind_ok] at h
      obtain ⟨r, hr, h⟩ := bind_eq_ok.1 h
      cases h
      obtain ⟨i1, i2⟩ := parseParams_ok fuel _ _ hr
      refine ⟨?_, ?_⟩
      · intro x hx
        rcases List.mem_cons.1 hx with rfl | hx
        · exact h1
        · exact i1 x hx
      · rw [show encParams (c :: r) = encParam c ++ encParams r by simp [encParams], i2, h3, List.take_append_drop]
    · rw [if_neg hb] at h
      cases h
      have : b = [] := List.length_eq_zero_iff.1 (by omega)
      exact ⟨by simp, by rw [this]; rfl⟩

theorem getFilters_ok (b : Bytes) : ∀ (n off : Nat) (ps : List Filter) (o : Nat), off ≤ b.length → getFilters b n off = ok (ps, o) →
    (∀ p ∈ ps, FilterOK p) ∧ ps.length = n ∧ o = off + (encFilters ps).length ∧ o ≤ b.length
  | 0, off, ps, o, hl, h => by
    cases h
    exact ⟨by simp, rfl, rfl, hl⟩
  | n + 1, off, ps, o, hl, h => by
    unfold getFilters at h
    rw [sliceFrom_of_le hl, bind_ok] at h
    obtain ⟨p, hp, h⟩ := bind_eq_ok.1 h
    obtain ⟨⟨qs, o'⟩, hq, h⟩ := bind_eq_ok.1 h
    cases h
    obtain ⟨h1, h2, h3⟩ := parseFilter_ok hp
    rw [List.length_drop] at h2
    obtain ⟨i1, i2, i3, i4⟩ := getFilters_ok b n _ _ _ (by omega) hq
    refine ⟨?_, by simp [i2], ?_, i4⟩
    · intro x hx
      rcases List.mem_cons.1 hx with rfl | hx
      · exact h1
      · exact i1 x hx
    · rw [show encFilters (p :: qs) = encFilter p ++ encFilters qs by simp [encFilters], List.length_append, i3]
      have : p.marshalLen = (encFilter p).length := by
        simp [Filter.marshalLen, compsLen_eq, encFilter]; omega
      omega

theorem tft_head_octet : ∀ x : UInt8, (x >>> 5) < 8 ∧ (x &&& 0xf).toNat < 16 :=
  forall_byte (p := fun x => (x >>> 5) < 8 ∧ (x &&& 0xf).toNat < 16) (by decide +kernel)

/-- a decoded template is within the limits of the format -/
theorem parseTFT_ok {b : Bytes} {f : TFT} (h : parseTFT b = ok f) : TFTOK f := by
  unfold parseTFT at h
  match b, h with
  | [], h => cases h
  | x :: r, h =>
    rw [if_neg (by simp), idx_zero, bind_ok] at h
    obtain ⟨o1, o2⟩ := tft_head_octet x
    have fin : ∀ (f0 : TFT) (off : Nat), TFTOK f0 → off ≤ (x :: r).length →
        (if (((x >>> 4) &&& 1) == 1) = true then do
          let s ← sliceFrom (x :: r) off
          let ps ← parseParams (s.length + 1) s
          ok { f0 with params := ps }
        else ok f0) = ok f → TFTOK f := by
      intro f0 off k1 k2 h
      split at h
      · rw [sliceFrom_of_le k2, bind_ok] at h
        obtain ⟨ps, hp, h⟩ := bind_eq_ok.1 h
        cases h
        obtain ⟨p1, -⟩ := parseParams_ok _ _ _ hp
        exact ⟨k1.r_op, k1.r_filters, p1, k1.r_count, k1.r_nofilters, k1.r_noids⟩
      · cases h; exact k1
    simp only [bind_ok] at h
    generalize (x &&& 15).toNat = n at h o2
    by_cases hf : opFilters (x >>> 5) = true
    · rw [if_pos hf] at h
      obtain ⟨⟨ps, o⟩, hg, h⟩ := bind_eq_ok.1 h
      obtain ⟨g1, g2, g3, g4⟩ := getFilters_ok _ _ _ _ _ (by simp) hg
      refine fin _ _ ⟨o1, g1, by simp, by simp [g2]; omega, ?_, fun _ => rfl⟩ g4 h
      intro e1 e3 e4
      simp [opFilters] at hf e1 e3 e4
      rcases hf with (h | h) | h
      · exact absurd h e1
      · exact absurd h e3
      · exact absurd h e4
    · rw [if_neg hf] at h
      split at h
      · split at h
        · cases h
        rename_i h5 hl
        simp only [List.length_cons] at hl
        rw [slice_of_le (by omega) (by simp; omega), bind_ok] at h
        exact fin _ _ ⟨o1, by simp, by simp, by simp; omega, fun _ _ _ => rfl, fun h => absurd h5 h⟩ (by simp; omega) h
      · exact fin _ _ ⟨o1, by simp, by simp, by simp, fun _ _ _ => rfl, fun _ => rfl⟩ (by simp) h

/-! ### FQ-CSID -/

theorem csid_marshal_any (f : CSID) (hk : f.kind < 3) (hn : f.node.length = if f.kind = 1 then 16 else 4) :
    f.marshalTo (List.replicate f.marshalLen 0) =
      ok ([((f.kind <<< 4) &&& (0xf0 : UInt8)) ||| (f.num &&& (0x0f : UInt8))] ++ f.node ++ f.ids.flatMap be16) := by
  have hl : f.marshalLen = 1 + f.node.length + f.ids.length * 2 := by
    have e : f.kind < 3 ↔ f.kind.toNat < 3 := Iff.rfl
    have : f.kind = 0 ∨ f.kind = 1 ∨ f.kind = 2 := by
      rw [e] at hk
      rcases (by omega : f.kind.toNat = 0 ∨ f.kind.toNat = 1 ∨ f.kind.toNat = 2) with h | h | h
      · exact .inl (UInt8.toNat_inj.mp h)
      · exact .inr (.inl (UInt8.toNat_inj.mp h))
      · exact .inr (.inr (UInt8.toNat_inj.mp h))
    rcases this with h | h | h <;> simp [CSID.marshalLen, hn, h]
  refine Writes.marshal ?_ (by rw [hl, List.length_append, flatMap_be16_length]; simp; omega)
  intro z hz
  rw [List.length_append, flatMap_be16_length] at hz
  simp only [List.length_append, List.length_singleton] at hz
  rw [← List.nil_append z]
  simp only [CSID.marshalTo]
  wr
  rw [putCSIDs_writes _ _ _ _ (by lenw) (by lenw)]
  rw [List.length_append, flatMap_be16_length]
  simp

end Verif.V2
