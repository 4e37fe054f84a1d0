import Verif.Model.Typed.TFT
import Verif.Proofs.Typed.Writes
import Verif.Props.Typed.ULI
/-
Property theorem C46 (traffic flow templates), and C48 for them.
-/
set_option linter.unusedSimpArgs false
namespace Verif.V2
open Res NetIP

variable (g : UInt8 → Bool)

/-! ### the specification, TS 24.008 10.5.6.12 -/

/-- the size of the contents of each component type -/
def tftSizes : List (UInt8 × Nat) :=
  [(0x10, 8), (0x11, 8), (0x20, 32), (0x21, 17), (0x23, 17), (0x30, 1), (0x40, 2), (0x41, 4), (0x50, 2), (0x51, 4),
   (0x60, 4), (0x70, 2), (0x80, 3), (0x81, 6), (0x82, 6), (0x83, 2), (0x84, 2), (0x85, 1), (0x86, 1), (0x87, 2)]

def encComp (c : Comp) : Bytes := c.typ :: c.contents
def encComps (cs : List Comp) : Bytes := (cs.map encComp).flatten

def encFilter (p : Filter) : Bytes :=
  [UInt8.ofNat (p.dir.toNat * 16 + p.ident.toNat), p.prec, UInt8.ofNat (encComps p.comps).length] ++ encComps p.comps
def encFilters (ps : List Filter) : Bytes := (ps.map encFilter).flatten

def encParam (p : Param) : Bytes := [p.ident, UInt8.ofNat p.contents.length] ++ p.contents
def encParams (ps : List Param) : Bytes := (ps.map encParam).flatten

/-- operation code, E bit, number of packet filters; packet filter list; parameters list -/
def encTFT (f : TFT) : Bytes :=
  [UInt8.ofNat (f.op.toNat * 32 + (if f.params = [] then 0 else 16) + (f.filters.length + f.ids.length))] ++
    encFilters f.filters ++ f.ids ++ encParams f.params

/-- a component of a known type with contents of the right size (a component of an unknown type must be empty) -/
def CompOK (c : Comp) : Prop := c.contents.length = (tftSizes.lookup c.typ).getD 0

def FilterOK (p : Filter) : Prop :=
  p.dir < 4 ∧ p.ident < 16 ∧ (∀ c ∈ p.comps, CompOK c) ∧ (encComps p.comps).length < 256 ∧
    p.len.toNat = (encComps p.comps).length

def ParamOK (p : Param) : Prop := p.contents.length < 256 ∧ p.len.toNat = p.contents.length

/-- a template within the limits of the format: the operation decides what list follows -/
structure TFTOK (f : TFT) : Prop where
  r_op : f.op < 8
  r_filters : ∀ p ∈ f.filters, FilterOK p
  r_params : ∀ p ∈ f.params, ParamOK p
  r_count : f.filters.length + f.ids.length < 16
  r_nofilters : f.op ≠ 1 → f.op ≠ 3 → f.op ≠ 4 → f.filters = []
  r_noids : f.op ≠ 5 → f.ids = []

/-! ### components -/

theorem compLen_eq : ∀ t, compLen t = (tftSizes.lookup t).getD 0 :=
  forall_byte (p := fun t => compLen t = (tftSizes.lookup t).getD 0) (by decide +kernel)

theorem comp_marshalLen (c : Comp) : c.marshalLen = (encComp c).length := by simp [Comp.marshalLen, encComp]; omega

theorem compsLen_eq (cs : List Comp) : compsLen cs = (encComps cs).length := by
  induction cs with
  | nil => rfl
  | cons c cs ih =>
    simp only [compsLen, encComps, List.map_cons, List.sum_cons, List.flatten_cons, List.length_append] at ih ⊢
    rw [ih, comp_marshalLen]

theorem comp_writes (c : Comp) : Writes c.marshalTo (encComp c) := by
  intro z hz
  simp only [encComp, List.length_cons] at hz
  cases z with
  | nil => simp at hz
  | cons x z =>
    simp only [List.length_cons] at hz
    rw [Comp.marshalTo, if_neg (by simp; omega), setAt_of_lt (by simp)]
    simp only [bind_ok, List.set_cons_zero]
    rw [show c.typ :: z = [c.typ] ++ z from rfl, copyAt_append (by rfl) (by len) (by omega)]
    simp [encComp]

theorem putComps_eq : ∀ (cs : List Comp) (pre z : Bytes) (off : Nat), off = pre.length → (encComps cs).length ≤ z.length →
    putComps cs off (pre ++ z) = ok (pre ++ encComps cs ++ z.drop (encComps cs).length)
  | [], pre, z, off, _, _ => by simp [putComps, encComps]
  | c :: cs, pre, z, off, ho, hz => by
    simp only [encComps, List.map_cons, List.flatten_cons, List.length_append] at hz
    rw [putComps, comp_marshalLen, if_neg (by simp; omega), (comp_writes c).sub ho rfl (by omega)]
    simp only [bind_ok]
    rw [putComps_eq cs _ _ _ (by simp; omega) (by simp only [encComps, List.length_drop]; omega)]
    simp [encComps, List.drop_drop, Nat.add_comm]

theorem parseComp_eq {c : Comp} (hc : CompOK c) (rest : Bytes) : parseComp (encComp c ++ rest) = ok c := by
  have hl : compLen c.typ = c.contents.length := by rw [compLen_eq, hc]
  rw [parseComp, if_neg (by simp [encComp])]
  have h0 : idx (encComp c ++ rest) 0 = ok c.typ := by simp [encComp]
  rw [h0]
  simp only [bind_ok, hl]
  rw [if_neg (by simp [encComp]; omega)]
  have : slice (encComp c ++ rest) 1 (1 + c.contents.length) = ok c.contents := by
    rw [show encComp c ++ rest = [c.typ] ++ (c.contents ++ rest) by simp [encComp]]
    exact slice_mid rfl rfl
  rw [this]
  rfl

theorem parseComps_eq : ∀ (cs : List Comp) (fuel : Nat), (∀ c ∈ cs, CompOK c) → (encComps cs).length < fuel →
    parseComps fuel (encComps cs) = ok cs
  | _, 0, _, h => by omega
  | [], fuel + 1, _, _ => by simp [parseComps, encComps]
  | c :: cs, fuel + 1, hc, hf => by
    have e : encComps (c :: cs) = encComp c ++ encComps cs := by simp [encComps]
    rw [e] at hf ⊢
    have l0 : 0 < (encComp c).length := by simp [encComp]
    simp only [List.length_append] at hf
    rw [parseComps, if_pos (by simp; omega), parseComp_eq (hc c (by simp))]
    simp only [bind_ok]
    rw [comp_marshalLen, sliceFrom_of_le (by simp)]
    simp only [bind_ok, List.drop_left]
    rw [parseComps_eq cs fuel (fun x hx => hc x (by simp [hx])) (by omega)]
    rfl

/-! ### packet filters -/

theorem filter_octet : ∀ d i : UInt8, d < 4 → i < 16 →
    ((d &&& 3) <<< 4) ||| (i &&& 0xf) = UInt8.ofNat (d.toNat * 16 + i.toNat) ∧
    (UInt8.ofNat (d.toNat * 16 + i.toNat) >>> 4) &&& 3 = d ∧ UInt8.ofNat (d.toNat * 16 + i.toNat) &&& 0xf = i := by
  intro d i hd hi
  have hd' : d.toNat < 4 := hd
  have hi' : i.toNat < 16 := hi
  have key : ∀ (a : Fin 4) (b : Fin 16),
      ((UInt8.ofNat a.val &&& 3) <<< 4) ||| (UInt8.ofNat b.val &&& 0xf) = UInt8.ofNat (a.val * 16 + b.val) ∧
      (UInt8.ofNat (a.val * 16 + b.val) >>> 4) &&& 3 = UInt8.ofNat a.val ∧
      UInt8.ofNat (a.val * 16 + b.val) &&& 0xf = UInt8.ofNat b.val := by decide
  have := key ⟨d.toNat, hd'⟩ ⟨i.toNat, hi'⟩
  simpa using this

theorem filter_marshalLen (p : Filter) : p.marshalLen = (encFilter p).length := by
  simp [Filter.marshalLen, encFilter, compsLen_eq]; omega

theorem filter_writes {p : Filter} (hp : FilterOK p) : Writes p.marshalTo (encFilter p) := by
  obtain ⟨h1, h2, h3, h4, h5⟩ := hp
  intro z hz
  simp only [encFilter, List.length_append, List.length_cons, List.length_nil] at hz
  match z, hz with
  | x :: y :: w :: z, hz =>
    simp only [List.length_cons] at hz
    have hl : p.len = UInt8.ofNat (encComps p.comps).length := by rw [← h5]; simp
    rw [Filter.marshalTo, if_neg (by simp), (filter_octet _ _ h1 h2).1]
    simp only [setAt, List.length_cons, bind_ok]
    rw [if_pos (by omega)]
    simp only [bind_ok, List.set_cons_zero, List.length_cons]
    rw [if_pos (by omega)]
    simp only [bind_ok, List.set_cons_zero, List.set_cons_succ, List.length_cons]
    rw [if_pos (by omega)]
    simp only [bind_ok, List.set_cons_zero, List.set_cons_succ]
    have := putComps_eq p.comps [UInt8.ofNat (p.dir.toNat * 16 + p.ident.toNat), p.prec, p.len] z 3 rfl (by omega)
    simp only [List.cons_append, List.nil_append] at this
    rw [this, hl]
    simp [encFilter]
  | [], hz => simp at hz
  | [_], hz => simp at hz; omega
  | [_, _], hz => simp at hz; omega

theorem parseFilter_eq {p : Filter} (hp : FilterOK p) (rest : Bytes) : parseFilter (encFilter p ++ rest) = ok p := by
  obtain ⟨h1, h2, h3, h4, h5⟩ := hp
  have hl : p.len = UInt8.ofNat (encComps p.comps).length := by rw [← h5]; simp
  have e : encFilter p ++ rest =
      [UInt8.ofNat (p.dir.toNat * 16 + p.ident.toNat), p.prec, p.len] ++ (encComps p.comps ++ rest) := by
    simp [encFilter, hl]
  rw [e, parseFilter, if_neg (by simp)]
  simp only [List.cons_append, List.nil_append, idx_zero, idx_succ, bind_ok]
  rw [if_neg (by simp; omega)]
  have : slice (UInt8.ofNat (p.dir.toNat * 16 + p.ident.toNat) :: p.prec :: p.len :: (encComps p.comps ++ rest)) 3
      (3 + p.len.toNat) = ok (encComps p.comps) := by
    have := slice_mid (pre := [UInt8.ofNat (p.dir.toNat * 16 + p.ident.toNat), p.prec, p.len]) (mid := encComps p.comps)
      (rest := rest) (lo := 3) (hi := 3 + p.len.toNat) rfl (by rw [h5])
    simpa using this
  have idx1 : ∀ (a b : UInt8) (r : Bytes), idx (a :: b :: r) 1 = ok b := fun _ _ _ => rfl
  have idx2 : ∀ (a b c : UInt8) (r : Bytes), idx (a :: b :: c :: r) 2 = ok c := fun _ _ _ _ => rfl
  rw [this]
  simp only [bind_ok]
  rw [parseComps_eq _ _ h3 (by omega)]
  simp only [bind_ok]
  obtain ⟨-, f2, f3⟩ := filter_octet _ _ h1 h2
  rw [f2, f3]

theorem putFilters_eq : ∀ (ps : List Filter) (pre z : Bytes) (off : Nat), (∀ p ∈ ps, FilterOK p) → off = pre.length →
    (encFilters ps).length ≤ z.length →
    putFilters ps off (pre ++ z) =
      ok (pre ++ encFilters ps ++ z.drop (encFilters ps).length, off + (encFilters ps).length)
  | [], pre, z, off, _, _, _ => by simp [putFilters, encFilters]
  | p :: ps, pre, z, off, hp, ho, hz => by
    simp only [encFilters, List.map_cons, List.flatten_cons, List.length_append] at hz
    rw [putFilters, (filter_writes (hp p (by simp))).subEnd ho rfl (by omega)]
    simp only [bind_ok]
    rw [putFilters_eq ps _ _ _ (fun x hx => hp x (by simp [hx])) (by rw [filter_marshalLen]; simp; omega)
      (by simp only [encFilters, List.length_drop]; omega), filter_marshalLen]
    simp [encFilters, List.drop_drop, Nat.add_comm, Nat.add_assoc, Nat.add_left_comm]

theorem getFilters_eq : ∀ (ps : List Filter) (pre rest : Bytes) (off : Nat), (∀ p ∈ ps, FilterOK p) → off = pre.length →
    getFilters (pre ++ (encFilters ps ++ rest)) ps.length off = ok (ps, off + (encFilters ps).length)
  | [], pre, rest, off, _, _ => by simp [getFilters, encFilters]
  | p :: ps, pre, rest, off, hp, ho => by
    have e : encFilters (p :: ps) = encFilter p ++ encFilters ps := by simp [encFilters]
    rw [e, List.length_cons, getFilters, sliceFrom_of_le (by simp; omega)]
    subst ho
    simp only [bind_ok, List.drop_left, List.append_assoc]
    rw [parseFilter_eq (hp p (by simp))]
    simp only [bind_ok]
    have ih := getFilters_eq ps (pre ++ encFilter p) rest (pre.length + p.marshalLen) (fun x hx => hp x (by simp [hx]))
      (by simp [filter_marshalLen])
    rw [List.append_assoc] at ih
    rw [ih, filter_marshalLen]
    simp [Nat.add_assoc]

/-! ### parameters -/

theorem param_marshalLen (p : Param) : p.marshalLen = (encParam p).length := by simp [Param.marshalLen, encParam]; omega

theorem param_writes {p : Param} (hp : ParamOK p) : Writes p.marshalTo (encParam p) := by
  intro z hz
  simp only [encParam, List.length_append, List.length_cons, List.length_nil] at hz
  have hl : p.len = UInt8.ofNat p.contents.length := by rw [← hp.2]; simp
  match z, hz with
  | x :: y :: z, hz =>
    simp only [List.length_cons] at hz
    rw [Param.marshalTo, if_neg (by simp)]
    simp only [setAt, List.length_cons]
    rw [if_pos (by omega)]
    simp only [bind_ok, List.set_cons_zero, List.length_cons]
    rw [if_pos (by omega)]
    simp only [bind_ok, List.set_cons_zero, List.set_cons_succ]
    rw [if_neg (by simp; omega), show p.ident :: p.len :: z = [p.ident, p.len] ++ z from rfl,
      copyAt_append (by rfl) (by len) (by omega), hl]
    simp [encParam]
  | [], hz => simp at hz
  | [_], hz => simp at hz; omega

theorem putParams_eq : ∀ (ps : List Param) (pre z : Bytes) (off : Nat), (∀ p ∈ ps, ParamOK p) → off = pre.length →
    (encParams ps).length ≤ z.length →
    putParams ps off (pre ++ z) = ok (pre ++ encParams ps ++ z.drop (encParams ps).length)
  | [], pre, z, off, _, _, _ => by simp [putParams, encParams]
  | p :: ps, pre, z, off, hp, ho, hz => by
    simp only [encParams, List.map_cons, List.flatten_cons, List.length_append] at hz
    rw [putParams, (param_writes (hp p (by simp))).subEnd ho rfl (by omega)]
    simp only [bind_ok]
    rw [putParams_eq ps _ _ _ (fun x hx => hp x (by simp [hx])) (by rw [param_marshalLen]; simp; omega)
      (by simp only [encParams, List.length_drop]; omega)]
    simp [encParams, List.drop_drop, Nat.add_comm]

theorem parseParam_eq {p : Param} (hp : ParamOK p) (rest : Bytes) : parseParam (encParam p ++ rest) = ok p := by
  have hl : p.len = UInt8.ofNat p.contents.length := by rw [← hp.2]; simp
  have e : encParam p ++ rest = [p.ident, p.len] ++ (p.contents ++ rest) := by simp [encParam, hl]
  have h0 : idx ([p.ident, p.len] ++ (p.contents ++ rest)) 0 = ok p.ident := rfl
  have h1 : idx ([p.ident, p.len] ++ (p.contents ++ rest)) 1 = ok p.len := rfl
  rw [e, parseParam, if_neg (by simp), h0, h1]
  simp only [bind_ok]
  rw [if_neg (by simp [hp.2]; omega), slice_mid (by rfl) (by rw [hp.2])]
  rfl

theorem parseParams_eq : ∀ (ps : List Param) (fuel : Nat), (∀ p ∈ ps, ParamOK p) → (encParams ps).length < fuel →
    parseParams fuel (encParams ps) = ok ps
  | _, 0, _, h => by omega
  | [], fuel + 1, _, _ => by simp [parseParams, encParams]
  | p :: ps, fuel + 1, hp, hf => by
    have e : encParams (p :: ps) = encParam p ++ encParams ps := by simp [encParams]
    rw [e] at hf ⊢
    have l0 : 0 < (encParam p).length := by simp [encParam]
    simp only [List.length_append] at hf
    rw [parseParams, if_pos (by simp; omega), parseParam_eq (hp p (by simp))]
    simp only [bind_ok]
    rw [param_marshalLen, sliceFrom_of_le (by simp)]
    simp only [bind_ok, List.drop_left]
    rw [parseParams_eq ps fuel (fun x hx => hp x (by simp [hx])) (by omega)]
    rfl

/-! ### the template -/

theorem sum_filters (ps : List Filter) : (ps.map Filter.marshalLen).sum = (encFilters ps).length := by
  induction ps with
  | nil => rfl
  | cons c cs ih => simp only [encFilters, List.map_cons, List.sum_cons, List.flatten_cons, List.length_append] at ih ⊢; rw [ih, filter_marshalLen]

theorem sum_params (ps : List Param) : (ps.map Param.marshalLen).sum = (encParams ps).length := by
  induction ps with
  | nil => rfl
  | cons c cs ih => simp only [encParams, List.map_cons, List.sum_cons, List.flatten_cons, List.length_append] at ih ⊢; rw [ih, param_marshalLen]

/-- the first octet as the code writes it: the E bit is the parity of the number of parameters -/
def tftHead (op : UInt8) (odd n : Nat) : UInt8 := UInt8.ofNat (op.toNat * 32 + odd * 16 + n)

theorem tft_octet (op : UInt8) (e n : Nat) (ho : op < 8) (he : e < 2) (hn : n < 16) :
    (((op &&& 7) <<< 5) ||| (UInt8.ofNat e <<< 4) ||| UInt8.ofNat (n % 16)) = tftHead op e n ∧
    tftHead op e n >>> 5 = op ∧ (((tftHead op e n >>> 4) &&& 1) == 1) = decide (e = 1) ∧
    (tftHead op e n &&& 0xf).toNat = n := by
  have ho' : op.toNat < 8 := ho
  have key : ∀ (a : Fin 8) (b : Fin 2) (c : Fin 16),
      (((UInt8.ofNat a.val &&& 7) <<< 5) ||| (UInt8.ofNat b.val <<< 4) ||| UInt8.ofNat (c.val % 16)) =
        UInt8.ofNat (a.val * 32 + b.val * 16 + c.val) ∧
      UInt8.ofNat (a.val * 32 + b.val * 16 + c.val) >>> 5 = UInt8.ofNat a.val ∧
      (((UInt8.ofNat (a.val * 32 + b.val * 16 + c.val) >>> 4) &&& 1) == 1) = decide (b.val = 1) ∧
      (UInt8.ofNat (a.val * 32 + b.val * 16 + c.val) &&& 0xf).toNat = c.val := by decide +kernel
  have := key ⟨op.toNat, ho'⟩ ⟨e, he⟩ ⟨n, hn⟩
  simpa [tftHead] using this

/-- what the code writes -/
def tftOut (f : TFT) : Bytes :=
  [tftHead f.op (f.params.length % 2) (f.filters.length + f.ids.length)] ++ encFilters f.filters ++ f.ids ++ encParams f.params

theorem tft_op_cases {op : UInt8} (h : opFilters op = false) : op ≠ 1 ∧ op ≠ 3 ∧ op ≠ 4 := by
  simp only [opFilters, Bool.or_eq_false_iff, beq_eq_false_iff_ne] at h
  exact ⟨h.1.1, h.1.2, h.2⟩

theorem tft_op_ne5 {op : UInt8} (h : opFilters op = true) : op ≠ 5 := by
  rintro rfl; simp [opFilters] at h

theorem tft_marshalLen (f : TFT) : f.marshalLen = (tftOut f).length := by
  simp [TFT.marshalLen, sum_filters, sum_params, tftOut, encFilters, encParams]; omega

theorem tft_writes {f : TFT} (h : TFTOK f) : Writes f.marshalTo (tftOut f) := by
  intro z hz
  cases z with
  | nil => simp [tftOut] at hz
  | cons x z =>
    simp only [tftOut, List.length_append, List.length_cons, List.length_nil] at hz
    rw [TFT.marshalTo, if_neg (by simp)]
    have hcount : (if f.op = 5 then f.ids.length else f.filters.length) = f.filters.length + f.ids.length := by
      by_cases h5 : f.op = 5
      · rw [if_pos h5, h.r_nofilters (by rw [h5]; decide) (by rw [h5]; decide) (by rw [h5]; decide)]; simp
      · rw [if_neg h5, h.r_noids h5]; simp
    simp only [hcount]
    rw [(tft_octet f.op (f.params.length % 2) _ h.r_op (Nat.mod_lt _ (by decide)) h.r_count).1, setAt_of_lt (by simp)]
    simp only [bind_ok, List.set_cons_zero]
    generalize hH : tftHead f.op (f.params.length % 2) (f.filters.length + f.ids.length) = H
    by_cases ho : opFilters f.op = true
    · have hids := h.r_noids (tft_op_ne5 ho)
      rw [if_pos ho, show H :: z = [H] ++ z from rfl, putFilters_eq _ _ _ _ h.r_filters (by rfl) (by omega)]
      simp only [bind_ok]
      rw [putParams_eq _ _ _ _ h.r_params (by simp; omega) (by simp; omega)]
      rw [tftOut, hH]
      simp [hids, List.drop_drop]
    · simp only [Bool.not_eq_true] at ho
      obtain ⟨o1, o3, o4⟩ := tft_op_cases ho
      have hfs := h.r_nofilters o1 o3 o4
      rw [ho, if_neg (by simp)]
      simp only [hfs, encFilters, List.map_nil, List.flatten_nil, List.length_nil] at hz
      by_cases h5 : f.op = 5
      · rw [if_pos h5, show H :: z = [H] ++ z from rfl, copyAt_append (by rfl) (by simp [hfs]) (by omega)]
        simp only [bind_ok]
        rw [putParams_eq _ _ _ _ h.r_params (by simp [hfs]; omega) (by simp; omega)]
        rw [tftOut, hH]
        simp [hfs, encFilters, List.drop_drop]
      · have hids := h.r_noids h5
        rw [if_neg h5]
        rw [show H :: z = [H] ++ z from rfl, putParams_eq _ _ _ _ h.r_params (by rfl) (by omega)]
        rw [tftOut, hH]
        simp [hfs, hids, encFilters, List.drop_drop]

theorem tft_parse {f : TFT} (h : TFTOK f) :
    parseTFT (tftOut f) = ok { f with params := if f.params.length % 2 = 1 then f.params else [] } := by
  obtain ⟨-, f1, f2, f3⟩ := tft_octet f.op (f.params.length % 2) _ h.r_op (Nat.mod_lt _ (by decide)) h.r_count
  have e : tftOut f = [tftHead f.op (f.params.length % 2) (f.filters.length + f.ids.length)] ++
      (encFilters f.filters ++ (f.ids ++ encParams f.params)) := by simp [tftOut]
  rw [e]
  generalize tftHead f.op (f.params.length % 2) (f.filters.length + f.ids.length) = H at *
  rw [parseTFT, if_neg (by simp)]
  have h0 : ∀ r, idx ([H] ++ r) 0 = ok H := fun r => rfl
  rw [h0]
  simp only [bind_ok, f1, f2, f3]
  have fin : ∀ (t : TFT) (off : Nat) (pre : Bytes), off = pre.length →
      (if decide (f.params.length % 2 = 1) = true then (do
        let s ← sliceFrom (pre ++ encParams f.params) off
        let ps ← parseParams (s.length + 1) s
        ok { t with params := ps }) else ok t) =
      ok (if f.params.length % 2 = 1 then { t with params := f.params } else t) := by
    intro t off pre ho
    by_cases hp : f.params.length % 2 = 1
    · rw [if_pos (by simp [hp]), if_pos hp, sliceFrom_of_le (by simp; omega)]
      subst ho
      simp only [bind_ok, List.drop_left]
      rw [parseParams_eq _ _ h.r_params (by omega)]
      rfl
    · rw [if_neg (by simp [hp]), if_neg hp]
  obtain ⟨op, fs, ids, ps⟩ := f
  simp only at *
  by_cases ho : opFilters op = true
  · have hids := h.r_noids (tft_op_ne5 ho)
    simp only at hids
    subst hids
    rw [if_pos ho, List.length_nil, Nat.add_zero, getFilters_eq _ _ _ _ h.r_filters (by rfl)]
    simp only [bind_ok]
    have := fin ⟨op, fs, [], []⟩ (1 + (encFilters fs).length) ([H] ++ encFilters fs) (by simp; omega)
    simp only [List.append_assoc, List.nil_append] at this ⊢
    rw [this]
    split <;> rfl
  · simp only [Bool.not_eq_true] at ho
    obtain ⟨o1, o3, o4⟩ := tft_op_cases ho
    have hfs := h.r_nofilters o1 o3 o4
    simp only at hfs
    subst hfs
    rw [ho, if_neg (by simp)]
    by_cases h5 : op = 5
    · rw [if_pos h5, if_neg (by simp [encFilters]; omega)]
      simp only [encFilters, List.map_nil, List.flatten_nil, List.nil_append, List.length_nil, Nat.zero_add]
      rw [slice_mid (by rfl) rfl]
      simp only [bind_ok]
      have := fin ⟨op, [], ids, []⟩ (1 + ids.length) ([H] ++ ids) (by simp; omega)
      rw [List.append_assoc] at this
      rw [this]
      split <;> rfl
    · have hids := h.r_noids h5
      simp only at hids
      subst hids
      rw [if_neg h5]
      simp only [bind_ok, encFilters, List.map_nil, List.flatten_nil, List.nil_append]
      rw [fin ⟨op, [], [], []⟩ 1 [H] rfl]
      split <;> rfl

/-- the template as a caller gives it: lists of pointers, none of them nil -/
theorem newTFT_eq (f : TFT) : newTFT f.op (f.filters.map some) f.ids (f.params.map some) = f := by
  simp [newTFT, List.filterMap_map]

/-- C46 for the templates the code gets right: every operation, every list of up to 15 packet filters or identifiers, and no
parameter or an odd number of them.  The constructor returns the 3GPP encoding, the element survives the wire, and the
accessor returns the template.  For an even number of parameters see `C46_params_lost`. -/
theorem C46_tft_partial {f : TFT} (h : TFTOK f) (hp : f.params = [] ∨ f.params.length % 2 = 1)
    (hl : (encTFT f).length < 65536) {t : UInt8} (ht : t = 84 ∨ t = 85) (hg : g t = false) (n : UInt8) :
    ∃ i, newBearerTFT t f.op (f.filters.map some) f.ids (f.params.map some) = ok (some i) ∧
      (i.withInstance n).payload = encTFT f ∧ Carried g (i.withInstance n) ∧ (i.withInstance n).tft g = ok f := by
  have e : tftOut f = encTFT f := by
    unfold tftOut encTFT tftHead
    congr 4
    rcases hp with hp | hp
    · simp [hp]
    · have : f.params ≠ [] := by intro h0; simp [h0] at hp
      simp [hp, this]
  have hpar : (if f.params.length % 2 = 1 then f.params else []) = f.params := by
    rcases hp with hp | hp
    · simp [hp]
    · rw [if_pos hp]
  refine ⟨newIE t 0 (encTFT f), ?_, ?_, ?_, ?_⟩
  · rw [newBearerTFT, newTFT_eq, TFT.marshal, tft_marshalLen, (tft_writes h).marshal rfl, e]; rfl
  · rw [withInstance_new]; rfl
  · rw [withInstance_new]; exact carried_new g hl hg
  · rw [withInstance_new, IE.tft, if_pos (by simpa using ht), payload_new, ← e, tft_parse h, hpar]

/-- C46, what the code gets wrong: an even number of parameters is serialised without the E bit, so the receiver does not see
any of them. -/
theorem C46_params_lost {f : TFT} (h : TFTOK f) (hp : f.params.length % 2 = 0) {t : UInt8} (ht : t = 84 ∨ t = 85) :
    ∃ i, newBearerTFT t f.op (f.filters.map some) f.ids (f.params.map some) = ok (some i) ∧
      i.tft g = ok { f with params := [] } := by
  refine ⟨newIE t 0 (tftOut f), ?_, ?_⟩
  · rw [newBearerTFT, newTFT_eq, TFT.marshal, tft_marshalLen, (tft_writes h).marshal rfl]; rfl
  · rw [IE.tft, if_pos (by simpa using ht), payload_new, tft_parse h, if_neg (by omega)]

example : newBearerTFT 84 1 [some (newFilter 3 5 200 [compU8 0x30 17])] [] [some (newParam 1 [0xaa]), some (newParam 2 [0xbb])] =
      ok (some (newIE 84 0 [0x21, 0x35, 200, 2, 0x30, 17, 1, 1, 0xaa, 2, 1, 0xbb])) ∧
    (newIE 84 0 [0x21, 0x35, 200, 2, 0x30, 17, 1, 1, 0xaa, 2, 1, 0xbb]).tft defaultGrouped =
      ok ⟨1, [newFilter 3 5 200 [compU8 0x30 17]], [], []⟩ := by decide

/-- C46 through a Bearer Context: the first Bearer TFT among the elements is returned -/
theorem C46_in_bearer_context {i : IE} (ht : i.typ = 93) (hl : 0 < i.payload.length) {ies : List IE}
    (hp : parseMulti g i.payload = ok ies) {c : IE} (hc : ies.find? (fun c => c.typ == 84) = some c) : i.tft g = c.tft g := by
  have h84 : c.typ = 84 := by have := List.find?_some hc; simpa using this
  rw [IE.tft, if_neg (by rw [ht]; decide), if_pos ht, IE.bearerContext, if_neg (by simp [ht]), if_neg (by omega), hp]
  simp only [bind_ok, hc]
  rw [IE.tft, if_pos (Or.inl h84)]

theorem take_be16 (v : UInt16) : (be16 v).take 2 = be16 v := rfl
theorem drop_be16 (v : UInt16) : (be16 v).drop 2 = [] := rfl
theorem take_be32 (v : UInt32) : (be32 v).take 4 = be32 v := rfl

/-- C46, components: every constructor but those with an IPv6 address gives a component within the format whose accessor
returns the values given -/
theorem C46_components_partial (v4 mask4 mac : Bytes) (o p : UInt8) (v w : UInt16) (x y : UInt32)
    (h4 : v4.length = 4) (hm : mask4.length = 4) (hmac : mac.length = 6) (hx : x.toNat < 2 ^ 24) :
    (∀ t, t = 0x10 ∨ t = 0x11 → CompOK (compAddr t v4 mask4) ∧ (compAddr t v4 mask4).ipv4 t = ok (v4, mask4)) ∧
    (∀ t, t = 0x30 ∨ t = 0x85 ∨ t = 0x86 → CompOK (compU8 t o) ∧ (compU8 t o).u8 t = ok o) ∧
    (∀ t, t = 0x40 ∨ t = 0x50 ∨ t = 0x83 ∨ t = 0x84 ∨ t = 0x87 → CompOK (compU16 t v) ∧ (compU16 t v).u16 t = ok v) ∧
    (∀ t, t = 0x41 ∨ t = 0x51 → CompOK (compRange t v w) ∧ (compRange t v w).range t = ok (v, w)) ∧
    (CompOK (compU32 0x60 y) ∧ (compU32 0x60 y).u32 0x60 = ok y) ∧
    (CompOK (compPair 0x70 o p) ∧ (compPair 0x70 o p).pair 0x70 = ok (o, p)) ∧
    (CompOK (compU24 0x80 x) ∧ (compU24 0x80 x).u24 0x80 = ok x) ∧
    (∀ t, t = 0x81 ∨ t = 0x82 → CompOK (compMAC t mac) ∧ (compMAC t mac).mac t = ok mac) := by
  refine ⟨?_, ?_, ?_, ?_, ?_, ?_, ?_, ?_⟩
  · intro t ht
    match v4, mask4, h4, hm with
    | [_, _, _, _], [_, _, _, _], _, _ =>
      rcases ht with rfl | rfl <;> exact ⟨rfl, rfl⟩
  · rintro t (rfl | rfl | rfl) <;> exact ⟨rfl, rfl⟩
  · rintro t (rfl | rfl | rfl | rfl | rfl) <;> refine ⟨rfl, ?_⟩ <;>
      simp [compU16, Comp.u16, Comp.guard, slice, take_be16]
  · rintro t (rfl | rfl) <;> refine ⟨rfl, ?_⟩ <;>
      simp [compRange, Comp.range, Comp.guard, slice, List.take_append, List.drop_append, take_be16, drop_be16]
  · refine ⟨rfl, ?_⟩; simp [compU32, Comp.u32, Comp.guard, slice, take_be32]
  · exact ⟨rfl, rfl⟩
  · refine ⟨rfl, ?_⟩
    have : Utils.uint24To32 (Utils.uint32To24 x) = x := by rw [(Utils.C03_uint24 x).1, uint24_be24 hx]
    have hs : slice (Utils.uint32To24 x) 0 3 = ok (Utils.uint32To24 x) := rfl
    change (do let s ← slice (Utils.uint32To24 x) 0 3; ok (Utils.uint24To32 s)) = ok x
    rw [hs, bind_ok, this]
  · intro t ht
    match mac, hmac with
    | [_, _, _, _, _, _], _ => rcases ht with rfl | rfl <;> exact ⟨rfl, rfl⟩

example : compRange 0x41 1000 2000 = ⟨0x41, [0x03, 0xe8, 0x07, 0xd0]⟩ ∧ (compRange 0x41 1000 2000).range 0x41 = ok (1000, 2000) := by
  decide

/-- C46, components with an IPv6 address: the component is built correctly, but the mask comes back without its first octet,
and reading a prefix length panics -/
theorem C46_ipv6_wrong (v6 mask : Bytes) (n : UInt8) (h6 : v6.length = 16) (hm : mask.length = 16) :
    CompOK (compAddr 0x20 v6 mask) ∧ (compAddr 0x20 v6 mask).ipv6 = ok (v6, mask.drop 1) ∧
    (∀ t, t = 0x21 ∨ t = 0x23 → CompOK (compPrefix t v6 n) ∧ (compPrefix t v6 n).ipv6Prefix t = .panic) := by
  refine ⟨?_, ?_, ?_⟩
  · simp [CompOK, compAddr, h6, hm, tftSizes]; rfl
  · simp [Comp.ipv6, Comp.guard, compAddr, h6, hm, slice]
    rw [List.drop_append, List.drop_eq_nil_of_le (by omega), h6]
    simp only [Nat.reduceSub, List.nil_append, List.drop_one]
    rw [List.take_of_length_le (by simp [hm])]
  · rintro t (rfl | rfl) <;> refine ⟨?_, ?_⟩ <;>
      simp [CompOK, compPrefix, h6, tftSizes, Comp.ipv6Prefix, Comp.guard, slice, idx] <;> rfl

example : (newBearerTFT 84 1 [some (newFilter 3 5 200 [compU8 0x30 17, compU16 0x50 80])] []
      [some (newParam 1 [0xaa])]) =
    ok (some (newIE 84 0 [0x31, 0x35, 200, 5, 0x30, 17, 0x50, 0, 80, 1, 1, 0xaa])) := by decide
example : (newIE 84 0 [0xa2, 1, 2]).tft g = ok ⟨5, [], [1, 2], []⟩ := by
  rw [IE.tft, if_pos (by simp)]; decide

/-! ### C48 -/

theorem parseComp_returns (b : Bytes) : Returns (parseComp b) := by unfold parseComp; ret
theorem parseComp_len {b : Bytes} {c : Comp} (h : parseComp b = ok c) : c.marshalLen ≤ b.length ∧ 1 ≤ c.marshalLen := by
  unfold parseComp at h
  split at h
  · simp at h
  · rename_i h1
    rw [idx_of_lt (by omega)] at h
    simp only [bind_ok] at h
    split at h
    · simp at h
    · rename_i h2
      rw [slice_of_le (by omega) (by omega)] at h
      simp only [bind_ok, ok.injEq] at h
      subst h
      simp [Comp.marshalLen]; omega

theorem parseComps_returns : ∀ (fuel : Nat) (b : Bytes), b.length < fuel → Returns (parseComps fuel b)
  | 0, _, h => by omega
  | fuel + 1, b, h => by
    rw [parseComps]
    split
    · refine returns_bind (parseComp_returns b) (fun c hc => ?_)
      obtain ⟨h1, h2⟩ := parseComp_len hc
      rw [sliceFrom_of_le h1]
      simp only [bind_ok]
      exact returns_bind (parseComps_returns fuel _ (by simp; omega)) (fun _ _ => by simp)
    · simp

theorem parseComps_len : ∀ (fuel : Nat) (b : Bytes) (cs : List Comp), parseComps fuel b = ok cs → compsLen cs = b.length
  | 0, _, _, h => by simp [parseComps] at h
  | fuel + 1, b, cs, h => by
    rw [parseComps] at h
    split at h
    · rw [bind_eq_ok] at h
      obtain ⟨c, hc, h⟩ := h
      obtain ⟨h1, h2⟩ := parseComp_len hc
      rw [sliceFrom_of_le h1] at h
      simp only [bind_ok] at h
      rw [bind_eq_ok] at h
      obtain ⟨cs', hcs, h⟩ := h
      simp only [ok.injEq] at h
      subst h
      have := parseComps_len fuel _ cs' hcs
      simp only [compsLen, List.map_cons, List.sum_cons, List.length_drop] at this ⊢
      omega
    · simp only [ok.injEq] at h
      subst h
      simp [compsLen]; omega

theorem parseFilter_returns (b : Bytes) : Returns (parseFilter b) := by
  unfold parseFilter
  ret
  exact returns_bind (parseComps_returns _ _ (by omega)) (fun _ _ => by simp)

theorem parseFilter_len {b : Bytes} {p : Filter} (h : parseFilter b = ok p) : p.marshalLen ≤ b.length := by
  unfold parseFilter at h
  split at h
  · simp at h
  · rename_i h1
    rw [idx_of_lt (by omega), idx_of_lt (by omega), idx_of_lt (by omega)] at h
    simp only [bind_ok] at h
    split at h
    · simp at h
    · rename_i h2
      rw [slice_of_le (by omega) (by omega)] at h
      simp only [bind_ok] at h
      rw [bind_eq_ok] at h
      obtain ⟨cs, hcs, h⟩ := h
      simp only [ok.injEq] at h
      subst h
      have := parseComps_len _ _ _ hcs
      simp only [Filter.marshalLen, this]
      simp; omega

theorem getFilters_returns (b : Bytes) : ∀ n off, off ≤ b.length →
    Returns (getFilters b n off) ∧ ∀ r, getFilters b n off = ok r → r.2 ≤ b.length
  | 0, off, h => by simp [getFilters]; exact h
  | n + 1, off, h => by
    rw [getFilters, sliceFrom_of_le h]
    simp only [bind_ok]
    constructor
    · refine returns_bind (parseFilter_returns _) (fun p hp => ?_)
      have := parseFilter_len hp
      simp only [List.length_drop] at this
      exact returns_bind (getFilters_returns b n _ (by omega)).1 (fun _ _ => by simp)
    · intro r hr
      rw [bind_eq_ok] at hr
      obtain ⟨p, hp, hr⟩ := hr
      have := parseFilter_len hp
      simp only [List.length_drop] at this
      rw [bind_eq_ok] at hr
      obtain ⟨q, hq, hr⟩ := hr
      simp only [ok.injEq] at hr
      subst hr
      exact (getFilters_returns b n _ (by omega)).2 q hq

theorem parseParam_returns (b : Bytes) : Returns (parseParam b) := by unfold parseParam; ret
theorem parseParam_len {b : Bytes} {c : Param} (h : parseParam b = ok c) : c.marshalLen ≤ b.length ∧ 1 ≤ c.marshalLen := by
  unfold parseParam at h
  split at h
  · simp at h
  · rename_i h1
    rw [idx_of_lt (by omega), idx_of_lt (by omega)] at h
    simp only [bind_ok] at h
    split at h
    · simp at h
    · rename_i h2
      rw [slice_of_le (by omega) (by omega)] at h
      simp only [bind_ok, ok.injEq] at h
      subst h
      simp [Param.marshalLen]; omega

theorem parseParams_returns : ∀ (fuel : Nat) (b : Bytes), b.length < fuel → Returns (parseParams fuel b)
  | 0, _, h => by omega
  | fuel + 1, b, h => by
    rw [parseParams]
    split
    · refine returns_bind (parseParam_returns b) (fun c hc => ?_)
      obtain ⟨h1, h2⟩ := parseParam_len hc
      rw [sliceFrom_of_le h1]
      simp only [bind_ok]
      exact returns_bind (parseParams_returns fuel _ (by simp; omega)) (fun _ _ => by simp)
    · simp

theorem parseTFT_returns (b : Bytes) : Returns (parseTFT b) := by
  unfold parseTFT
  split
  · simp
  · rename_i h1
    rw [idx_of_lt (by omega)]
    simp only [bind_ok]
    have fin : ∀ (t : TFT) (off : Nat) (c : Bool), off ≤ b.length → Returns
        (if c = true then (do
          let s ← sliceFrom b off
          let ps ← parseParams (s.length + 1) s
          ok { t with params := ps }) else ok t) := by
      intro t off c ho
      split
      · rw [sliceFrom_of_le ho]
        simp only [bind_ok]
        exact returns_bind (parseParams_returns _ _ (by omega)) (fun _ _ => by simp)
      · simp
    split
    · obtain ⟨r1, r2⟩ := getFilters_returns b (b[0] &&& 0xf).toNat 1 (by omega)
      refine returns_bind r1 (fun r hr => ?_)
      exact fin ⟨_, r.1, [], []⟩ _ _ (r2 r hr)
    · split
      · split
        · simp
        · rw [slice_of_le (by omega) (by omega)]
          simp only [bind_ok]
          exact fin _ _ _ (by omega)
      · exact fin ⟨_, [], [], []⟩ 1 _ (by omega)

/-- C48 for traffic flow templates, and for every component accessor but the two reading an IPv6 prefix length.  Those panic
on every component the parser returns for these types (`C46_ipv6_wrong`). -/
theorem C48_tft_partial (i : IE) (c : Comp) (t : UInt8) :
    Returns (i.tft g) ∧ Returns (c.ipv4 t) ∧ Returns c.ipv6 ∧ Returns (c.u8 t) ∧ Returns (c.u16 t) ∧ Returns (c.range t) ∧
    Returns (c.u32 t) ∧ Returns (c.pair t) ∧ Returns (c.u24 t) ∧ Returns (c.mac t) := by
  refine ⟨?_, ?_, ?_, ?_, ?_, ?_, ?_, ?_, ?_, ?_⟩
  · unfold IE.tft
    split
    · exact parseTFT_returns _
    · split
      · refine returns_bind (bearerContext_returns g i) (fun ies _ => ?_)
        split
        · exact parseTFT_returns _
        · simp
      · simp
  all_goals
    first | unfold Comp.ipv4 | unfold Comp.ipv6 | unfold Comp.u8 | unfold Comp.u16 | unfold Comp.range | unfold Comp.u32 |
      unfold Comp.pair | unfold Comp.u24 | unfold Comp.mac
    unfold Comp.guard
    ret

example : (newIE 84 0 [0x21, 0x35, 200]).tft defaultGrouped = err .eof := by decide

/-- C48, the exact condition under which the accessors of an IPv6 prefix length panic: the right type and exactly the 17 octets
that TS 24.008 gives such a component (an address and one octet). -/
theorem C48_tft_prefix_panics_iff (t : UInt8) (c : Comp) :
    c.ipv6Prefix t = .panic ↔ c.typ = t ∧ c.contents.length = 17 := by
  unfold Comp.ipv6Prefix Comp.guard
  by_cases ht : c.typ = t
  · by_cases h1 : c.contents.length < 17
    · rw [if_neg (by simpa using ht), if_pos h1]
      simp; omega
    · rw [if_neg (by simpa using ht), if_neg h1, slice_of_le (by omega) (by omega)]
      by_cases h2 : c.contents.length = 17
      · rw [bind_ok, idx, List.getElem?_eq_none (by omega)]
        simp [ht, h2]
      · rw [bind_ok, idx_of_lt (by omega)]
        simp [h2]
  · rw [if_pos (by simpa using ht)]
    simp [ht]

/-- C48, what the code gets wrong: a received template with an IPv6 prefix length component makes its accessor panic -/
theorem C48_tft_prefix_panics {b : Bytes} {c : Comp} (h : parseComp b = ok c) (ht : c.typ = 0x21 ∨ c.typ = 0x23) :
    c.ipv6Prefix c.typ = .panic := by
  unfold parseComp at h
  split at h
  · simp at h
  · rename_i h1
    rw [idx_of_lt (by omega)] at h
    simp only [bind_ok] at h
    split at h
    · simp at h
    · rename_i h2
      rw [slice_of_le (by omega) (by omega)] at h
      simp only [bind_ok, ok.injEq] at h
      subst h
      have hc : compLen b[0] = 17 := by rcases ht with ht | ht <;> simp only at ht <;> rw [ht] <;> rfl
      rw [hc] at h2
      simp only [Comp.ipv6Prefix, Comp.guard, hc]
      rw [if_neg (by simp), if_neg (by simp; omega), slice_of_le (by omega) (by simp; omega)]
      have : idx (List.take (1 + 17 - 1) (List.drop 1 b)) 17 = .panic := by
        rw [idx, List.getElem?_eq_none (by simp; omega)]
      rw [this]
      rfl

example : ∃ c, parseComp (0x21 :: List.replicate 17 1) = ok c ∧ c.typ = 0x21 ∧ c.ipv6Prefix 0x21 = .panic := ⟨_, rfl, rfl, by decide⟩

end Verif.V2

/-! ### cases that meet the hypotheses -/

namespace Verif.V2
open Res NetIP
theorem exTFTFilters : ∀ p ∈ [newFilter 3 5 200 [compU8 0x30 17]], FilterOK p := by
  intro p hp
  obtain rfl := List.mem_singleton.1 hp
  refine ⟨?_, ?_, ?_, ?_⟩ <;> first | decide | (intro c hc; obtain rfl := List.mem_singleton.1 hc; unfold CompOK; decide)
theorem exTFT : TFTOK ⟨1, [newFilter 3 5 200 [compU8 0x30 17]], [], [newParam 1 [0xaa]]⟩ :=
  ⟨(by decide), exTFTFilters, (by intro p hp; obtain rfl := List.mem_singleton.1 hp; unfold ParamOK; decide), (by decide),
    (fun h => absurd rfl h), (fun _ => rfl)⟩
theorem exTFT2 : TFTOK ⟨1, [newFilter 3 5 200 [compU8 0x30 17]], [], [newParam 1 [0xaa], newParam 2 [0xbb]]⟩ :=
  ⟨(by decide), exTFTFilters,
    (by intro p hp; simp only [List.mem_cons, List.not_mem_nil, or_false] at hp; rcases hp with rfl | rfl <;> (unfold ParamOK; decide)), (by decide),
    (fun h => absurd rfl h), (fun _ => rfl)⟩
example := C46_tft_partial (g := defaultGrouped) exTFT (.inr (by decide)) (by decide) (t := 84) (.inl rfl) (by decide) 1
example := C46_params_lost (g := defaultGrouped) exTFT2 (by decide) (t := 85) (.inr rfl)
example := C46_in_bearer_context (g := defaultGrouped) (i := newIE 93 0 [73, 0, 1, 0, 5, 84, 0, 3, 0, 0xa2, 1, 2]) rfl (by decide)
  (ies := [newIE 73 0 [5], newIE 84 0 [0xa2, 1, 2]]) (by decide +kernel) rfl
example := C46_components_partial [10, 0, 0, 1] [255, 255, 255, 0] [1, 2, 3, 4, 5, 6] 17 9 80 443 0x10203 0x1020304 rfl rfl rfl (by decide)
example := C46_ipv6_wrong (List.replicate 16 0x20) (List.replicate 16 0xff) 64 rfl rfl
example := C48_tft_prefix_panics (b := 0x21 :: List.replicate 17 1) rfl (.inl rfl)
end Verif.V2
