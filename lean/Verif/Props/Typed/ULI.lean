import Verif.Model.Typed.ULI
import Verif.Props.Typed.QoS
/-
Property theorem C43 (User Location Information), and C48 for it.
-/
set_option linter.unusedSimpArgs false
namespace Verif.V2
open Res Utils

variable (g : UInt8 → Bool)

/-- three digits MCC, two or three digits MNC -/
def IsPLMN (mcc mnc : Bytes) : Prop := Digits mcc ∧ Digits mnc ∧ mcc.length = 3 ∧ (mnc.length = 2 ∨ mnc.length = 3)
instance (mcc mnc) : Decidable (IsPLMN mcc mnc) := inferInstanceAs (Decidable (_ ∧ _))

theorem plmn_facts {mcc mnc : Bytes} (h : IsPLMN mcc mnc) :
    encodePLMN mcc mnc = ok (encPLMN mcc mnc) ∧ (encPLMN mcc mnc).length = 3 ∧ decodePLMN (encPLMN mcc mnc) = ok (mcc, mnc) := by
  have h1 := C02_plmn_octets mcc mnc h.1 h.2.1 h.2.2.1 h.2.2.2
  obtain ⟨b, h2, h3, h4⟩ := C02_plmn_round_trip mcc mnc h.1 h.2.1 h.2.2.1 h.2.2.2
  rw [h1] at h2
  simp only [ok.injEq] at h2
  rw [h2]
  exact ⟨h2 ▸ h1, h3, h4⟩

/-! ### the wire format, TS 29.274 8.21 -/

/-- CGI, SAI, RAI: PLMN, LAC, and cell identity, service area code or routing area code -/
def encArea (a : Area) : Bytes := encPLMN a.mcc a.mnc ++ be16 a.lac ++ be16 a.code
/-- TAI, LAI: PLMN and code -/
def encLoc (a : Loc) : Bytes := encPLMN a.mcc a.mnc ++ be16 a.code
/-- ECGI: PLMN and four octets of E-UTRAN cell identifier -/
def encECGI (a : Node) : Bytes := encPLMN a.mcc a.mnc ++ be32 a.num
/-- (extended) macro eNodeB identifier: PLMN and three octets -/
def encENB (a : Node) : Bytes := encPLMN a.mcc a.mnc ++ be24 a.num

/-- an optional part -/
def encOpt {α : Type} (f : α → Bytes) : Option α → Bytes
  | none => []
  | some a => f a

/-- the flag octet: EMENBI, MENBI, LAI, ECGI, TAI, RAI, SAI, CGI from the highest bit to the lowest -/
def uliFlags (cgi sai rai tai ecgi lai menbi emenbi : Bool) : UInt8 :=
  UInt8.ofNat (cgi.toNat + 2 * sai.toNat + 4 * rai.toNat + 8 * tai.toNat + 16 * ecgi.toNat + 32 * lai.toNat +
    64 * menbi.toNat + 128 * emenbi.toNat)

def encULI (cgi sai rai : Option Area) (tai : Option Loc) (ecgi : Option Node) (lai : Option Loc) (menbi emenbi : Option Node) :
    Bytes :=
  [uliFlags cgi.isSome sai.isSome rai.isSome tai.isSome ecgi.isSome lai.isSome menbi.isSome emenbi.isSome] ++
    encOpt encArea cgi ++ encOpt encArea sai ++ encOpt encArea rai ++ encOpt encLoc tai ++ encOpt encECGI ecgi ++
    encOpt encLoc lai ++ encOpt encENB menbi ++ encOpt encENB emenbi

def AreaOK (x : Option Area) : Prop := ∀ a, x = some a → IsPLMN a.mcc a.mnc
def LocOK (x : Option Loc) : Prop := ∀ a, x = some a → IsPLMN a.mcc a.mnc
def NodeOK (k : Nat) (x : Option Node) : Prop := ∀ a, x = some a → IsPLMN a.mcc a.mnc ∧ a.num.toNat < 2 ^ k

theorem uliFlags_bits : ∀ a b c d e f h i : Bool,
    has1stBit (uliFlags a b c d e f h i) = a ∧ has2ndBit (uliFlags a b c d e f h i) = b ∧
    has3rdBit (uliFlags a b c d e f h i) = c ∧ has4thBit (uliFlags a b c d e f h i) = d ∧
    has5thBit (uliFlags a b c d e f h i) = e ∧ has6thBit (uliFlags a b c d e f h i) = f ∧
    has7thBit (uliFlags a b c d e f h i) = h ∧ has8thBit (uliFlags a b c d e f h i) = i := by decide +kernel

theorem uliFlags_masks : ∀ a b c d e f h i : Bool,
    ((uliFlags a b c d e f h i &&& 0x01 ≠ 0) ↔ a = true) ∧ ((uliFlags a b c d e f h i &&& 0x02 ≠ 0) ↔ b = true) ∧
    ((uliFlags a b c d e f h i &&& 0x04 ≠ 0) ↔ c = true) ∧ ((uliFlags a b c d e f h i &&& 0x08 ≠ 0) ↔ d = true) ∧
    ((uliFlags a b c d e f h i &&& 0x10 ≠ 0) ↔ e = true) ∧ ((uliFlags a b c d e f h i &&& 0x20 ≠ 0) ↔ f = true) ∧
    ((uliFlags a b c d e f h i &&& 0x40 ≠ 0) ↔ h = true) ∧ ((uliFlags a b c d e f h i &&& 0x80 ≠ 0) ↔ i = true) := by
  decide +kernel

theorem newULIFields_flags (cgi sai rai : Option Area) (tai : Option Loc) (ecgi : Option Node) (lai : Option Loc)
    (menbi emenbi : Option Node) : newULIFields cgi sai rai tai ecgi lai menbi emenbi =
      ⟨uliFlags cgi.isSome sai.isSome rai.isSome tai.isSome ecgi.isSome lai.isSome menbi.isSome emenbi.isSome,
        cgi, sai, rai, tai, ecgi, lai, menbi, emenbi⟩ := by
  unfold newULIFields
  generalize cgi.isSome = a, sai.isSome = b, rai.isSome = c, tai.isSome = d, ecgi.isSome = e, lai.isSome = f,
    menbi.isSome = h, emenbi.isSome = i
  rw [ULI.mk.injEq]
  refine ⟨?_, rfl, rfl, rfl, rfl, rfl, rfl, rfl, rfl⟩
  revert a b c d e f h i
  decide +kernel

/-! ### writing one part behind a prefix -/

theorem putArea_eq {x : Option Area} (hx : AreaOK x) {pre z : Bytes} {off : Nat} (ho : off = pre.length)
    (hz : (encOpt encArea x).length ≤ z.length) :
    putArea x.isSome x (pre ++ z) off =
      ok (pre ++ encOpt encArea x ++ z.drop (encOpt encArea x).length, off + (encOpt encArea x).length) := by
  cases x with
  | none => simp [putArea, encOpt]
  | some a =>
    obtain ⟨h1, h2, -⟩ := plmn_facts (hx a rfl)
    have hl : (encArea a).length = 7 := by simp [encArea, h2]
    simp only [encOpt, hl] at hz ⊢
    simp only [putArea, Option.isSome, if_true, h1]
    rw [if_neg (by simp; omega)]
    simp only [bind_ok]
    rw [copyAt_append ho (by omega) (by omega)]
    simp only [bind_ok]
    rw [copyAt_append (by len) (by len) (by len)]
    simp only [bind_ok]
    rw [copyAt_append (by len) (by len) (by len)]
    simp [encArea, h2]

theorem putLoc_eq {x : Option Loc} (hx : LocOK x) {pre z : Bytes} {off : Nat} (ho : off = pre.length)
    (hz : (encOpt encLoc x).length ≤ z.length) :
    putLoc x.isSome x (pre ++ z) off =
      ok (pre ++ encOpt encLoc x ++ z.drop (encOpt encLoc x).length, off + (encOpt encLoc x).length) := by
  cases x with
  | none => simp [putLoc, encOpt]
  | some a =>
    obtain ⟨h1, h2, -⟩ := plmn_facts (hx a rfl)
    have hl : (encLoc a).length = 5 := by simp [encLoc, h2]
    simp only [encOpt, hl] at hz ⊢
    simp only [putLoc, Option.isSome, if_true, h1]
    rw [if_neg (by simp; omega)]
    simp only [bind_ok]
    rw [copyAt_append ho (by omega) (by omega)]
    simp only [bind_ok]
    rw [copyAt_append (by simp; omega) (by simp) (by simp; omega)]
    simp [encLoc, h2]

theorem putECGI_eq {x : Option Node} {k : Nat} (hx : NodeOK k x) {pre z : Bytes} {off : Nat} (ho : off = pre.length)
    (hz : (encOpt encECGI x).length ≤ z.length) :
    putECGI x.isSome x (pre ++ z) off =
      ok (pre ++ encOpt encECGI x ++ z.drop (encOpt encECGI x).length, off + (encOpt encECGI x).length) := by
  cases x with
  | none => simp [putECGI, encOpt]
  | some a =>
    obtain ⟨h1, h2, -⟩ := plmn_facts (hx a rfl).1
    have hl : (encECGI a).length = 7 := by simp [encECGI, h2]
    simp only [encOpt, hl] at hz ⊢
    simp only [putECGI, Option.isSome, if_true, h1]
    rw [if_neg (by simp; omega)]
    simp only [bind_ok]
    rw [copyAt_append ho (by omega) (by omega)]
    simp only [bind_ok]
    rw [copyAt_append (by simp; omega) (by simp) (by simp; omega)]
    simp [encECGI, h2]

theorem putENB_eq {x : Option Node} {k : Nat} (hx : NodeOK k x) {pre z : Bytes} {off : Nat} (ho : off = pre.length)
    (hz : (encOpt encENB x).length ≤ z.length) :
    putENB x.isSome x (pre ++ z) off =
      ok (pre ++ encOpt encENB x ++ z.drop (encOpt encENB x).length, off + (encOpt encENB x).length) := by
  cases x with
  | none => simp [putENB, encOpt]
  | some a =>
    obtain ⟨h1, h2, -⟩ := plmn_facts (hx a rfl).1
    have hl : (encENB a).length = 6 := by simp [encENB, h2]
    simp only [encOpt, hl] at hz ⊢
    simp only [putENB, Option.isSome, if_true, h1, uint32To24_eq]
    rw [if_neg (by simp; omega)]
    simp only [bind_ok]
    rw [copyAt_append ho (by omega) (by omega)]
    simp only [bind_ok]
    rw [copyAt_append (by simp; omega) (by simp) (by simp; omega)]
    simp [encENB, h2]

theorem len_area {x : Option Area} (hx : AreaOK x) : (encOpt encArea x).length = if x.isSome then 7 else 0 := by
  cases x with
  | none => rfl
  | some a => simp [encOpt, encArea, (plmn_facts (hx a rfl)).2.1]
theorem len_loc {x : Option Loc} (hx : LocOK x) : (encOpt encLoc x).length = if x.isSome then 5 else 0 := by
  cases x with
  | none => rfl
  | some a => simp [encOpt, encLoc, (plmn_facts (hx a rfl)).2.1]
theorem len_ecgi {x : Option Node} {k} (hx : NodeOK k x) : (encOpt encECGI x).length = if x.isSome then 7 else 0 := by
  cases x with
  | none => rfl
  | some a => simp [encOpt, encECGI, (plmn_facts (hx a rfl).1).2.1]
theorem len_enb {x : Option Node} {k} (hx : NodeOK k x) : (encOpt encENB x).length = if x.isSome then 6 else 0 := by
  cases x with
  | none => rfl
  | some a => simp [encOpt, encENB, (plmn_facts (hx a rfl).1).2.1]

/-! ### reading one part behind a prefix -/

theorem getArea_eq {x : Option Area} (hx : AreaOK x) {pre rest : Bytes} {off : Nat} (ho : off = pre.length) :
    getArea x.isSome (pre ++ (encOpt encArea x ++ rest)) off = ok (x, off + (encOpt encArea x).length) := by
  cases x with
  | none => simp [getArea, encOpt]
  | some a =>
    obtain ⟨-, h2, h3⟩ := plmn_facts (hx a rfl)
    have hl : (encArea a).length = 7 := by simp [encArea, h2]
    have f1 : slice (pre ++ (encArea a ++ rest)) off (off + 3) = ok (encPLMN a.mcc a.mnc) := by
      rw [show encArea a ++ rest = encPLMN a.mcc a.mnc ++ (be16 a.lac ++ be16 a.code ++ rest) by simp [encArea]]
      exact slice_mid ho (by omega)
    have f2 : slice (pre ++ (encArea a ++ rest)) (off + 3) (off + 5) = ok (be16 a.lac) := by
      rw [show pre ++ (encArea a ++ rest) = (pre ++ encPLMN a.mcc a.mnc) ++ (be16 a.lac ++ (be16 a.code ++ rest)) by
        simp [encArea]]
      exact slice_mid (by simp; omega) (by simp)
    have f3 : slice (pre ++ (encArea a ++ rest)) (off + 5) (off + 7) = ok (be16 a.code) := by
      rw [show pre ++ (encArea a ++ rest) = (pre ++ encPLMN a.mcc a.mnc ++ be16 a.lac) ++ (be16 a.code ++ rest) by
        simp [encArea]]
      exact slice_mid (by simp; omega) (by simp)
    change getArea true (pre ++ (encArea a ++ rest)) off = ok (some a, off + (encArea a).length)
    simp only [getArea, if_true, hl]
    rw [if_neg (by simp; omega), f1]
    simp only [bind_ok, h3, f2, f3, rd16_be16']

theorem getLoc_eq {x : Option Loc} (hx : LocOK x) {pre rest : Bytes} {off : Nat} (ho : off = pre.length) :
    getLoc x.isSome (pre ++ (encOpt encLoc x ++ rest)) off = ok (x, off + (encOpt encLoc x).length) := by
  cases x with
  | none => simp [getLoc, encOpt]
  | some a =>
    obtain ⟨-, h2, h3⟩ := plmn_facts (hx a rfl)
    have hl : (encLoc a).length = 5 := by simp [encLoc, h2]
    have f1 : slice (pre ++ (encLoc a ++ rest)) off (off + 3) = ok (encPLMN a.mcc a.mnc) := by
      rw [show encLoc a ++ rest = encPLMN a.mcc a.mnc ++ (be16 a.code ++ rest) by simp [encLoc]]
      exact slice_mid ho (by omega)
    have f2 : slice (pre ++ (encLoc a ++ rest)) (off + 3) (off + 5) = ok (be16 a.code) := by
      rw [show pre ++ (encLoc a ++ rest) = (pre ++ encPLMN a.mcc a.mnc) ++ (be16 a.code ++ rest) by simp [encLoc]]
      exact slice_mid (by simp; omega) (by simp)
    change getLoc true (pre ++ (encLoc a ++ rest)) off = ok (some a, off + (encLoc a).length)
    simp only [getLoc, if_true, hl]
    rw [if_neg (by simp; omega), f1]
    simp only [bind_ok, h3, f2, rd16_be16']

theorem getECGI_eq {x : Option Node} {k} (hx : NodeOK k x) {pre rest : Bytes} {off : Nat} (ho : off = pre.length) :
    getECGI x.isSome (pre ++ (encOpt encECGI x ++ rest)) off = ok (x, off + (encOpt encECGI x).length) := by
  cases x with
  | none => simp [getECGI, encOpt]
  | some a =>
    obtain ⟨-, h2, h3⟩ := plmn_facts (hx a rfl).1
    have hl : (encECGI a).length = 7 := by simp [encECGI, h2]
    have f1 : slice (pre ++ (encECGI a ++ rest)) off (off + 3) = ok (encPLMN a.mcc a.mnc) := by
      rw [show encECGI a ++ rest = encPLMN a.mcc a.mnc ++ (be32 a.num ++ rest) by simp [encECGI]]
      exact slice_mid ho (by omega)
    have f2 : slice (pre ++ (encECGI a ++ rest)) (off + 3) (off + 7) = ok (be32 a.num) := by
      rw [show pre ++ (encECGI a ++ rest) = (pre ++ encPLMN a.mcc a.mnc) ++ (be32 a.num ++ rest) by simp [encECGI]]
      exact slice_mid (by simp; omega) (by simp)
    change getECGI true (pre ++ (encECGI a ++ rest)) off = ok (some a, off + (encECGI a).length)
    simp only [getECGI, if_true, hl]
    rw [if_neg (by simp; omega), f1]
    simp only [bind_ok, h3, f2, rd32_be32']

theorem uint24_be24 {n : UInt32} (h : n.toNat < 2 ^ 24) : uint24To32 (be24 n) = n := by
  have h1 := C03_uint24 n
  rw [h1.1] at h1
  apply UInt32.toNat_inj.mp
  rw [h1.2, Nat.mod_eq_of_lt h]

theorem getENB_eq {x : Option Node} (hx : NodeOK 24 x) {pre rest : Bytes} {off : Nat} (ho : off = pre.length) :
    getENB x.isSome (pre ++ (encOpt encENB x ++ rest)) off = ok (x, off + (encOpt encENB x).length) := by
  cases x with
  | none => simp [getENB, encOpt]
  | some a =>
    obtain ⟨-, h2, h3⟩ := plmn_facts (hx a rfl).1
    have hl : (encENB a).length = 6 := by simp [encENB, h2]
    have f1 : slice (pre ++ (encENB a ++ rest)) off (off + 3) = ok (encPLMN a.mcc a.mnc) := by
      rw [show encENB a ++ rest = encPLMN a.mcc a.mnc ++ (be24 a.num ++ rest) by simp [encENB]]
      exact slice_mid ho (by omega)
    have f2 : slice (pre ++ (encENB a ++ rest)) (off + 3) (off + 6) = ok (be24 a.num) := by
      rw [show pre ++ (encENB a ++ rest) = (pre ++ encPLMN a.mcc a.mnc) ++ (be24 a.num ++ rest) by simp [encENB]]
      exact slice_mid (by simp; omega) (by simp)
    change getENB true (pre ++ (encENB a ++ rest)) off = ok (some a, off + (encENB a).length)
    simp only [getENB, if_true, hl]
    rw [if_neg (by simp; omega), f1]
    simp only [bind_ok, h3, f2, uint24_be24 (hx a rfl).2]

theorem uli_parse {cgi sai rai : Option Area} {tai : Option Loc} {ecgi : Option Node} {lai : Option Loc}
    {menbi emenbi : Option Node} (h1 : AreaOK cgi) (h2 : AreaOK sai) (h3 : AreaOK rai) (h4 : LocOK tai) (h5 : NodeOK 32 ecgi)
    (h6 : LocOK lai) (h7 : NodeOK 24 menbi) (h8 : NodeOK 24 emenbi) (rest : Bytes) :
    parseULI (encULI cgi sai rai tai ecgi lai menbi emenbi ++ rest) =
      ok (newULIFields cgi sai rai tai ecgi lai menbi emenbi) := by
  rw [newULIFields_flags]
  obtain ⟨b1, b2, b3, b4, b5, b6, b7, b8⟩ := uliFlags_bits cgi.isSome sai.isSome rai.isSome tai.isSome ecgi.isSome lai.isSome
    menbi.isSome emenbi.isSome
  unfold encULI
  generalize uliFlags cgi.isSome sai.isSome rai.isSome tai.isSome ecgi.isSome lai.isSome menbi.isSome emenbi.isSome = fl at *
  have k1 := fun r => getArea_eq h1 (pre := [fl]) (rest := r) (off := 1) rfl
  have k2 := fun r off h => getArea_eq h2 (pre := [fl] ++ encOpt encArea cgi) (rest := r) (off := off) h
  have k3 := fun r off h => getArea_eq h3 (pre := [fl] ++ encOpt encArea cgi ++ encOpt encArea sai) (rest := r) (off := off) h
  have k4 := fun r off h => getLoc_eq h4 (pre := [fl] ++ encOpt encArea cgi ++ encOpt encArea sai ++ encOpt encArea rai)
    (rest := r) (off := off) h
  have k5 := fun r off h => getECGI_eq h5 (pre := [fl] ++ encOpt encArea cgi ++ encOpt encArea sai ++ encOpt encArea rai ++
    encOpt encLoc tai) (rest := r) (off := off) h
  have k6 := fun r off h => getLoc_eq h6 (pre := [fl] ++ encOpt encArea cgi ++ encOpt encArea sai ++ encOpt encArea rai ++
    encOpt encLoc tai ++ encOpt encECGI ecgi) (rest := r) (off := off) h
  have k7 := fun r off h => getENB_eq h7 (pre := [fl] ++ encOpt encArea cgi ++ encOpt encArea sai ++ encOpt encArea rai ++
    encOpt encLoc tai ++ encOpt encECGI ecgi ++ encOpt encLoc lai) (rest := r) (off := off) h
  have k8 := fun r off h => getENB_eq h8 (pre := [fl] ++ encOpt encArea cgi ++ encOpt encArea sai ++ encOpt encArea rai ++
    encOpt encLoc tai ++ encOpt encECGI ecgi ++ encOpt encLoc lai ++ encOpt encENB menbi) (rest := r) (off := off) h
  simp only [List.append_assoc] at k1 k2 k3 k4 k5 k6 k7 k8 ⊢
  unfold parseULI
  rw [if_neg (by simp)]
  simp only [List.singleton_append, idx_zero, bind_ok] at *
  rw [b1, k1]
  simp only [bind_ok]
  rw [b2, k2 _ _ (by simp; omega)]
  simp only [bind_ok]
  rw [b3, k3 _ _ (by simp; omega)]
  simp only [bind_ok]
  rw [b4, k4 _ _ (by simp; omega)]
  simp only [bind_ok]
  rw [b5, k5 _ _ (by simp; omega)]
  simp only [bind_ok]
  rw [b6, k6 _ _ (by simp; omega)]
  simp only [bind_ok]
  rw [b7, k7 _ _ (by simp; omega)]
  simp only [bind_ok]
  rw [b8, k8 _ _ (by simp; omega)]
  simp only [bind_ok]

theorem uli_length {cgi sai rai : Option Area} {tai : Option Loc} {ecgi : Option Node} {lai : Option Loc}
    {menbi emenbi : Option Node} {k k' : Nat} (h1 : AreaOK cgi) (h2 : AreaOK sai) (h3 : AreaOK rai) (h4 : LocOK tai) (h5 : NodeOK 32 ecgi)
    (h6 : LocOK lai) (h7 : NodeOK k menbi) (h8 : NodeOK k' emenbi) :
    (encULI cgi sai rai tai ecgi lai menbi emenbi).length = (newULIFields cgi sai rai tai ecgi lai menbi emenbi).marshalLen := by
  rw [newULIFields_flags]
  obtain ⟨b1, b2, b3, b4, b5, b6, b7, b8⟩ := uliFlags_bits cgi.isSome sai.isSome rai.isSome tai.isSome ecgi.isSome lai.isSome
    menbi.isSome emenbi.isSome
  simp only [ULI.marshalLen, b1, b2, b3, b4, b5, b6, b7, b8, encULI, List.length_append, List.length_singleton, len_area h1,
    len_area h2, len_area h3, len_loc h4, len_ecgi h5, len_loc h6, len_enb h7, len_enb h8]

theorem uli_marshal {cgi sai rai : Option Area} {tai : Option Loc} {ecgi : Option Node} {lai : Option Loc}
    {menbi emenbi : Option Node} {k k' : Nat} (h1 : AreaOK cgi) (h2 : AreaOK sai) (h3 : AreaOK rai) (h4 : LocOK tai) (h5 : NodeOK 32 ecgi)
    (h6 : LocOK lai) (h7 : NodeOK k menbi) (h8 : NodeOK k' emenbi) :
    (newULIFields cgi sai rai tai ecgi lai menbi emenbi).marshal = ok (encULI cgi sai rai tai ecgi lai menbi emenbi) := by
  have hlen := uli_length h1 h2 h3 h4 h5 h6 h7 h8
  rw [ULI.marshal, ← hlen]
  clear hlen
  rw [newULIFields_flags]
  obtain ⟨b1, b2, b3, b4, b5, b6, b7, b8⟩ := uliFlags_bits cgi.isSome sai.isSome rai.isSome tai.isSome ecgi.isSome lai.isSome
    menbi.isSome emenbi.isSome
  generalize hz : List.replicate (encULI cgi sai rai tai ecgi lai menbi emenbi).length (0 : UInt8) = z
  have hl : z.length = (encULI cgi sai rai tai ecgi lai menbi emenbi).length := by rw [← hz]; simp
  clear hz
  unfold encULI at hl ⊢
  generalize uliFlags cgi.isSome sai.isSome rai.isSome tai.isSome ecgi.isSome lai.isSome menbi.isSome emenbi.isSome = fl at *
  simp only [List.length_append, List.length_singleton] at hl
  unfold ULI.marshalTo
  simp only [b1, b2, b3, b4, b5, b6, b7, b8]
  rw [if_neg (by omega), show z = [] ++ z by rfl, setAt_append (by rfl) (by omega)]
  simp only [bind_ok, List.nil_append]
  rw [putArea_eq h1 (by rfl) (by simp; omega)]
  simp only [bind_ok]
  rw [putArea_eq h2 (by simp; omega) (by simp; omega)]
  simp only [bind_ok]
  rw [putArea_eq h3 (by simp; omega) (by simp; omega)]
  simp only [bind_ok]
  rw [putLoc_eq h4 (by simp; omega) (by simp; omega)]
  simp only [bind_ok]
  rw [putECGI_eq h5 (by simp; omega) (by simp; omega)]
  simp only [bind_ok]
  rw [putLoc_eq h6 (by simp; omega) (by simp; omega)]
  simp only [bind_ok]
  rw [putENB_eq h7 (by simp; omega) (by simp; omega)]
  simp only [bind_ok]
  rw [putENB_eq h8 (by simp; omega) (by simp; omega)]
  simp only [bind_ok, ok.injEq, List.drop_drop]
  rw [List.drop_eq_nil_of_le (by omega)]
  simp

/-- the PLMN of the first location present -/
def firstOf (cgi sai rai : Option Area) (tai : Option Loc) (ecgi : Option Node) (lai : Option Loc) (menbi emenbi : Option Node) :
    Option (Bytes × Bytes) :=
  let a := Option.map (fun a : Area => (a.mcc, a.mnc))
  let l := Option.map (fun a : Loc => (a.mcc, a.mnc))
  let n := Option.map (fun a : Node => (a.mcc, a.mnc))
  (((((((a cgi).or (a sai)).or (a rai)).or (l tai)).or (n ecgi)).or (l lai)).or (n menbi)).or (n emenbi)

/-- C43: for every combination of locations, with three digits of MCC, two or three digits of MNC and macro eNodeB numbers
below 2^24, the constructor returns the 3GPP encoding; with any instance it survives the wire and reads back as exactly the
locations given, flags matching presence; MCC/MNC are those of the first location present. -/
theorem C43_uli {cgi sai rai : Option Area} {tai : Option Loc} {ecgi : Option Node} {lai : Option Loc}
    {menbi emenbi : Option Node} (h1 : AreaOK cgi) (h2 : AreaOK sai) (h3 : AreaOK rai) (h4 : LocOK tai) (h5 : NodeOK 32 ecgi)
    (h6 : LocOK lai) (h7 : NodeOK 24 menbi) (h8 : NodeOK 24 emenbi) (hg : g 86 = false) :
    ∃ i, newULI cgi sai rai tai ecgi lai menbi emenbi = ok (some i) ∧
      i.payload = encULI cgi sai rai tai ecgi lai menbi emenbi ∧
      ∀ n, Carried g (i.withInstance n) ∧
        (i.withInstance n).uli = ok ⟨uliFlags cgi.isSome sai.isSome rai.isSome tai.isSome ecgi.isSome lai.isSome
          menbi.isSome emenbi.isSome, cgi, sai, rai, tai, ecgi, lai, menbi, emenbi⟩ ∧
        ∀ p, firstOf cgi sai rai tai ecgi lai menbi emenbi = some p → (i.withInstance n).plmn = ok p := by
  have hp := uli_parse h1 h2 h3 h4 h5 h6 h7 h8 []
  rw [List.append_nil] at hp
  have hl := uli_length h1 h2 h3 h4 h5 h6 h7 h8
  refine ⟨newIE 86 0 (encULI cgi sai rai tai ecgi lai menbi emenbi), ?_, rfl, fun n => ⟨?_, ?_, ?_⟩⟩
  · rw [newULI, uli_marshal h1 h2 h3 h4 h5 h6 h7 h8, build]
  · rw [withInstance_new]
    refine carried_new g ?_ hg
    rw [hl]
    simp only [ULI.marshalLen]
    repeat' split
    all_goals decide
  · rw [withInstance_new, ← newULIFields_flags]
    simp [IE.uli, hp]
  · rw [withInstance_new]
    intro p hf
    have hlen : 3 ≤ (encULI cgi sai rai tai ecgi lai menbi emenbi).length := by
      simp only [encULI, List.length_append, List.length_singleton, len_area h1, len_area h2, len_area h3, len_loc h4,
        len_ecgi h5, len_loc h6, len_enb h7, len_enb h8]
      cases cgi <;> cases sai <;> cases rai <;> cases tai <;> cases ecgi <;> cases lai <;> cases menbi <;> cases emenbi <;>
        first | (simp [firstOf] at hf; done) | (simp; done) | (simp; omega)
    have hm := uliFlags_masks cgi.isSome sai.isSome rai.isSome tai.isSome ecgi.isSome lai.isSome menbi.isSome emenbi.isSome
    simp only [IE.plmn, typ_new, payload_new]
    rw [if_neg (by omega), if_neg (by decide), if_neg (by decide), if_pos trivial, hp, newULIFields_flags]
    simp only [bind_ok, ULI.firstPLMN, hm]
    cases cgi with
    | some _ => simpa [deref, firstOf] using hf
    | none =>
    cases sai with
    | some _ => simpa [deref, firstOf] using hf
    | none =>
    cases rai with
    | some _ => simpa [deref, firstOf] using hf
    | none =>
    cases tai with
    | some _ => simpa [deref, firstOf] using hf
    | none =>
    cases ecgi with
    | some _ => simpa [deref, firstOf] using hf
    | none =>
    cases lai with
    | some _ => simpa [deref, firstOf] using hf
    | none =>
    cases menbi with
    | some _ => simpa [deref, firstOf] using hf
    | none =>
    cases emenbi with
    | some _ => simpa [deref, firstOf] using hf
    | none => simp [firstOf] at hf

-- TAI and ECGI of 440-10 and 001-01
example : newULI none none none (some ⟨[52, 52, 48], [49, 48], 0x1234⟩) (some (newECGI [48, 48, 49] [48, 49] 0x3000102)) none
    none none = ok (some (.mk 86 13 0 [0x18, 0x44, 0xf0, 0x01, 0x12, 0x34, 0x00, 0xf1, 0x10, 0x03, 0x00, 0x01, 0x02] [])) := by
  decide
example : AreaOK (some ⟨[52, 52, 48], [49, 48], 1, 2⟩) ∧ NodeOK 24 (some ⟨[48, 48, 49], [48, 48, 49], 0xffffff⟩) := by
  constructor <;> (intro a h; simp only [Option.some.injEq] at h; subst h; decide)

/-- an E-UTRAN cell identifier below 2^28 is taken as it is by `NewECGI` -/
theorem C43_newECGI (mcc mnc : Bytes) (eci : UInt32) (h : eci.toNat < 2 ^ 28) : newECGI mcc mnc eci = ⟨mcc, mnc, eci⟩ := by
  have : eci &&& 0xfffffff = eci := by
    apply UInt32.toNat_inj.mp
    rw [UInt32.toNat_and, show (0xfffffff : UInt32).toNat = 2 ^ 28 - 1 by rfl, Nat.and_two_pow_sub_one_eq_mod,
      Nat.mod_eq_of_lt h]
  rw [newECGI, this]

example : (newECGI [48, 48, 49] [48, 49] 0xfffffff).num = 0xfffffff ∧ (newECGI [48, 48, 49] [48, 49] 0x1fffffff).num = 0xfffffff := by decide

/-- the deprecated constructor cuts the cell identifier to 20 of its 28 bits: whatever it is, ECIs that differ by 2^20 give the
same element -/
theorem C43_old_eci_wrong (fl : UInt8) (mcc mnc : Bytes) (lac ci sac rac tac : UInt16) (eci menbi emenbi : UInt32) :
    newULIOld fl mcc mnc lac ci sac rac tac (eci + 0x100000) menbi emenbi =
      newULIOld fl mcc mnc lac ci sac rac tac eci menbi emenbi := by
  have : (eci + 0x100000) &&& 0xfffff = eci &&& 0xfffff := by
    apply UInt32.toNat_inj.mp
    rw [UInt32.toNat_and, UInt32.toNat_and, show (0xfffff : UInt32).toNat = 2 ^ 20 - 1 by rfl,
      Nat.and_two_pow_sub_one_eq_mod, Nat.and_two_pow_sub_one_eq_mod, UInt32.toNat_add]
    simp
  unfold newULIOld
  rw [this]

example : newULILazy [48, 48, 49] [48, 49] (-1) (-1) (-1) (-1) 1 0x3000102 (-1) (-1) =
    ok (some (.mk 86 13 0 [0x18, 0x00, 0xf1, 0x10, 0, 1, 0x00, 0xf1, 0x10, 0x00, 0x00, 0x01, 0x02] [])) := by decide

/-- the deprecated getter reports the PLMN decoded last for every location -/
theorem C43_old_getter_wrong :
    (newIE 86 0 [0x18, 0x44, 0xf0, 0x01, 0x12, 0x34, 0x00, 0xf1, 0x10, 0x03, 0x00, 0x01, 0x02]).uliOld =
      ok ⟨0, none, none, none, some ⟨[48, 48, 49], [48, 49], 0x1234⟩, some ⟨[48, 48, 49], [48, 49], 0x3000102⟩, none, none, none⟩ ∧
    (newIE 86 0 [0x18, 0x44, 0xf0, 0x01, 0x12, 0x34, 0x00, 0xf1, 0x10, 0x03, 0x00, 0x01, 0x02]).uli =
      ok ⟨0x18, none, none, none, some ⟨[52, 52, 48], [49, 48], 0x1234⟩, some ⟨[48, 48, 49], [48, 49], 0x3000102⟩, none, none,
        none⟩ := by decide

/-! ### C48 -/

theorem length_hexEncode : ∀ b : Bytes, (hexEncode b).length = 2 * b.length
  | [] => rfl
  | _ :: r => by simp [hexEncode, length_hexEncode r]; omega

theorem decodePLMN_returns {b : Bytes} (h : 3 ≤ b.length) : Returns (decodePLMN b) := by
  have hm : ∀ s : Bytes, s.length = 2 → Returns (decodeMCC s) ∧ Returns (decodeMNC s) := by
    intro s hs
    have := length_hexEncode s
    constructor
    · unfold decodeMCC; ret
    · unfold decodeMNC; ret
  unfold decodePLMN
  refine returns_bind_slice (by omega) (by omega) (fun s hs => ?_)
  refine returns_bind (hm s (by omega)).1 (fun _ _ => ?_)
  refine returns_bind_slice (by omega) (by omega) (fun s hs => ?_)
  exact returns_bind (hm s (by omega)).2 (fun _ _ => by ret)

theorem getArea_returns (fl : Bool) (b : Bytes) (off : Nat) : Returns (getArea fl b off) := by
  unfold getArea; ret
  refine returns_bind (decodePLMN_returns (by omega)) (fun _ _ => ?_)
  ret
theorem getLoc_returns (fl : Bool) (b : Bytes) (off : Nat) : Returns (getLoc fl b off) := by
  unfold getLoc; ret
  refine returns_bind (decodePLMN_returns (by omega)) (fun _ _ => ?_)
  ret
theorem getECGI_returns (fl : Bool) (b : Bytes) (off : Nat) : Returns (getECGI fl b off) := by
  unfold getECGI; ret
  refine returns_bind (decodePLMN_returns (by omega)) (fun _ _ => ?_)
  ret
theorem getENB_returns (fl : Bool) (b : Bytes) (off : Nat) : Returns (getENB fl b off) := by
  unfold getENB; ret
  refine returns_bind (decodePLMN_returns (by omega)) (fun _ _ => ?_)
  ret

macro_rules | `(tactic| ret_step) => `(tactic| first
  | (with_reducible refine returns_bind (getArea_returns _ _ _) (fun _ _ => ?_))
  | (with_reducible refine returns_bind (getLoc_returns _ _ _) (fun _ _ => ?_))
  | (with_reducible refine returns_bind (getECGI_returns _ _ _) (fun _ _ => ?_))
  | (with_reducible refine returns_bind (getENB_returns _ _ _) (fun _ _ => ?_))
  | (with_reducible exact decodePLMN_returns (by omega)))

theorem parseULI_returns (b : Bytes) : Returns (parseULI b) := by unfold parseULI; ret

theorem get_isSome {fl : Bool} {b : Bytes} {off : Nat} :
    (∀ x o, getArea fl b off = ok (x, o) → x.isSome = fl) ∧ (∀ x o, getLoc fl b off = ok (x, o) → x.isSome = fl) ∧
    (∀ x o, getECGI fl b off = ok (x, o) → x.isSome = fl) ∧ (∀ x o, getENB fl b off = ok (x, o) → x.isSome = fl) := by
  refine ⟨?_, ?_, ?_, ?_⟩ <;> intro x o h <;> cases fl
  · simp [getArea] at h; simp [h.1.symm]
  · unfold getArea at h; rw [if_pos rfl] at h
    split at h
    · simp at h
    · simp only [bind_eq_ok] at h; obtain ⟨_, _, _, _, _, _, _, _, _, _, _, _, h⟩ := h; simp at h; simp [h.1.symm]
  · simp [getLoc] at h; simp [h.1.symm]
  · unfold getLoc at h; rw [if_pos rfl] at h
    split at h
    · simp at h
    · simp only [bind_eq_ok] at h; obtain ⟨_, _, _, _, _, _, _, _, h⟩ := h; simp at h; simp [h.1.symm]
  · simp [getECGI] at h; simp [h.1.symm]
  · unfold getECGI at h; rw [if_pos rfl] at h
    split at h
    · simp at h
    · simp only [bind_eq_ok] at h; obtain ⟨_, _, _, _, _, _, _, _, h⟩ := h; simp at h; simp [h.1.symm]
  · simp [getENB] at h; simp [h.1.symm]
  · unfold getENB at h; rw [if_pos rfl] at h
    split at h
    · simp at h
    · simp only [bind_eq_ok] at h; obtain ⟨_, _, _, _, _, _, h⟩ := h; simp at h; simp [h.1.symm]

/-- whatever octets were received: a location is there if and only if its flag is set -/
theorem parseULI_flags {b : Bytes} {f : ULI} (h : parseULI b = ok f) :
    f.cgi.isSome = has1stBit f.flags ∧ f.sai.isSome = has2ndBit f.flags ∧ f.rai.isSome = has3rdBit f.flags ∧
    f.tai.isSome = has4thBit f.flags ∧ f.ecgi.isSome = has5thBit f.flags ∧ f.lai.isSome = has6thBit f.flags ∧
    f.menbi.isSome = has7thBit f.flags ∧ f.emenbi.isSome = has8thBit f.flags := by
  unfold parseULI at h
  split at h
  · simp at h
  · simp only [bind_eq_ok] at h
    obtain ⟨fl, _, ⟨_, _⟩, k1, ⟨_, _⟩, k2, ⟨_, _⟩, k3, ⟨_, _⟩, k4, ⟨_, _⟩, k5, ⟨_, _⟩, k6, ⟨_, _⟩, k7, ⟨_, _⟩, k8, h⟩ := h
    simp only [ok.injEq] at h
    subst h
    exact ⟨get_isSome.1 _ _ k1, get_isSome.1 _ _ k2, get_isSome.1 _ _ k3, get_isSome.2.1 _ _ k4, get_isSome.2.2.1 _ _ k5,
      get_isSome.2.1 _ _ k6, get_isSome.2.2.2 _ _ k7, get_isSome.2.2.2 _ _ k8⟩

theorem deref_returns {α β : Type} {x : Option α} {f : α → Res β} (h : x.isSome = true) (hf : ∀ a, Returns (f a)) :
    Returns (deref x >>= f) := by
  cases x with
  | none => simp at h
  | some a => exact hf a

theorem mask_bits : ∀ x : UInt8, ((x &&& 0x01 ≠ 0) ↔ has1stBit x = true) ∧ ((x &&& 0x02 ≠ 0) ↔ has2ndBit x = true) ∧
    ((x &&& 0x04 ≠ 0) ↔ has3rdBit x = true) ∧ ((x &&& 0x08 ≠ 0) ↔ has4thBit x = true) ∧
    ((x &&& 0x10 ≠ 0) ↔ has5thBit x = true) ∧ ((x &&& 0x20 ≠ 0) ↔ has6thBit x = true) ∧
    ((x &&& 0x40 ≠ 0) ↔ has7thBit x = true) ∧ ((x &&& 0x80 ≠ 0) ↔ has8thBit x = true) :=
  forall_byte (by decide +kernel)

/-- C48 for User Location Information and the MCC/MNC accessors, whatever the type and payload -/
theorem C48_uli (i : IE) : Returns i.uli ∧ Returns i.uliOld ∧ Returns i.plmn := by
  refine ⟨?_, ?_, ?_⟩
  · unfold IE.uli; ret; exact parseULI_returns _
  · unfold IE.uliOld; simp only; ret
  · unfold IE.plmn
    ret
    refine returns_bind (parseULI_returns _) (fun f hf => ?_)
    obtain ⟨k1, k2, k3, k4, k5, k6, k7, k8⟩ := parseULI_flags hf
    unfold ULI.firstPLMN
    simp only [mask_bits, ← k1, ← k2, ← k3, ← k4, ← k5, ← k6, ← k7, ← k8]
    repeat' split
    all_goals first | exact deref_returns (by assumption) (fun _ => by ret) | ret

-- the CGI flag without its seven octets
example : (newIE 86 0 [1, 2, 3, 4]).uli = err .eof ∧ (newIE 86 0 [1, 2, 3, 4]).plmn = err .eof := by decide

end Verif.V2

/-! ### cases that meet the hypotheses -/

namespace Verif.V2
open Res Utils
theorem exAbsent {α : Type} {P : α → Prop} : ∀ a, (none : Option α) = some a → P a := fun _ h => nomatch h
example := C43_uli (g := defaultGrouped) (cgi := some ⟨[48, 48, 49], [48, 49], 1, 2⟩) (sai := none) (rai := none)
  (tai := some ⟨[51, 49, 48], [52, 49, 48], 0x0102⟩) (ecgi := some ⟨[48, 48, 49], [48, 49], 0x1020304⟩) (lai := none)
  (menbi := some ⟨[48, 48, 49], [48, 49], 0x10203⟩) (emenbi := none)
  (fun _ h => Option.some.inj h ▸ (by decide : IsPLMN [48, 48, 49] [48, 49])) exAbsent exAbsent
  (fun _ h => Option.some.inj h ▸ (by decide : IsPLMN [51, 49, 48] [52, 49, 48]))
  (fun _ h => Option.some.inj h ▸ (⟨by decide, by decide⟩ : IsPLMN [48, 48, 49] [48, 49] ∧ (0x1020304 : UInt32).toNat < 2 ^ 32)) exAbsent
  (fun _ h => Option.some.inj h ▸ (⟨by decide, by decide⟩ : IsPLMN [48, 48, 49] [48, 49] ∧ (0x10203 : UInt32).toNat < 2 ^ 24)) exAbsent (by decide)
example := C43_newECGI [48, 48, 49] [48, 49] 0x1020304 (by decide)
end Verif.V2
