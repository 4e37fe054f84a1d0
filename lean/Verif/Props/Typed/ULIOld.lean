import Verif.Props.Typed.ULI
/-
Property theorem C43 for the deprecated constructors and getter of User Location Information.
-/
set_option linter.unusedSimpArgs false
namespace Verif.V2
open Res Utils

variable (g : UInt8 → Bool)

theorem uliFlags_shifts : ∀ a b c d e f h i : Bool,
    (uliFlags a b c d e f h i &&& 0x01 == 1) = a ∧ ((uliFlags a b c d e f h i >>> 1) &&& 0x01 == 1) = b ∧
    ((uliFlags a b c d e f h i >>> 2) &&& 0x01 == 1) = c ∧ ((uliFlags a b c d e f h i >>> 3) &&& 0x01 == 1) = d ∧
    ((uliFlags a b c d e f h i >>> 4) &&& 0x01 == 1) = e ∧ ((uliFlags a b c d e f h i >>> 5) &&& 0x01 == 1) = f ∧
    ((uliFlags a b c d e f h i >>> 6) &&& 0x01 == 1) = h ∧ ((uliFlags a b c d e f h i >>> 7) &&& 0x01 == 1) = i := by
  decide +kernel

/-- all locations present belong to the network mcc, mnc -/
def SamePLMN (mcc mnc : Bytes) (cgi sai rai : Option Area) (tai : Option Loc) (ecgi : Option Node) (lai : Option Loc)
    (menbi emenbi : Option Node) : Prop :=
  (∀ a : Area, cgi = some a ∨ sai = some a ∨ rai = some a → a.mcc = mcc ∧ a.mnc = mnc) ∧
  (∀ a : Loc, tai = some a ∨ lai = some a → a.mcc = mcc ∧ a.mnc = mnc) ∧
  (∀ a : Node, ecgi = some a ∨ menbi = some a ∨ emenbi = some a → a.mcc = mcc ∧ a.mnc = mnc)

/-- C43, the deprecated getter: on the 3GPP encoding of any combination of locations of one network it returns those locations.
Missing: its Flags stay zero; locations of different networks get the network of the last one (`C43_old_getter_wrong`). -/
theorem C43_old_getter_partial {cgi sai rai : Option Area} {tai : Option Loc} {ecgi : Option Node} {lai : Option Loc}
    {menbi emenbi : Option Node} (h1 : AreaOK cgi) (h2 : AreaOK sai) (h3 : AreaOK rai) (h4 : LocOK tai) (h5 : NodeOK 32 ecgi)
    (h6 : LocOK lai) (h7 : NodeOK 24 menbi) (h8 : NodeOK 24 emenbi) {mcc mnc : Bytes}
    (hs : SamePLMN mcc mnc cgi sai rai tai ecgi lai menbi emenbi) (i : IE)
    (hi : i.payload = encULI cgi sai rai tai ecgi lai menbi emenbi) :
    i.uliOld = ok ⟨0, cgi, sai, rai, tai, ecgi, lai, menbi, emenbi⟩ := by
  obtain ⟨b1, b2, b3, b4, b5, b6, b7, b8⟩ := uliFlags_shifts cgi.isSome sai.isSome rai.isSome tai.isSome ecgi.isSome lai.isSome
    menbi.isSome emenbi.isSome
  unfold IE.uliOld
  rw [hi]
  unfold encULI
  generalize uliFlags cgi.isSome sai.isSome rai.isSome tai.isSome ecgi.isSome lai.isSome menbi.isSome emenbi.isSome = fl at *
  have k1 := fun r => getArea_eq h1 (pre := [fl]) (rest := r) (off := 1) rfl
  have k2 := fun r off h => getArea_eq h2 (pre := [fl] ++ encOpt encArea cgi) (rest := r) (off := off) h
  have k3 := fun r off h => getArea_eq h3 (pre := [fl] ++ encOpt encArea cgi ++ encOpt encArea sai) (rest := r) (off := off) h
  have k4 := fun r off h => getLoc_eq h4 (pre := [fl] ++ encOpt encArea cgi ++ encOpt encArea sai ++ encOpt encArea rai)
    (rest := r) (off := off) h
  have k5 := fun r off h => getECGI_eq h5 (pre := [fl] ++ encOpt encArea cgi ++ encOpt encArea sai ++ encOpt encArea rai ++
    encOpt encLoc tai) (rest := r) (off := off) h
  have k6 := fun r off h => getLoc_eq h6 (pre := [fl] ++ encOpt encArea cgi ++ encOpt encArea sai ++ encOpt encArea rai ++
    encOpt encLoc tai ++ encOpt encECGI ecgi) (rest := r) (off := off) h
  have k7 := fun r off h => getENB_eq h7 (pre := [fl] ++ encOpt encArea cgi ++ encOpt encArea sai ++ encOpt encArea rai ++
    encOpt encLoc tai ++ encOpt encECGI ecgi ++ encOpt encLoc lai) (rest := r) (off := off) h
  have k8 := fun off h => getENB_eq h8 (pre := [fl] ++ encOpt encArea cgi ++ encOpt encArea sai ++ encOpt encArea rai ++
    encOpt encLoc tai ++ encOpt encECGI ecgi ++ encOpt encLoc lai ++ encOpt encENB menbi) (rest := []) (off := off) h
  simp only [List.append_assoc, List.append_nil] at k1 k2 k3 k4 k5 k6 k7 k8 ⊢
  simp only [List.singleton_append, idx_zero, bind_ok] at *
  rw [if_neg (by simp), b1, k1]
  simp only [bind_ok]
  rw [b2, k2 _ _ (by simp; omega)]
  simp only [bind_ok]
  rw [b3, k3 _ _ (by simp; omega)]
  simp only [bind_ok]
  rw [b4, k4 _ _ (by simp; omega)]
  simp only [bind_ok]
  rw [b5, k5 _ _ (by simp; omega)]
  simp only [bind_ok]
  rw [b6, k6 _ _ (by simp; omega)]
  simp only [bind_ok]
  rw [b7, k7 _ _ (by simp; omega)]
  simp only [bind_ok]
  rw [b8, k8 _ (by simp; omega)]
  simp only [bind_ok]
  clear k1 k2 k3 k4 k5 k6 k7 k8 b1 b2 b3 b4 b5 b6 b7 b8
  obtain ⟨s1, s2, s3⟩ := hs
  generalize hp : ((cgi.toList ++ (sai.toList ++ rai.toList)).map (fun a : Area => (a.mcc, a.mnc)) ++
    (tai.toList.map (fun a : Loc => (a.mcc, a.mnc)) ++ (ecgi.toList.map (fun a : Node => (a.mcc, a.mnc)) ++
    (lai.toList.map (fun a : Loc => (a.mcc, a.mnc)) ++
    (menbi.toList ++ emenbi.toList).map (fun a : Node => (a.mcc, a.mnc)))))) = all
  have hall : ∀ p ∈ all, p = (mcc, mnc) := by
    subst hp
    intro p hp
    simp only [List.mem_append, List.mem_map, Option.mem_toList] at hp
    rcases hp with ⟨a, ha, rfl⟩ | ⟨a, ha, rfl⟩ | ⟨a, ha, rfl⟩ | ⟨a, ha, rfl⟩ | ⟨a, ha, rfl⟩
    · rcases ha with ha | ha | ha <;>
        (obtain ⟨e1, e2⟩ := s1 a (by simp [ha]); rw [e1, e2])
    · obtain ⟨e1, e2⟩ := s2 a (by simp [ha]); rw [e1, e2]
    · obtain ⟨e1, e2⟩ := s3 a (by simp [ha]); rw [e1, e2]
    · obtain ⟨e1, e2⟩ := s2 a (by simp [ha]); rw [e1, e2]
    · rcases ha with ha | ha <;>
        (obtain ⟨e1, e2⟩ := s3 a (by simp [ha]); rw [e1, e2])
  have area : ∀ x : Option Area, (∀ a, x = some a → a.mcc = mcc ∧ a.mnc = mnc ∧ (a.mcc, a.mnc) ∈ all) →
      x.map (fun a : Area => { a with mcc := (all.getLast?.getD ([], [])).1, mnc := (all.getLast?.getD ([], [])).2 }) = x := by
    intro x hx
    cases x with
    | none => rfl
    | some a =>
      obtain ⟨e1, e2, hm⟩ := hx a rfl
      obtain ⟨q, hq⟩ : ∃ q, all.getLast? = some q := by
        cases h : all.getLast? with
        | none => simp at h; subst h; simp at hm
        | some q => exact ⟨q, rfl⟩
      have := hall q (List.mem_of_getLast? hq)
      subst this
      simp [hq, ← e1, ← e2]
  have loc : ∀ x : Option Loc, (∀ a, x = some a → a.mcc = mcc ∧ a.mnc = mnc ∧ (a.mcc, a.mnc) ∈ all) →
      x.map (fun a : Loc => { a with mcc := (all.getLast?.getD ([], [])).1, mnc := (all.getLast?.getD ([], [])).2 }) = x := by
    intro x hx
    cases x with
    | none => rfl
    | some a =>
      obtain ⟨e1, e2, hm⟩ := hx a rfl
      obtain ⟨q, hq⟩ : ∃ q, all.getLast? = some q := by
        cases h : all.getLast? with
        | none => simp at h; subst h; simp at hm
        | some q => exact ⟨q, rfl⟩
      have := hall q (List.mem_of_getLast? hq)
      subst this
      simp [hq, ← e1, ← e2]
  have node : ∀ x : Option Node, (∀ a, x = some a → a.mcc = mcc ∧ a.mnc = mnc ∧ (a.mcc, a.mnc) ∈ all) →
      x.map (fun a : Node => { a with mcc := (all.getLast?.getD ([], [])).1, mnc := (all.getLast?.getD ([], [])).2 }) = x := by
    intro x hx
    cases x with
    | none => rfl
    | some a =>
      obtain ⟨e1, e2, hm⟩ := hx a rfl
      obtain ⟨q, hq⟩ : ∃ q, all.getLast? = some q := by
        cases h : all.getLast? with
        | none => simp at h; subst h; simp at hm
        | some q => exact ⟨q, rfl⟩
      have := hall q (List.mem_of_getLast? hq)
      subst this
      simp [hq, ← e1, ← e2]
  have mem : ∀ x, ((∃ a : Area, (cgi = some a ∨ sai = some a ∨ rai = some a) ∧ x = (a.mcc, a.mnc)) ∨
      (∃ a : Loc, (tai = some a ∨ lai = some a) ∧ x = (a.mcc, a.mnc)) ∨
      (∃ a : Node, (ecgi = some a ∨ menbi = some a ∨ emenbi = some a) ∧ x = (a.mcc, a.mnc))) → x ∈ all := by
    subst hp
    rintro x (⟨a, ha, rfl⟩ | ⟨a, ha, rfl⟩ | ⟨a, ha, rfl⟩)
    · rcases ha with rfl | rfl | rfl <;> simp
    · rcases ha with rfl | rfl <;> simp
    · rcases ha with rfl | rfl | rfl <;> simp
  rw [area cgi (fun a ha => ⟨(s1 a (by simp [ha])).1, (s1 a (by simp [ha])).2, mem _ (.inl ⟨a, by simp [ha], rfl⟩)⟩),
    area sai (fun a ha => ⟨(s1 a (by simp [ha])).1, (s1 a (by simp [ha])).2, mem _ (.inl ⟨a, by simp [ha], rfl⟩)⟩),
    area rai (fun a ha => ⟨(s1 a (by simp [ha])).1, (s1 a (by simp [ha])).2, mem _ (.inl ⟨a, by simp [ha], rfl⟩)⟩),
    loc tai (fun a ha => ⟨(s2 a (by simp [ha])).1, (s2 a (by simp [ha])).2, mem _ (.inr (.inl ⟨a, by simp [ha], rfl⟩))⟩),
    node ecgi (fun a ha => ⟨(s3 a (by simp [ha])).1, (s3 a (by simp [ha])).2, mem _ (.inr (.inr ⟨a, by simp [ha], rfl⟩))⟩),
    loc lai (fun a ha => ⟨(s2 a (by simp [ha])).1, (s2 a (by simp [ha])).2, mem _ (.inr (.inl ⟨a, by simp [ha], rfl⟩))⟩),
    node menbi (fun a ha => ⟨(s3 a (by simp [ha])).1, (s3 a (by simp [ha])).2, mem _ (.inr (.inr ⟨a, by simp [ha], rfl⟩))⟩),
    node emenbi (fun a ha => ⟨(s3 a (by simp [ha])).1, (s3 a (by simp [ha])).2, mem _ (.inr (.inr ⟨a, by simp [ha], rfl⟩))⟩)]

/-! ### the deprecated constructors -/

theorem putOld_eq (flag : Bool) {plmn tail pre z : Bytes} {off : Nat} (hp : plmn.length = 3) (ho : off = pre.length)
    (hz : (if flag then plmn ++ tail else []).length ≤ z.length) :
    putOld flag plmn tail (pre ++ z) off =
      ok (pre ++ (if flag then plmn ++ tail else []) ++ z.drop (if flag then plmn ++ tail else []).length,
        off + (if flag then plmn ++ tail else []).length) := by
  cases flag with
  | false => simp [putOld]
  | true =>
    simp only [if_true, List.length_append] at hz ⊢
    simp only [putOld, if_true]
    rw [copyAt_append ho (by omega) (by omega)]
    simp only [bind_ok]
    rw [copyAt_append (by simp; omega) (by omega) (by simp; omega)]
    simp [hp, Nat.add_assoc]

/-- a location that is present if the flag is set -/
def when {α : Type} (b : Bool) (a : α) : Option α := if b then some a else none

/-- C43, the deprecated constructor: flags and numbers give the 3GPP encoding of the locations flagged, all of the one network.
Missing: E-UTRAN cell identifiers of 2^20 and more (`C43_old_eci_wrong`). -/
theorem C43_old_constructor_partial {mcc mnc : Bytes} (h : IsPLMN mcc mnc) (a b c d e f k l : Bool)
    (lac ci sac rac tac : UInt16) (eci menbi emenbi : UInt32) (he : e = true → eci.toNat < 2 ^ 20) :
    newULIOld (uliFlags a b c d e f k l) mcc mnc lac ci sac rac tac eci menbi emenbi =
      ok (some (newIE 86 0 (encULI (when a ⟨mcc, mnc, lac, ci⟩) (when b ⟨mcc, mnc, lac, sac⟩) (when c ⟨mcc, mnc, lac, rac⟩)
        (when d ⟨mcc, mnc, tac⟩) (when e ⟨mcc, mnc, eci⟩) (when f ⟨mcc, mnc, lac⟩) (when k ⟨mcc, mnc, menbi⟩)
        (when l ⟨mcc, mnc, emenbi⟩)))) := by
  have hm : ∀ plmn x off, putOld e plmn (be32 (eci &&& 0xfffff)) x off = putOld e plmn (be32 eci) x off := by
    intro plmn x off
    cases e with
    | false => rfl
    | true =>
      have : eci &&& 0xfffff = eci := by
        apply UInt32.toNat_inj.mp
        rw [UInt32.toNat_and, show (0xfffff : UInt32).toNat = 2 ^ 20 - 1 by rfl, Nat.and_two_pow_sub_one_eq_mod,
          Nat.mod_eq_of_lt (he rfl)]
      rw [this]
  obtain ⟨h1, h2, -⟩ := plmn_facts h
  obtain ⟨b1, b2, b3, b4, b5, b6, b7, b8⟩ := uliFlags_shifts a b c d e f k l
  obtain ⟨m1, m2, m3, m4, m5, m6, m7, m8⟩ := uliFlags_masks a b c d e f k l
  have hs : ∀ {α : Type} (x : Bool) (y : α), (when x y).isSome = x := by intro α x y; cases x <;> rfl
  have ha : ∀ (x : Bool) (y : Area), encOpt encArea (when x y) = if x then encPLMN y.mcc y.mnc ++ (be16 y.lac ++ be16 y.code) else [] := by
    intro x y; cases x <;> simp [when, encOpt, encArea]
  have hl : ∀ (x : Bool) (y : Loc), encOpt encLoc (when x y) = if x then encPLMN y.mcc y.mnc ++ be16 y.code else [] := by
    intro x y; cases x <;> simp [when, encOpt, encLoc]
  have hn : ∀ (x : Bool) (y : Node), encOpt encECGI (when x y) = if x then encPLMN y.mcc y.mnc ++ be32 y.num else [] := by
    intro x y; cases x <;> simp [when, encOpt, encECGI]
  have hb : ∀ (x : Bool) (y : Node), encOpt encENB (when x y) = if x then encPLMN y.mcc y.mnc ++ uint32To24 y.num else [] := by
    intro x y; cases x <;> simp [when, encOpt, encENB, uint32To24_eq]
  unfold newULIOld
  simp only [encULI, hs, ha, hl, hn, hb]
  have hlen : uliPayloadLen (uliFlags a b c d e f k l) = 1 + (if a then 7 else 0) + (if b then 7 else 0) + (if c then 7 else 0) +
      (if d then 5 else 0) + (if e then 7 else 0) + (if f then 5 else 0) + (if k then 6 else 0) + (if l then 6 else 0) := by
    simp only [uliPayloadLen, m1, m2, m3, m4, m5, m6, m7, m8]
  have q7 : ∀ (x : Bool) (u v : UInt16), (if x then encPLMN mcc mnc ++ (be16 u ++ be16 v) else []).length = if x then 7 else 0 := by
    intro x u v; cases x <;> simp [h2]
  have q5 : ∀ (x : Bool) (u : UInt16), (if x then encPLMN mcc mnc ++ be16 u else []).length = if x then 5 else 0 := by
    intro x u; cases x <;> simp [h2]
  have q7' : ∀ (x : Bool) (u : UInt32), (if x then encPLMN mcc mnc ++ be32 u else []).length = if x then 7 else 0 := by
    intro x u; cases x <;> simp [h2]
  have q6 : ∀ (x : Bool) (u : UInt32), (if x then encPLMN mcc mnc ++ uint32To24 u else []).length = if x then 6 else 0 := by
    intro x u; cases x <;> simp [h2, uint32To24]
  generalize hz : List.replicate (uliPayloadLen (uliFlags a b c d e f k l)) (0 : UInt8) = z
  have hzl : z.length = uliPayloadLen (uliFlags a b c d e f k l) := by rw [← hz]; simp
  rw [hlen] at hzl
  clear hz hlen m1 m2 m3 m4 m5 m6 m7 m8
  generalize uliFlags a b c d e f k l = fl at *
  rw [show z = [] ++ z by rfl, setAt_append (by rfl) (by omega)]
  simp only [bind_ok, List.nil_append, h1, hm, b1, b2, b3, b4, b5, b6, b7, b8]
  rw [putOld_eq a h2 (by rfl) (by rw [q7]; simp; omega)]
  simp only [bind_ok]
  rw [putOld_eq b h2 (by simp only [List.length_append, List.length_singleton]) (by rw [q7]; simp only [List.length_drop, q7]; omega)]
  simp only [bind_ok]
  rw [putOld_eq c h2 (by simp only [List.length_append, List.length_singleton]) (by rw [q7]; simp only [List.length_drop, q7]; omega)]
  simp only [bind_ok]
  rw [putOld_eq d h2 (by simp only [List.length_append, List.length_singleton]) (by rw [q5]; simp only [List.length_drop, q7]; omega)]
  simp only [bind_ok]
  rw [putOld_eq e h2 (by simp only [List.length_append, List.length_singleton]) (by rw [q7']; simp only [List.length_drop, q7, q5]; omega)]
  simp only [bind_ok]
  rw [putOld_eq f h2 (by simp only [List.length_append, List.length_singleton]) (by rw [q5]; simp only [List.length_drop, q7, q5, q7']; omega)]
  simp only [bind_ok]
  rw [putOld_eq k h2 (by simp only [List.length_append, List.length_singleton]) (by rw [q6]; simp only [List.length_drop, q7, q5, q7']; omega)]
  simp only [bind_ok]
  rw [putOld_eq l h2 (by simp only [List.length_append, List.length_singleton]) (by rw [q6]; simp only [List.length_drop, q7, q5, q7', q6]; omega)]
  simp only [bind_ok, List.drop_drop, q7, q5, q7', q6]
  rw [List.drop_eq_nil_of_le (by omega)]
  simp [build]

theorem bitFlags : ∀ a b c d e f k l : Bool,
    (if l then (0x80 : UInt8) else 0) ||| (if k then 0x40 else 0) ||| (if f then 0x20 else 0) ||| (if e then 0x10 else 0) |||
      (if d then 0x08 else 0) ||| (if c then 0x04 else 0) ||| (if b then 0x02 else 0) ||| (if a then 0x01 else 0) =
    uliFlags a b c d e f k l := by decide +kernel

/-- C43, the lazy constructor: a location is there if and only if its number is not negative. The LAC counts both for the LAI and
for the three areas. Missing: E-UTRAN cell identifiers of 2^20 and more (`C43_old_eci_wrong`). -/
theorem C43_lazy_partial {mcc mnc : Bytes} (h : IsPLMN mcc mnc) (lac ci sac rac tac eci menbi emenbi : Int) (he : eci < 2 ^ 20) :
    newULILazy mcc mnc lac ci sac rac tac eci menbi emenbi =
      ok (some (newIE 86 0 (encULI
        (when (decide (0 ≤ ci)) ⟨mcc, mnc, .ofInt lac, .ofInt ci⟩) (when (decide (0 ≤ sac)) ⟨mcc, mnc, .ofInt lac, .ofInt sac⟩)
        (when (decide (0 ≤ rac)) ⟨mcc, mnc, .ofInt lac, .ofInt rac⟩) (when (decide (0 ≤ tac)) ⟨mcc, mnc, .ofInt tac⟩)
        (when (decide (0 ≤ eci)) ⟨mcc, mnc, .ofInt eci⟩) (when (decide (0 ≤ lac)) ⟨mcc, mnc, .ofInt lac⟩)
        (when (decide (0 ≤ menbi)) ⟨mcc, mnc, .ofInt menbi⟩) (when (decide (0 ≤ emenbi)) ⟨mcc, mnc, .ofInt emenbi⟩)))) := by
  rw [← C43_old_constructor_partial h]
  · have := bitFlags (decide (0 ≤ ci)) (decide (0 ≤ sac)) (decide (0 ≤ rac)) (decide (0 ≤ tac)) (decide (0 ≤ eci))
      (decide (0 ≤ lac)) (decide (0 ≤ menbi)) (decide (0 ≤ emenbi))
    simp only [decide_eq_true_eq] at this
    rw [← this]
    rfl
  · intro h0
    simp only [decide_eq_true_eq] at h0
    obtain ⟨n, rfl⟩ := Int.eq_ofNat_of_zero_le h0
    have : n < 2 ^ 20 := by omega
    have e : UInt32.ofInt (n : Int) = UInt32.ofNat n := by
      simp only [UInt32.ofInt]
      rw [Int.emod_eq_of_lt (by omega) (by omega)]
      simp
    rw [e, UInt32.toNat_ofNat_of_lt' (by simp [UInt32.size]; omega)]
    exact this

/-- C43 through the deprecated functions only: what the old constructor is given the old getter shows. -/
theorem C43_old_round_trip_partial {mcc mnc : Bytes} (h : IsPLMN mcc mnc) (a b c d e f k l : Bool)
    (lac ci sac rac tac : UInt16) (eci menbi emenbi : UInt32) (he : eci.toNat < 2 ^ 20)
    (hm : menbi.toNat < 2 ^ 24) (hn : emenbi.toNat < 2 ^ 24) :
    ∃ i : IE, newULIOld (uliFlags a b c d e f k l) mcc mnc lac ci sac rac tac eci menbi emenbi = ok (some i) ∧
      i.uliOld = ok ⟨0, when a ⟨mcc, mnc, lac, ci⟩, when b ⟨mcc, mnc, lac, sac⟩, when c ⟨mcc, mnc, lac, rac⟩,
        when d ⟨mcc, mnc, tac⟩, when e ⟨mcc, mnc, eci⟩, when f ⟨mcc, mnc, lac⟩, when k ⟨mcc, mnc, menbi⟩,
        when l ⟨mcc, mnc, emenbi⟩⟩ := by
  refine ⟨_, C43_old_constructor_partial h a b c d e f k l lac ci sac rac tac eci menbi emenbi (fun _ => he), ?_⟩
  have w : ∀ {α : Type} {x : Bool} {y z : α}, when x y = some z → z = y := by
    intro α x y z hw; cases x <;> simp_all [when]
  refine C43_old_getter_partial ?_ ?_ ?_ ?_ ?_ ?_ ?_ ?_ (mcc := mcc) (mnc := mnc) ?_ _ (payload_new _ _ _)
  all_goals first
    | (intro x hx; obtain rfl := w hx; exact h)
    | (intro x hx; obtain rfl := w hx; refine ⟨h, ?_⟩; simp only; omega)
    | skip
  refine ⟨?_, ?_, ?_⟩
  · intro x hx; rcases hx with hx | hx | hx <;> (obtain rfl := w hx; exact ⟨rfl, rfl⟩)
  · intro x hx; rcases hx with hx | hx <;> (obtain rfl := w hx; exact ⟨rfl, rfl⟩)
  · intro x hx; rcases hx with hx | hx | hx <;> (obtain rfl := w hx; exact ⟨rfl, rfl⟩)

example : newULILazy [0x30, 0x30, 0x31] [0x30, 0x31] (-1) (-1) (-1) (-1) 1 0x202 (-1) (-1) =
    ok (some (newIE 86 0 [0x18, 0x00, 0xf1, 0x10, 0, 1, 0x00, 0xf1, 0x10, 0, 0, 2, 2])) := by decide +kernel

example : (newIE 86 0 [0x18, 0x00, 0xf1, 0x10, 0, 1, 0x00, 0xf1, 0x10, 0, 0, 2, 2]).uliOld =
    ok ⟨0, none, none, none, some ⟨[0x30, 0x30, 0x31], [0x30, 0x31], 1⟩, some ⟨[0x30, 0x30, 0x31], [0x30, 0x31], 0x202⟩,
      none, none, none⟩ := by decide +kernel

end Verif.V2

/-! ### cases that meet the hypotheses -/

namespace Verif.V2
open Res Utils
example := C43_old_getter_partial (cgi := some ⟨[48, 48, 49], [48, 49], 1, 2⟩) (sai := none) (rai := none)
  (tai := some ⟨[48, 48, 49], [48, 49], 0x0102⟩) (ecgi := some ⟨[48, 48, 49], [48, 49], 0x1020304⟩) (lai := none)
  (menbi := none) (emenbi := none)
  (fun _ h => Option.some.inj h ▸ (by decide : IsPLMN [48, 48, 49] [48, 49])) exAbsent exAbsent
  (fun _ h => Option.some.inj h ▸ (by decide : IsPLMN [48, 48, 49] [48, 49]))
  (fun _ h => Option.some.inj h ▸ (⟨by decide, by decide⟩ : IsPLMN [48, 48, 49] [48, 49] ∧ (0x1020304 : UInt32).toNat < 2 ^ 32)) exAbsent
  exAbsent exAbsent (mcc := [48, 48, 49]) (mnc := [48, 49])
  ⟨(by rintro a (h | h | h) <;> first | (cases h; done) | (obtain rfl := Option.some.inj h; exact ⟨rfl, rfl⟩)),
    (by rintro a (h | h) <;> first | (cases h; done) | (obtain rfl := Option.some.inj h; exact ⟨rfl, rfl⟩)),
    (by rintro a (h | h | h) <;> first | (cases h; done) | (obtain rfl := Option.some.inj h; exact ⟨rfl, rfl⟩))⟩
  (newIE 86 0 (encULI (some ⟨[48, 48, 49], [48, 49], 1, 2⟩) none none (some ⟨[48, 48, 49], [48, 49], 0x0102⟩)
    (some ⟨[48, 48, 49], [48, 49], 0x1020304⟩) none none none)) rfl
example := C43_old_constructor_partial (mcc := [48, 48, 49]) (mnc := [48, 49]) (by decide) true false false true true false false true 1 2 3 4 5 0x10203 7 8
  (fun _ => by decide)
example := C43_lazy_partial (mcc := [48, 48, 49]) (mnc := [48, 49]) (by decide) 1 2 (-1) (-1) 5 0x10203 (-1) (-1) (by decide)
example := C43_old_round_trip_partial (mcc := [48, 48, 49]) (mnc := [48, 49]) (by decide) true false false true true false false true 1 2 3 4 5 0x10203 7 8
  (by decide) (by decide) (by decide)
end Verif.V2
