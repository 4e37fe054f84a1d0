import Verif.Proofs.V1IE
/-
Property theorems on GTPv1 / GTPv0 information elements: C19, C20.
-/
namespace Verif.TLV
open Res

/-- the two protocol versions: code and wire format -/
inductive Ver where | v0 | v1
  deriving DecidableEq

/-- the code of the version -/
def Ver.cfg : Ver → Cfg | .v0 => TLV.v0 | .v1 => TLV.v1
/-- the wire format of the version -/
def Ver.proto : Ver → Spec.Proto | .v0 => Spec.v0 | .v1 => Spec.v1

theorem Ver.agree : ∀ v : Ver, Agree v.cfg v.proto | .v0 => agree_v0 | .v1 => agree_v1

/-- **C19** Every representable IE that carries a value is serialised into its wire format and read back unchanged,
whatever follows it. -/
theorem C19_round_trip (v : Ver) (x : IE) (hw : Spec.wf v.proto x = true) (hv : Spec.hasValue x = true) :
    x.marshal v.cfg = ok (Spec.enc v.proto x) ∧
    ∀ rest, parse v.cfg (Spec.enc v.proto x ++ rest) = ok x := by
  refine ⟨?_, fun rest => (parse_ok_iff v.agree _ x).mpr ⟨hw, ?_, rest, rfl⟩⟩
  · rw [IE.marshal, marshalTo_eq v.agree x _ (sized_of_wf v.agree x hw) (by simp), rawEnc_wf x hw]
    simp
  · have := two_le_enc (p := v.proto) x hv
    simp only [List.length_append]; omega

example : (IE.mk 14 0 [9]).marshal v1 = ok [14, 9] ∧ parse v1 ([14, 9] ++ [1, 2, 3]) = ok ⟨14, 0, [9]⟩ := by
  decide +kernel

/-- **C19** for IEs made by the constructor: what it takes to be representable, in terms of type and value only. -/
theorem C19_new (v : Ver) (t : UInt8) (val : Bytes)
    (hfix : t.toNat < 128 → v.proto.fixed t = some val.length ∧ 0 < val.length)
    (hvar : 128 ≤ t.toNat → val.length < (if v.proto.short t then 256 else 65536)) :
    (newIE v.cfg t val).typ = t ∧ (newIE v.cfg t val).payload = val ∧
    ∃ b, (newIE v.cfg t val).marshal v.cfg = ok b ∧ b.length = (newIE v.cfg t val).marshalLen v.cfg ∧
      ∀ rest, parse v.cfg (b ++ rest) = ok (newIE v.cfg t val) := by
  have hty : (newIE v.cfg t val).typ = t := by simp only [newIE, IE.setLength]; split <;> rfl
  have hpl : (newIE v.cfg t val).payload = val := by simp only [newIE, IE.setLength]; split <;> rfl
  have A := v.agree
  have hw : Spec.wf v.proto (newIE v.cfg t val) = true ∧ Spec.hasValue (newIE v.cfg t val) = true := by
    by_cases h1 : t.toNat < 128
    · obtain ⟨hf, hp⟩ := hfix h1
      have hl : (newIE v.cfg t val).length = 0 := by simp [newIE, IE.setLength, A.tv, hf]
      simp only [Spec.wf, Spec.hasValue, hty, hpl, hl, h1, if_true, hf, Option.getD_some, decide_true,
        beq_self_eq_true, Bool.and_self, true_and]
      cases val with
      | nil => simp at hp
      | cons _ _ => simp
    · have hf : v.proto.fixed t = none := by
        cases h : v.proto.fixed t with
        | none => rfl
        | some n => exact absurd (A.below t (by rw [h]; simp)) h1
      have hb := hvar (by omega)
      have hl : (newIE v.cfg t val).length = UInt16.ofNat val.length := by simp [newIE, IE.setLength, A.tv, hf]
      have hlt : val.length < 65536 := by revert hb; split <;> omega
      simp only [Spec.wf, Spec.hasValue, hty, hpl, hl, h1, if_false, toNat_ofNat16 hlt, hb, decide_true,
        Bool.and_self, true_and]
      simp; left; omega
  obtain ⟨hm, hp⟩ := C19_round_trip v _ hw.1 hw.2
  exact ⟨hty, hpl, _, hm, length_enc A _ hw.1, hp⟩

example : (newIE v1 127 [1, 2, 3, 4]).marshal v1 = ok [127, 1, 2, 3, 4] := by decide +kernel
example : (newIE v1 141 [0x32, 0xc0]).marshal v1 = ok [141, 2, 0x32, 0xc0] ∧
    parse v1 [141, 2, 0x32, 0xc0, 7] = ok (newIE v1 141 [0x32, 0xc0]) := by decide +kernel

/-- A fixed-size IE given a value of another size is cut, or padded with zero octets, to the size of the type. -/
theorem C19_wrong_size (v : Ver) (t : UInt8) (n : Nat) (val : Bytes) (h : v.proto.fixed t = some n) :
    (newIE v.cfg t val).marshal v.cfg = ok (t :: (val.take n ++ List.replicate (n - val.length) 0)) := by
  have A := v.agree
  have hb : t.toNat < 128 := A.below _ (by rw [h]; simp)
  have hs : v.proto.short t = false := by
    cases hh : v.proto.short t with
    | false => rfl
    | true => have := A.above _ hh; omega
  have e : newIE v.cfg t val = ⟨t, 0, val⟩ := by simp [newIE, IE.setLength, A.tv, h]
  have hm : (IE.mk t 0 val).marshalLen v.cfg = n + 1 := by simp [IE.marshalLen, A.tv, h]
  rw [e, IE.marshal, IE.marshalTo, hm, if_neg (by simp)]
  simp only [A.short, hs, isTV, hb]
  simp [setAt, copyAt, List.replicate_succ]
  rw [show 1 + min n val.length = min n val.length + 1 by omega, List.drop_succ_cons, List.drop_replicate]
  congr 1; omega

example : (newIE v1 2 [0x12]).marshal v1 = ok [2, 0x12, 0, 0, 0, 0, 0, 0, 0] := by decide +kernel

/-- The exceptions to the round trip: a type below 128 whose size the library does not know loses its value … -/
theorem C19_unknown_type (v : Ver) (t : UInt8) (val : Bytes) (h : v.proto.fixed t = none) (ht : t.toNat < 128)
    (hv : val ≠ []) :
    (newIE v.cfg t val).marshal v.cfg = ok (t :: val) ∧
    ∃ y, parse v.cfg (t :: val) = ok y ∧ y.typ = t ∧ y.payload = [] := by
  have A := v.agree
  have hs : v.proto.short t = false := by
    cases hh : v.proto.short t with
    | false => rfl
    | true => have := A.above _ hh; omega
  constructor
  · have e : newIE v.cfg t val = ⟨t, UInt16.ofNat val.length, val⟩ := by simp [newIE, IE.setLength, A.tv, h]
    rw [e, IE.marshal, marshalTo_eq A _ _ (by intro n hn; simp [h] at hn) (by simp)]
    simp [rawEnc, ht]
  · refine ⟨⟨t, 0, []⟩, (parse_ok_iff A _ _).mpr ⟨?_, ?_, val, ?_⟩, rfl, rfl⟩
    · simp [Spec.wf, ht, h]
    · have := List.length_pos_iff.mpr hv
      simp; omega
    · simp [Spec.enc, ht]

/-- … and an IE without value (the reserved type 0) cannot be read when nothing follows it. -/
theorem C19_no_value (v : Ver) (t : UInt8) : ∃ e, parse v.cfg [t] = err e := ⟨.tooShortParse, rfl⟩

/-- **C20** Reading one IE or a sequence of IEs from any byte string returns. -/
theorem C20_total (v : Ver) (b : Bytes) : Returns (parse v.cfg b) ∧ Returns (parseMulti v.cfg b) :=
  ⟨parse_total v.agree b, parseMulti_total v.agree b⟩

/-- **C20** If a sequence parses, the serialisations of the IEs concatenate to the input. -/
theorem C20_lossless (v : Ver) (b : Bytes) (l : List IE) (h : parseMulti v.cfg b = ok l) :
    ∃ bs : List Bytes, bs.flatten = b ∧ l.map (IE.marshal v.cfg) = bs.map ok := by
  obtain ⟨h1, h2, -⟩ := (parseMulti_ok_iff v.agree b l).mp h
  refine ⟨l.map (Spec.enc v.proto), h2.symm, ?_⟩
  rw [List.map_map]
  refine List.map_congr_left (fun x hx => ?_)
  have hw := h1 x hx
  rw [IE.marshal, marshalTo_eq v.agree x _ (sized_of_wf v.agree x hw) (by simp), rawEnc_wf x hw]
  simp

example : parseMulti v1 [14, 1, 128, 0, 1, 7] = ok [⟨14, 0, [1]⟩, ⟨128, 1, [7]⟩] := by decide +kernel

/-- **C20** Exactly which byte strings parse, and into what: the concatenations of wire formats of representable IEs,
the last of which carries a value. -/
theorem C20_accepts_iff (v : Ver) (b : Bytes) (l : List IE) :
    parseMulti v.cfg b = ok l ↔ (∀ x ∈ l, Spec.wf v.proto x = true) ∧ b = Spec.encs v.proto l ∧
      ∀ x, l.getLast? = some x → Spec.hasValue x = true := parseMulti_ok_iff v.agree b l

/-- **C20** one IE: what is read is a prefix of the input -/
theorem C20_accepts_one_iff (v : Ver) (b : Bytes) (x : IE) :
    parse v.cfg b = ok x ↔ Spec.wf v.proto x = true ∧ 2 ≤ b.length ∧ Spec.enc v.proto x <+: b := by
  rw [parse_ok_iff v.agree]
  constructor
  · rintro ⟨h1, h2, r, rfl⟩; exact ⟨h1, h2, List.prefix_append _ _⟩
  · rintro ⟨h1, h2, r, rfl⟩; exact ⟨h1, h2, r, rfl⟩

example : parseMulti v0 [128, 0, 5, 1] = err .invalidLength := by decide +kernel

end Verif.TLV

namespace Verif.TLV
open Res
/-! ### cases that meet the hypotheses -/

example := C19_round_trip .v1 ⟨14, 0, [9]⟩ (by decide) (by decide)
example := C19_round_trip .v0 ⟨128, 2, [0xf1, 0x21]⟩ (by decide) (by decide)
example := C19_new .v1 141 [0x32, 0xc0] (by decide) (by decide)
example := C19_wrong_size .v1 2 8 [0x12] (by decide)
example := C19_unknown_type .v1 99 [1, 2] (by decide) (by decide) (by decide)
example := C20_lossless .v1 [14, 1, 128, 0, 1, 7] _ rfl
end Verif.TLV
