import Verif.Proofs.V2Header
/-
Property theorems C09, C10 (GTPv2 header).
-/
namespace Verif.V2
open Res Spec

/-- C09: a header whose Length field was set from its payload, of at least 12 and fewer than 65536 octets in
total, with a 24-bit sequence number, serialises to the octets of the standard and is recovered from them,
whatever bytes follow (for instance a piggybacked message). -/
theorem C09_header_round_trip (h : Header) (rest : Bytes)
    (hseq : h.seq.toNat < 2 ^ 24) (hteid : h.flags.toNat / 8 % 2 = 0 → h.teid = 0)
    (hlen : h.length.toNat = 4 + h.payload.length + (if h.flags.toNat / 8 % 2 = 1 then 4 else 0))
    (hmin : 12 ≤ h.length.toNat + 4) (hmax : h.length.toNat + 4 < 65536) :
    h.marshal = ok (encH h) ∧ Header.parse (encH h ++ rest) = ok h := by
  have e : h.length.toNat + 4 = h.marshalLen := by
    rw [hlen, Header.marshalLen, hasTEID_iff]; simp only [decide_eq_true_eq]; omega
  constructor
  · rw [Header.marshal, Header.marshalTo_eq _ _ (by simp)]; simp
  · exact Header.parse_encH h rest ⟨hseq, hteid, e, by omega⟩ (by omega)

/-- C09: headers made by the constructor, with any flags, satisfy the hypotheses of the round trip. -/
theorem C09_new_header (flags mtype : UInt8) (teid seq : UInt32) (data : Bytes)
    (hfit : 12 + data.length < 65536) :
    (Header.new flags mtype teid seq data).length.toNat
      = 4 + data.length + (if flags.toNat / 8 % 2 = 1 then 4 else 0) ∧
    (Header.new flags mtype teid seq data).payload = data ∧
    (Header.new flags mtype teid seq data).flags = flags ∧
    (Header.new flags mtype teid seq data).typ = mtype ∧
    (Header.new flags mtype teid seq data).teid = teid ∧
    (Header.new flags mtype teid seq data).seq = seq := by
  refine ⟨?_, rfl, rfl, rfl, rfl, rfl⟩
  simp only [Header.new, Header.setLength, hasTEID_iff, decide_eq_true_eq]
  split
  · rw [UInt16.toNat_add, toNat_ofNat16 (by omega), show (4 : UInt16).toNat = 4 from rfl]; omega
  · rw [UInt16.toNat_add, toNat_ofNat16 (by omega), show (0 : UInt16).toNat = 0 from rfl]; omega

/-- non-trivial instance: Create Session Request header with TEID, followed by other bytes -/
example : Header.parse (encH (Header.new 0x48 32 0x01020304 0x7fffff [1, 2, 3, 4, 5]) ++ [9, 9])
    = ok (Header.new 0x48 32 0x01020304 0x7fffff [1, 2, 3, 4, 5]) := by decide
example : Header.newFlags 2 0 1 = 0x48 ∧ Header.newFlags 2 1 0 = 0x50 := by decide

/-- C09 fails below 12 octets: an Echo Request header without TEID and payload (8 octets, legal in 29.274) is
rejected by the parser (see C18). -/
theorem C09_short_header_rejected (flags mtype : UInt8) (seq : UInt32) (h : flags.toNat / 8 % 2 = 0) :
    ∃ b, (Header.new flags mtype 0 seq []).marshal = ok b ∧ Header.parse b = err .tooShortParse := by
  refine ⟨encH (Header.new flags mtype 0 seq []), ?_, ?_⟩
  · rw [Header.marshal, Header.marshalTo_eq _ _ (by simp)]; simp
  · have e : (encH (Header.new flags mtype 0 seq [])).length < 12 := by
      rw [length_encH, Header.marshalLen, hasTEID_iff]
      simp [Header.new, Header.setLength, h]
    rw [Header.parse, if_pos e]

example : ((Header.new 0x40 1 0 1 []).marshal >>= Header.parse) = err .tooShortParse := by decide

/-- C10: parsing returns for every byte string, and a parsed header is exactly what is written in the input:
octets 1-4 are flags, type and length, then TEID iff the T bit is set, sequence number, spare, and the
payload, which is the part delimited by the Length field, or all the rest if the input is shorter. -/
theorem C10_parse_total_faithful (b : Bytes) :
    Returns (Header.parse b) ∧
    ∀ h, Header.parse b = ok h →
      ∃ tail, b = encH h ++ tail ∧
        (h.flags.toNat / 8 % 2 = 0 → h.teid = 0) ∧ h.seq.toNat < 2 ^ 24 ∧
        (if b.length < h.length.toNat + 4 then tail = [] else (encH h).length = h.length.toNat + 4) := by
  refine ⟨Header.parse_total b, ?_⟩
  intro h hh
  rw [Header.parse_eq] at hh
  unfold Header.parseSpec at hh
  split at hh
  · rename_i f t l0 l1 a0 a1 a2 a3 s0 s1 s2 sp r
    have h0 := l0.toNat_lt; have h1 := l1.toNat_lt
    have b0 := a0.toNat_lt; have b1 := a1.toNat_lt; have b2 := a2.toNat_lt; have b3 := a3.toNat_lt
    have c0 := s0.toNat_lt; have c1 := s1.toNat_lt; have c2 := s2.toNat_lt
    have hN : (UInt16.ofNat (l0.toNat * 256 + l1.toNat)).toNat = l0.toNat * 256 + l1.toNat :=
      toNat_ofNat16 (by omega)
    have e16 := be16_rd16 l0 l1
    have e32 := be32_rd32 a0 a1 a2 a3
    have e24 : be24 (UInt32.ofNat (s0.toNat * 65536 + s1.toNat * 256 + s2.toNat)) = [s0, s1, s2] := by
      rw [← Utils.uint24To32_eq, ← Utils.uint32To24_eq]
      exact ((Utils.C03_uint24_bytes [s0, s1, s2]).1 rfl).2
    have e24' : be24 (UInt32.ofNat (a0.toNat * 65536 + a1.toNat * 256 + a2.toNat)) = [a0, a1, a2] := by
      rw [← Utils.uint24To32_eq, ← Utils.uint32To24_eq]
      exact ((Utils.C03_uint24_bytes [a0, a1, a2]).1 rfl).2
    have q : (UInt32.ofNat (s0.toNat * 65536 + s1.toNat * 256 + s2.toNat)).toNat < 2 ^ 24 := by
      simp only [UInt32.toNat_ofNat', Nat.reducePow]; omega
    have q' : (UInt32.ofNat (a0.toNat * 65536 + a1.toNat * 256 + a2.toNat)).toNat < 2 ^ 24 := by
      simp only [UInt32.toNat_ofNat', Nat.reducePow]; omega
    dsimp only at hh
    by_cases d4 : l0.toNat * 256 + l1.toNat < 4
    · rw [if_pos d4] at hh; cases hh
    rw [if_neg d4] at hh
    by_cases dT : f.toNat / 8 % 2 = 1
    · rw [if_pos dT] at hh
      by_cases d8 : l0.toNat * 256 + l1.toNat < 8
      · rw [if_pos d8] at hh; cases hh
      rw [if_neg d8] at hh
      by_cases dl : l0.toNat * 256 + l1.toNat + 4 > 12 + r.length
      · rw [if_pos dl] at hh; cases hh
        refine ⟨[], ?_, ?_, q, ?_⟩
        · simp only [encH, e16, e32, e24]; rw [if_pos dT]; simp
        · intro hz; simp only at hz; omega
        · rw [if_pos (by simp only [hN, List.length_cons]; omega)]
      · rw [if_neg dl] at hh
        by_cases dw : l0.toNat * 256 + l1.toNat + 4 < 65536
        · rw [if_pos dw] at hh; cases hh
          refine ⟨r.drop (l0.toNat * 256 + l1.toNat - 8), ?_, ?_, q, ?_⟩
          · simp only [encH, e16, e32, e24]; rw [if_pos dT]; simp
          · intro hz; simp only at hz; omega
          · rw [if_neg (by simp only [hN, List.length_cons]; omega)]
            simp only [encH, e16, e32, e24, hN]; rw [if_pos dT]; simp; omega
        · rw [if_neg dw] at hh; cases hh
    · rw [if_neg dT] at hh
      by_cases dl : l0.toNat * 256 + l1.toNat + 4 > 12 + r.length
      · rw [if_pos dl] at hh; cases hh
        refine ⟨[], ?_, ?_, q', ?_⟩
        · simp only [encH, e16, e24']; rw [if_neg dT]; simp
        · intro hz; rfl
        · rw [if_pos (by simp only [hN, List.length_cons]; omega)]
      · rw [if_neg dl] at hh
        by_cases dw : l0.toNat * 256 + l1.toNat + 4 < 65536
        · rw [if_pos dw] at hh; cases hh
          refine ⟨(s0 :: s1 :: s2 :: sp :: r).drop (l0.toNat * 256 + l1.toNat - 4), ?_, ?_, q', ?_⟩
          · simp only [encH, e16, e24']; rw [if_neg dT]; simp
          · intro hz; rfl
          · rw [if_neg (by simp only [hN, List.length_cons]; omega)]
            simp only [encH, e16, e24', hN]; rw [if_neg dT]; simp; omega
        · rw [if_neg dw] at hh; cases hh
  · cases hh

/-- Length field larger than the input: the payload is what is there -/
example : Header.parse [0x48, 32, 0xff, 0xff, 0, 0, 0, 7, 0, 0, 1, 0, 0xaa]
    = ok ⟨0x48, 32, 0xffff, 7, 1, 0, [0xaa]⟩ := by decide
/-- Length field smaller: the rest is not part of the payload -/
example : Header.parse [0x48, 32, 0, 9, 0, 0, 0, 7, 0, 0, 1, 0, 0xaa, 0xbb]
    = ok ⟨0x48, 32, 9, 7, 1, 0, [0xaa]⟩ := by decide

/-- C10, the values of the Length field for which a long enough input is accepted. -/
theorem C10_accepts (b : Bytes) (f t l0 l1 : UInt8) (r : Bytes) (hb : b = f :: t :: l0 :: l1 :: r)
    (h12 : 12 ≤ b.length) :
    (∃ h, Header.parse b = ok h) ↔
      (if f.toNat / 8 % 2 = 1 then 8 else 4) ≤ l0.toNat * 256 + l1.toNat ∧
      ¬ (65536 ≤ l0.toNat * 256 + l1.toNat + 4 ∧ l0.toNat * 256 + l1.toNat + 4 ≤ b.length) := by
  subst hb
  match r, h12 with
  | a0 :: a1 :: a2 :: a3 :: s0 :: s1 :: s2 :: sp :: r, _ =>
    rw [Header.parse_eq]
    unfold Header.parseSpec
    simp only [List.length_cons]
    split
    · split <;> simp <;> omega
    · by_cases dT : f.toNat / 8 % 2 = 1
      · simp only [dT, if_true]
        repeat' split
        all_goals simp <;> omega
      · simp only [dT, if_false]
        repeat' split
        all_goals simp <;> omega

/-- The accessors of a header: TEID reads 0 unless the T bit is set; `SetTEID` sets the bit; setting the
sequence number changes nothing else; the version reported is 2 whatever the flags say. -/
theorem C10_accessors (h : Header) (t n : UInt32) :
    h.teidAcc = (if h.flags.toNat / 8 % 2 = 1 then h.teid else 0) ∧
    (h.setTEID t).teidAcc = t ∧ (h.setSequence n).sequence = n ∧
    (h.setSequence n).teidAcc = h.teidAcc ∧ h.version = 2 := by
  refine ⟨?_, ?_, rfl, rfl, rfl⟩
  · simp [Header.teidAcc, hasTEID_iff]
  · have : (h.setTEID t).hasTEID = true := by
      unfold Header.hasTEID Header.setTEID
      simp only
      generalize h.flags = f
      revert f
      apply forall_byte (p := fun f => (((f ||| ((1 : UInt8) <<< 3)) >>> 3 &&& (1 : UInt8)) == 1) = true)
      decide +kernel
    simp only [Header.teidAcc, this, if_true]; rfl

end Verif.V2

namespace Verif.V2
open Res Spec
/-! ### cases that meet the hypotheses -/

example := C09_header_round_trip (Header.new 0x48 32 0x01020304 0x7fffff [1, 2, 3, 4, 5]) [9, 9] (by decide) (by decide) (by decide) (by decide) (by decide)
example := C09_new_header 0x40 1 0 0xabcdef [3, 0, 1, 0, 7] (by decide)
example := C09_short_header_rejected 0x40 1 1 (by decide)
example := C10_accepts _ 0x48 32 0xff 0xff [0, 0, 0, 7, 0, 0, 1, 0, 0xaa] rfl (by decide)
end Verif.V2
