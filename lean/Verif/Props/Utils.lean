import Verif.Model.Utils
/-
Property theorems C01-C04 (utils).
-/
namespace Verif.Utils
open Res

/-- a decimal digit character -/
def isDigit (c : UInt8) : Prop := 48 ≤ c ∧ c ≤ 57
instance (c) : Decidable (isDigit c) := inferInstanceAs (Decidable (_ ∧ _))

/-- a string of decimal digits -/
def Digits (s : Bytes) : Prop := ∀ c ∈ s, isDigit c
instance (s) : Decidable (Digits s) := inferInstanceAs (Decidable (∀ _ ∈ _, _))

/-! ### C01 -/

theorem digit_cases {c : UInt8} (h : isDigit c) :
    c = 48 ∨ c = 49 ∨ c = 50 ∨ c = 51 ∨ c = 52 ∨ c = 53 ∨ c = 54 ∨ c = 55 ∨ c = 56 ∨ c = 57 := by
  exact forall_byte (p := fun c => isDigit c → c = 48 ∨ c = 49 ∨ c = 50 ∨ c = 51 ∨ c = 52 ∨ c = 53 ∨ c = 54 ∨
    c = 55 ∨ c = 56 ∨ c = 57) (by decide +kernel) c h

theorem hexVal_digit {c : UInt8} (h : isDigit c) : hexVal c = some (c - 48) ∧ hexChar (c - 48) = c := by
  exact forall_byte (p := fun c => isDigit c → hexVal c = some (c - 48) ∧ hexChar (c - 48) = c) (by decide +kernel) c h

/-- packing and unpacking a pair of digits -/
theorem pair_digit {a b : UInt8} (ha : isDigit a) (hb : isDigit b) :
    let x := swapByte (swapByte (((a - 48) <<< 4) ||| (b - 48)))
    hexChar (x >>> 4) = a ∧ hexChar (x &&& 0x0f) = b := by
  rcases digit_cases ha with rfl | rfl | rfl | rfl | rfl | rfl | rfl | rfl | rfl | rfl <;>
  rcases digit_cases hb with rfl | rfl | rfl | rfl | rfl | rfl | rfl | rfl | rfl | rfl <;> decide

theorem single_digit {a : UInt8} (ha : isDigit a) :
    let x := swapByte (swapByte (((a - 48) <<< 4) ||| 15))
    hexChar (x >>> 4) = a ∧ hexChar (x &&& 0x0f) = 102 := by
  rcases digit_cases ha with rfl | rfl | rfl | rfl | rfl | rfl | rfl | rfl | rfl | rfl <;> decide

theorem even_round : ∀ (n : Nat) (s : Bytes), Digits s → s.length = 2 * n →
    ∃ raw, hexDecode s = ok raw ∧ raw.length = n ∧ hexEncode (swap (swap raw)) = s
  | 0, s, _, hl => by
    have : s = [] := by cases s with | nil => rfl | cons => simp at hl
    subst this; exact ⟨[], rfl, rfl, rfl⟩
  | n + 1, s, hd, hl => by
    match s, hl with
    | a :: b :: r, hl =>
      have ha := hd a (by simp)
      have hb := hd b (by simp)
      obtain ⟨raw, h1, h2, h3⟩ := even_round n r (fun c hc => hd c (by simp [hc])) (by simp at hl; omega)
      refine ⟨(((a - 48) <<< 4) ||| (b - 48)) :: raw, ?_, by simp [h2], ?_⟩
      · simp [hexDecode, (hexVal_digit ha).1, (hexVal_digit hb).1, h1]
      · simp only [swap, List.map_cons, List.map_map] at h3 ⊢
        rw [hexEncode, h3, (pair_digit ha hb).1, (pair_digit ha hb).2]

theorem odd_round : ∀ (n : Nat) (s : Bytes), Digits s → s.length = 2 * n + 1 →
    ∃ raw, hexDecode (s ++ [102]) = ok raw ∧ raw.length = n + 1 ∧ hexEncode (swap (swap raw)) = s ++ [102]
  | 0, s, hd, hl => by
    match s, hl with
    | [a], _ =>
      have ha := hd a (by simp)
      refine ⟨[((a - 48) <<< 4) ||| 15], ?_, rfl, ?_⟩
      · have : hexVal 102 = some 15 := by decide
        simp [hexDecode, (hexVal_digit ha).1, this]
      · simp only [swap, List.map_cons, List.map_nil]
        rw [hexEncode, hexEncode, (single_digit ha).1, (single_digit ha).2]; rfl
  | n + 1, s, hd, hl => by
    match s, hl with
    | a :: b :: r, hl =>
      have ha := hd a (by simp)
      have hb := hd b (by simp)
      obtain ⟨raw, h1, h2, h3⟩ := odd_round n r (fun c hc => hd c (by simp [hc])) (by simp at hl; omega)
      refine ⟨(((a - 48) <<< 4) ||| (b - 48)) :: raw, ?_, by simp [h2], ?_⟩
      · simp [hexDecode, (hexVal_digit ha).1, (hexVal_digit hb).1, h1]
      · simp only [swap, List.map_cons, List.map_map] at h3 ⊢
        rw [hexEncode, h3, (pair_digit ha hb).1, (pair_digit ha hb).2]; rfl

/-- C01: an even number of digits survives packing, unpacked without trimming. -/
theorem C01_even (s filler : Bytes) (hd : Digits s) (he : s.length % 2 = 0) :
    ∃ raw, strToSwapped s filler = ok raw ∧ 2 * raw.length = s.length ∧ swappedToStr raw false = ok s := by
  obtain ⟨raw, h1, h2, h3⟩ := even_round (s.length / 2) s hd (by omega)
  refine ⟨swap raw, by simp [strToSwapped, he, h1], by simp [swap, h2]; omega, ?_⟩
  rw [swappedToStr]
  split
  · rename_i h0
    simp [swap, h2] at h0
    have : s = [] := by
      cases s with | nil => rfl | cons x xs => (simp at h0 he; omega)
    rw [this]
  · simp [h3]

/-- C01: an odd number of digits survives packing with filler "f", unpacked with trimming. -/
theorem C01_odd (s : Bytes) (hd : Digits s) (ho : s.length % 2 = 1) :
    ∃ raw, strToSwapped s [102] = ok raw ∧ 2 * raw.length = s.length + 1 ∧ swappedToStr raw true = ok s := by
  obtain ⟨raw, h1, h2, h3⟩ := odd_round (s.length / 2) s hd (by omega)
  refine ⟨swap raw, by simp [strToSwapped, ho, h1], by simp [swap, h2]; omega, ?_⟩
  rw [swappedToStr, if_neg (by simp [swap, h2])]
  simp only [h3, if_true]
  rw [slice_of_le (by omega) (by simp)]
  simp

example : Digits [52, 52, 48] ∧ strToSwapped [52, 52, 48] [102] = ok [0x44, 0xf0] ∧
    swappedToStr [0x44, 0xf0] true = ok [52, 52, 48] := by decide

/-- TS 29.002 TBCD: two digits per octet, the first in the low half; a last single digit is paired with 1111 -/
def tbcd : Bytes → Bytes
  | [] => []
  | [a] => [UInt8.ofNat (15 * 16 + (a.toNat - 48))]
  | a :: b :: r => UInt8.ofNat ((b.toNat - 48) * 16 + (a.toNat - 48)) :: tbcd r

theorem swap_pair {a b : UInt8} (ha : isDigit a) (hb : isDigit b) :
    swapByte (((a - 48) <<< 4) ||| (b - 48)) = UInt8.ofNat ((b.toNat - 48) * 16 + (a.toNat - 48)) := by
  rcases digit_cases ha with rfl | rfl | rfl | rfl | rfl | rfl | rfl | rfl | rfl | rfl <;>
  rcases digit_cases hb with rfl | rfl | rfl | rfl | rfl | rfl | rfl | rfl | rfl | rfl <;> decide

theorem swap_single {a : UInt8} (ha : isDigit a) :
    swapByte (((a - 48) <<< 4) ||| 15) = UInt8.ofNat (15 * 16 + (a.toNat - 48)) := by
  rcases digit_cases ha with rfl | rfl | rfl | rfl | rfl | rfl | rfl | rfl | rfl | rfl <;> decide

theorem tbcd_even : ∀ (s : Bytes), Digits s → s.length % 2 = 0 → ∃ r, hexDecode s = ok r ∧ swap r = tbcd s
  | [], _, _ => ⟨[], rfl, rfl⟩
  | [_], _, h => by simp at h
  | a :: b :: r, hd, h => by
    have ha := hd a (by simp)
    have hb := hd b (by simp)
    obtain ⟨t, h1, h2⟩ := tbcd_even r (fun c hc => hd c (by simp [hc])) (by simp at h; omega)
    refine ⟨_, by simp [hexDecode, (hexVal_digit ha).1, (hexVal_digit hb).1, h1]; rfl, ?_⟩
    rw [swap, List.map_cons, tbcd, swap_pair ha hb]
    exact congrArg _ h2

theorem tbcd_odd : ∀ (s : Bytes), Digits s → s.length % 2 = 1 → ∃ r, hexDecode (s ++ [102]) = ok r ∧ swap r = tbcd s
  | [], _, h => by simp at h
  | [a], hd, _ => by
    have ha := hd a (by simp)
    have f15 : hexVal 102 = some 15 := by decide
    refine ⟨_, by simp [hexDecode, (hexVal_digit ha).1, f15]; rfl, ?_⟩
    simp [swap, tbcd, swap_single ha]
  | a :: b :: r, hd, h => by
    have ha := hd a (by simp)
    have hb := hd b (by simp)
    obtain ⟨t, h1, h2⟩ := tbcd_odd r (fun c hc => hd c (by simp [hc])) (by simp at h; omega)
    refine ⟨_, by simp [hexDecode, (hexVal_digit ha).1, (hexVal_digit hb).1, h1]; rfl, ?_⟩
    rw [swap, List.map_cons, tbcd, swap_pair ha hb]
    exact congrArg _ h2

/-- C01: the packed octets are TBCD as the 3GPP specifications define it. -/
theorem C01_octets (s : Bytes) (hd : Digits s) : strToSwapped s [102] = ok (tbcd s) := by
  rw [strToSwapped]
  split
  · rename_i h
    obtain ⟨r, h1, h2⟩ := tbcd_even s hd h
    simp [h1, h2]
  · rename_i h
    obtain ⟨r, h1, h2⟩ := tbcd_odd s hd (by omega)
    simp [h1, h2]

example : tbcd [49, 50, 51] = [0x21, 0xf3] := by decide

/-- C01: unpacking never panics. -/
theorem C01_unpack_returns (raw : Bytes) (cut : Bool) : Returns (swappedToStr raw cut) := by
  rw [swappedToStr]
  split
  · simp
  · rename_i h
    have hl : 0 < raw.length := by omega
    cases raw with
    | nil => simp at hl
    | cons x r =>
      cases cut <;> simp [swap, hexEncode, slice]

/-! ### C02 -/

/-- C02: every PLMN encodes to three octets from which exactly it is decoded. -/
theorem C02_plmn_round_trip (mcc mnc : Bytes) (hc : Digits mcc) (hn : Digits mnc)
    (lc : mcc.length = 3) (ln : mnc.length = 2 ∨ mnc.length = 3) :
    ∃ b, encodePLMN mcc mnc = ok b ∧ b.length = 3 ∧ decodePLMN b = ok (mcc, mnc) := by
  match mcc, lc with
  | [c1, c2, c3], _ =>
    have h1 := hc c1 (by simp)
    have h2 := hc c2 (by simp)
    have h3 := hc c3 (by simp)
    have f15 : hexVal 102 = some 15 := by decide
    have eC : strToSwapped [c1, c2, c3] [102] =
        ok [swapByte (((c1 - 48) <<< 4) ||| (c2 - 48)), swapByte (((c3 - 48) <<< 4) ||| 15)] := by
      simp [strToSwapped, hexDecode, (hexVal_digit h1).1, (hexVal_digit h2).1, (hexVal_digit h3).1, f15, swap]
    rcases ln with ln | ln
    · match mnc, ln with
      | [n1, n2], _ =>
        have g1 := hn n1 (by simp)
        have g2 := hn n2 (by simp)
        have eN : strToSwapped [n1, n2] [102] = ok [swapByte (((n1 - 48) <<< 4) ||| (n2 - 48))] := by
          simp [strToSwapped, hexDecode, (hexVal_digit g1).1, (hexVal_digit g2).1, swap]
        refine ⟨_, by rw [encodePLMN, eC]; simp only [bind_ok]; rw [eN]; rfl, rfl, ?_⟩
        have k1 : ∀ {a b : UInt8}, isDigit a → isDigit b →
            hexChar (swapByte (((a - 48) <<< 4) ||| (b - 48)) >>> 4) = b ∧
            hexChar (swapByte (((a - 48) <<< 4) ||| (b - 48)) &&& 0x0f) = a := by
          intro a b ha hb
          rcases digit_cases ha with rfl | rfl | rfl | rfl | rfl | rfl | rfl | rfl | rfl | rfl <;>
          rcases digit_cases hb with rfl | rfl | rfl | rfl | rfl | rfl | rfl | rfl | rfl | rfl <;> decide
        have k2 : ∀ {a : UInt8}, isDigit a →
            hexChar (swapByte (((a - 48) <<< 4) ||| 15) >>> 4) = 102 ∧
            hexChar (swapByte (((a - 48) <<< 4) ||| 15) &&& 0x0f) = a := by
          intro a ha
          rcases digit_cases ha with rfl | rfl | rfl | rfl | rfl | rfl | rfl | rfl | rfl | rfl <;> decide
        simp [decodePLMN, slice, decodeMCC, decodeMNC, hexEncode, k1 h1 h2, k1 g1 g2, k2 h3]
    · match mnc, ln with
      | [n1, n2, n3], _ =>
        have g1 := hn n1 (by simp)
        have g2 := hn n2 (by simp)
        have g3 := hn n3 (by simp)
        have eN : strToSwapped [n1, n2, n3] [102] =
            ok [swapByte (((n1 - 48) <<< 4) ||| (n2 - 48)), swapByte (((n3 - 48) <<< 4) ||| 15)] := by
          simp [strToSwapped, hexDecode, (hexVal_digit g1).1, (hexVal_digit g2).1, (hexVal_digit g3).1, f15, swap]
        refine ⟨_, by rw [encodePLMN, eC]; simp only [bind_ok]; rw [eN]; rfl, rfl, ?_⟩
        have k1 : ∀ {a b : UInt8}, isDigit a → isDigit b →
            hexChar (swapByte (((a - 48) <<< 4) ||| (b - 48)) >>> 4) = b ∧
            hexChar (swapByte (((a - 48) <<< 4) ||| (b - 48)) &&& 0x0f) = a := by
          intro a b ha hb
          rcases digit_cases ha with rfl | rfl | rfl | rfl | rfl | rfl | rfl | rfl | rfl | rfl <;>
          rcases digit_cases hb with rfl | rfl | rfl | rfl | rfl | rfl | rfl | rfl | rfl | rfl <;> decide
        have k3 : ∀ {a b : UInt8}, isDigit a → isDigit b →
            let x := (swapByte (((a - 48) <<< 4) ||| 15) &&& (0x0f : UInt8)) |||
              ((swapByte (((b - 48) <<< 4) ||| 15) <<< 4) &&& (0xf0 : UInt8))
            hexChar (x >>> 4) = b ∧ hexChar (x &&& 0x0f) = a ∧ b ≠ 102 := by
          intro a b ha hb
          rcases digit_cases ha with rfl | rfl | rfl | rfl | rfl | rfl | rfl | rfl | rfl | rfl <;>
          rcases digit_cases hb with rfl | rfl | rfl | rfl | rfl | rfl | rfl | rfl | rfl | rfl <;> decide
        have k3' := k3 h3 g3
        simp only at k3'
        simp [decodePLMN, slice, decodeMCC, decodeMNC, hexEncode, k1 h1 h2, k1 g1 g2, k3']

/-- TS 24.008 10.5.1.3: MCC digit 2, MCC digit 1 | MNC digit 3 or 1111, MCC digit 3 | MNC digit 2, MNC digit 1 -/
def encPLMN : Bytes → Bytes → Bytes
  | [c1, c2, c3], [n1, n2] =>
    [UInt8.ofNat ((c2.toNat - 48) * 16 + (c1.toNat - 48)), UInt8.ofNat (15 * 16 + (c3.toNat - 48)),
     UInt8.ofNat ((n2.toNat - 48) * 16 + (n1.toNat - 48))]
  | [c1, c2, c3], [n1, n2, n3] =>
    [UInt8.ofNat ((c2.toNat - 48) * 16 + (c1.toNat - 48)), UInt8.ofNat ((n3.toNat - 48) * 16 + (c3.toNat - 48)),
     UInt8.ofNat ((n2.toNat - 48) * 16 + (n1.toNat - 48))]
  | _, _ => []

/-- C02: the octets are those of TS 24.008, whatever the digits. -/
theorem C02_plmn_octets (mcc mnc : Bytes) (hc : Digits mcc) (hn : Digits mnc)
    (lc : mcc.length = 3) (ln : mnc.length = 2 ∨ mnc.length = 3) : encodePLMN mcc mnc = ok (encPLMN mcc mnc) := by
  rw [encodePLMN, C01_octets _ hc, C01_octets _ hn]
  match mcc, lc with
  | [c1, c2, c3], _ =>
    rcases ln with ln | ln
    · match mnc, ln with
      | [n1, n2], _ => simp [tbcd, encPLMN]
    · match mnc, ln with
      | [n1, n2, n3], _ =>
        have key : ∀ {a b : UInt8}, isDigit a → isDigit b →
            (UInt8.ofNat (15 * 16 + (a.toNat - 48)) &&& (0x0f : UInt8)) |||
              ((UInt8.ofNat (15 * 16 + (b.toNat - 48)) <<< 4) &&& (0xf0 : UInt8)) =
            UInt8.ofNat ((b.toNat - 48) * 16 + (a.toNat - 48)) := by
          intro a b ha hb
          rcases digit_cases ha with rfl | rfl | rfl | rfl | rfl | rfl | rfl | rfl | rfl | rfl <;>
          rcases digit_cases hb with rfl | rfl | rfl | rfl | rfl | rfl | rfl | rfl | rfl | rfl <;> decide
        have k := key (hc c3 (by simp)) (hn n3 (by simp))
        simp only [tbcd, encPLMN, bind_ok, idx_zero, idx_succ, k]
        simp

/-- C02: different PLMNs never share an encoding. -/
theorem C02_plmn_injective (mcc mnc mcc' mnc' b : Bytes) (hc : Digits mcc) (hn : Digits mnc)
    (lc : mcc.length = 3) (ln : mnc.length = 2 ∨ mnc.length = 3) (hc' : Digits mcc') (hn' : Digits mnc')
    (lc' : mcc'.length = 3) (ln' : mnc'.length = 2 ∨ mnc'.length = 3)
    (e : encodePLMN mcc mnc = ok b) (e' : encodePLMN mcc' mnc' = ok b) : mcc = mcc' ∧ mnc = mnc' := by
  obtain ⟨x, h1, _, h2⟩ := C02_plmn_round_trip mcc mnc hc hn lc ln
  obtain ⟨y, g1, _, g2⟩ := C02_plmn_round_trip mcc' mnc' hc' hn' lc' ln'
  rw [e] at h1; rw [e'] at g1
  simp only [ok.injEq] at h1 g1
  subst h1; subst g1
  rw [h2] at g2
  simpa using g2

example : encodePLMN [48, 48, 49] [48, 49] = ok [0x00, 0xf1, 0x10] := by decide
example : encodePLMN [52, 52, 48] [48, 49, 50] = ok [0x44, 0x20, 0x10] ∧
    decodePLMN [0x44, 0x20, 0x10] = ok ([52, 52, 48], [48, 49, 50]) := by decide

/-! ### C03 -/

theorem or_add (i p q : Nat) (h : q < 2 ^ i) : (p * 2 ^ i) ||| q = p * 2 ^ i + q := by
  have := Nat.shiftLeft_add_eq_or_of_lt (i := i) (b := q) h p
  rw [Nat.shiftLeft_eq] at this; exact this.symm

theorem or_step (p q : Nat) (h : q < 256) : (p * 256) ||| q = p * 256 + q := or_add 8 p q h

theorem or_mul (a b k : Nat) : (a * 2 ^ k) ||| (b * 2 ^ k) = (a ||| b) * 2 ^ k := by
  rw [← Nat.shiftLeft_eq, ← Nat.shiftLeft_eq, ← Nat.shiftLeft_eq, Nat.shiftLeft_or_distrib]

theorem or24 (x y z : Nat) (hy : y < 256) (hz : z < 256) :
    x * 65536 ||| y * 256 ||| z = x * 65536 + y * 256 + z := by
  have h := or_mul (x * 256) y 8
  rw [or_step _ _ hy] at h
  have h' := or_add 8 (x * 256 + y) z hz
  rw [← h] at h'
  simp only [Nat.reducePow, Nat.mul_assoc, Nat.reduceMul] at h' h
  rw [h', h]; clear h h'; omega

theorem or40 (a x y z w : Nat) (hx : x < 256) (hy : y < 256) (hz : z < 256) (hw : w < 256) :
    a * 4294967296 ||| x * 16777216 ||| y * 65536 ||| z * 256 ||| w
      = a * 4294967296 + x * 16777216 + y * 65536 + z * 256 + w := by
  have h1 := or_mul (a * 65536) (x * 256) 16
  have h2 := or_mul (a * 65536 ||| x * 256) y 16
  rw [← h1, or24 _ _ _ hx hy] at h2
  have h3 := or_mul ((a * 65536 + x * 256 + y) * 256) z 8
  rw [or_step _ _ hz] at h3
  have h4 := or_add 8 ((a * 65536 + x * 256 + y) * 256 + z) w hw
  rw [← h3] at h4
  have e : (a * 65536 + x * 256 + y) * 256 * 2 ^ 8 = (a * 65536 + x * 256 + y) * 2 ^ 16 := by
    rw [Nat.mul_assoc]
  rw [e, ← h2] at h4
  rw [e, ← h2] at h3
  simp only [Nat.reducePow, Nat.mul_assoc, Nat.reduceMul] at h4 h3
  rw [h4, h3]; clear h1 h2 h3 h4 e; omega

theorem uint32To24_eq (n : UInt32) : uint32To24 n = be24 n := by
  simp only [uint32To24, be24, List.cons.injEq, and_true]
  refine ⟨?_, ?_, ?_⟩ <;> apply UInt8.toNat_inj.mp <;>
    simp [UInt32.toNat_shiftRight, Nat.shiftRight_eq_div_pow]

theorem uint24To32_eq (x y z : UInt8) :
    uint24To32 [x, y, z] = UInt32.ofNat (x.toNat * 65536 + y.toNat * 256 + z.toNat) := by
  have hx := x.toNat_lt; have hy := y.toNat_lt; have hz := z.toNat_lt
  apply UInt32.toNat_inj.mp
  simp only [uint24To32, UInt32.toNat_or, UInt32.toNat_shiftLeft, UInt8.toNat_toUInt32, UInt32.toNat_ofNat']
  have e1 : x.toNat <<< (UInt32.toNat 16 % 32) % 2 ^ 32 = x.toNat * 65536 := by
    rw [Nat.shiftLeft_eq]; simp; omega
  have e2 : y.toNat <<< (UInt32.toNat 8 % 32) % 2 ^ 32 = y.toNat * 256 := by
    rw [Nat.shiftLeft_eq]; simp; omega
  rw [e1, e2]
  rw [or24 _ _ _ hy hz]; omega

theorem uint64To40_eq (n : UInt64) : uint64To40 n = be40 n := by
  simp only [uint64To40, be40, List.cons.injEq, and_true]
  refine ⟨?_, ?_, ?_, ?_, ?_⟩ <;> apply UInt8.toNat_inj.mp <;>
    simp [UInt64.toNat_shiftRight, Nat.shiftRight_eq_div_pow]

theorem uint40To64_eq (a x y z w : UInt8) :
    uint40To64 [a, x, y, z, w] = UInt64.ofNat (a.toNat * 4294967296 + x.toNat * 16777216 + y.toNat * 65536
      + z.toNat * 256 + w.toNat) := by
  have ha := a.toNat_lt; have hx := x.toNat_lt; have hy := y.toNat_lt; have hz := z.toNat_lt
  have hw := w.toNat_lt
  apply UInt64.toNat_inj.mp
  simp only [uint40To64, UInt64.toNat_or, UInt64.toNat_shiftLeft, UInt8.toNat_toUInt64, UInt64.toNat_ofNat']
  have e0 : a.toNat <<< (UInt64.toNat 32 % 64) % 2 ^ 64 = a.toNat * 4294967296 := by
    rw [Nat.shiftLeft_eq]; simp; omega
  have e1 : x.toNat <<< (UInt64.toNat 24 % 64) % 2 ^ 64 = x.toNat * 16777216 := by
    rw [Nat.shiftLeft_eq]; simp; omega
  have e2 : y.toNat <<< (UInt64.toNat 16 % 64) % 2 ^ 64 = y.toNat * 65536 := by
    rw [Nat.shiftLeft_eq]; simp; omega
  have e3 : z.toNat <<< (UInt64.toNat 8 % 64) % 2 ^ 64 = z.toNat * 256 := by
    rw [Nat.shiftLeft_eq]; simp; omega
  rw [e0, e1, e2, e3]
  rw [or40 _ _ _ _ _ hx hy hz hw]; omega

/-- C03: 24-bit encoder: exactly three octets, big-endian, reads back modulo 2^24. -/
theorem C03_uint24 (n : UInt32) :
    uint32To24 n = be24 n ∧ (uint24To32 (uint32To24 n)).toNat = n.toNat % 2 ^ 24 := by
  refine ⟨uint32To24_eq n, ?_⟩
  rw [uint32To24_eq, be24, uint24To32_eq]
  have := n.toNat_lt
  simp only [UInt8.toNat_ofNat', UInt32.toNat_ofNat']; omega

/-- C03: reading any three octets gives their big-endian value and writing it back gives the octets;
any other number of octets reads as 0. -/
theorem C03_uint24_bytes (b : Bytes) :
    (b.length = 3 → (uint24To32 b).toNat = beNat b ∧ uint32To24 (uint24To32 b) = b) ∧
    (b.length ≠ 3 → uint24To32 b = 0) := by
  constructor
  · intro h
    match b, h with
    | [x, y, z], _ =>
      have hx := x.toNat_lt; have hy := y.toNat_lt; have hz := z.toNat_lt
      rw [uint24To32_eq, uint32To24_eq]
      constructor
      · simp only [UInt32.toNat_ofNat', beNat, List.foldl]; omega
      · simp only [be24, UInt32.toNat_ofNat', List.cons.injEq, and_true]
        refine ⟨?_, ?_, ?_⟩ <;> apply UInt8.toNat_inj.mp <;> simp only [UInt8.toNat_ofNat'] <;> omega
  · intro h
    unfold uint24To32
    split
    · simp at h
    · rfl

/-- C03: 40-bit encoder. -/
theorem C03_uint40 (n : UInt64) :
    uint64To40 n = be40 n ∧ (uint40To64 (uint64To40 n)).toNat = n.toNat % 2 ^ 40 := by
  refine ⟨uint64To40_eq n, ?_⟩
  rw [uint64To40_eq, be40, uint40To64_eq]
  have := n.toNat_lt
  simp only [UInt8.toNat_ofNat', UInt64.toNat_ofNat']; omega

/-- C03: 40-bit, from octets. -/
theorem C03_uint40_bytes (b : Bytes) :
    (b.length = 5 → (uint40To64 b).toNat = beNat b ∧ uint64To40 (uint40To64 b) = b) ∧
    (b.length ≠ 5 → uint40To64 b = 0) := by
  constructor
  · intro h
    match b, h with
    | [a, x, y, z, w], _ =>
      have ha := a.toNat_lt; have hx := x.toNat_lt; have hy := y.toNat_lt; have hz := z.toNat_lt
      have hw := w.toNat_lt
      rw [uint40To64_eq, uint64To40_eq]
      constructor
      · simp only [UInt64.toNat_ofNat', beNat, List.foldl]; omega
      · simp only [be40, UInt64.toNat_ofNat', List.cons.injEq, and_true]
        refine ⟨?_, ?_, ?_, ?_, ?_⟩ <;> apply UInt8.toNat_inj.mp <;> simp only [UInt8.toNat_ofNat'] <;> omega
  · intro h
    unfold uint40To64
    split
    · simp at h
    · rfl

example : uint32To24 0x12345678 = [0x34, 0x56, 0x78] ∧ uint24To32 [0x34, 0x56, 0x78] = 0x345678 := by decide

/-! ### C04 -/

theorem splitDot_ne_nil (s : Bytes) : splitDot s ≠ [] := by
  cases s with
  | nil => simp [splitDot]
  | cons c r =>
    rw [splitDot]; split
    · simp
    · split <;> simp

theorem joinDot_splitDot (s : Bytes) : joinDot (splitDot s) = s := by
  induction s with
  | nil => rfl
  | cons c r ih =>
    rw [splitDot]
    have hne := splitDot_ne_nil r
    cases hs : splitDot r with
    | nil => exact absurd hs hne
    | cons l ls =>
      rw [hs] at ih
      split
      · rename_i hc; rw [joinDot]
        · rw [ih, hc]; rfl
        · simp
      · cases ls with
        | nil => simp only [joinDot] at ih ⊢; rw [ih]
        | cons m ms => simp only [joinDot] at ih ⊢; rw [← ih]; rfl

/-- label encoding: length octet, then the label -/
def encLabels : List Bytes → Bytes
  | [] => []
  | l :: ls => UInt8.ofNat l.length :: l ++ encLabels ls

theorem length_encLabels_splitDot (s : Bytes) : (encLabels (splitDot s)).length = s.length + 1 := by
  induction s with
  | nil => rfl
  | cons c r ih =>
    rw [splitDot]
    cases hs : splitDot r with
    | nil => exact absurd hs (splitDot_ne_nil r)
    | cons l ls =>
      rw [hs] at ih
      split
      · simp [encLabels] at ih ⊢; omega
      · simp [encLabels] at ih ⊢; omega

theorem encodeFQDNLoop_eq (ls : List Bytes) : ∀ (pre r : Bytes), (encLabels ls).length ≤ r.length →
    encodeFQDNLoop ls pre.length (pre ++ r) = ok (pre ++ encLabels ls ++ r.drop (encLabels ls).length) := by
  induction ls with
  | nil => intro pre r _; simp [encodeFQDNLoop, encLabels]
  | cons l ls ih =>
    intro pre r h
    simp only [encLabels, List.cons_append, List.length_cons, List.length_append] at h
    match r, h with
    | x :: r, h =>
      simp only [List.length_cons] at h
      rw [encodeFQDNLoop]
      simp only [setAt, List.length_append, List.length_cons]
      rw [if_pos (by omega)]
      have hset : (pre ++ x :: r).set pre.length (UInt8.ofNat l.length) = (pre ++ [UInt8.ofNat l.length]) ++ r := by
        rw [List.set_append_right _ _ (by omega)]; simp
      simp only [bind_ok, hset, copyFrom, copyAt]
      have hl : ((pre ++ [UInt8.ofNat l.length]) ++ r).length = pre.length + 1 + r.length := by simp; omega
      rw [hl, if_pos (by omega)]
      have hp : (pre ++ [UInt8.ofNat l.length]).length = pre.length + 1 := by simp
      have e1 : List.take (pre.length + 1) ((pre ++ [UInt8.ofNat l.length]) ++ r) = pre ++ [UInt8.ofNat l.length] := by
        rw [← hp, List.take_left]
      have e2 : pre.length + 1 + r.length - (pre.length + 1) = r.length := by omega
      have e3 : List.take r.length l = l := List.take_of_length_le (by omega)
      have e4 : min r.length l.length = l.length := by omega
      have e5 : List.drop (pre.length + 1 + l.length) ((pre ++ [UInt8.ofNat l.length]) ++ r) = r.drop l.length := by
        rw [← hp, List.drop_length_add_append]
      rw [e1, e2, e3, e4, e5]
      simp only [bind_ok]
      have := ih (pre ++ [UInt8.ofNat l.length] ++ l) (r.drop l.length) (by simp; omega)
      have hlen : (pre ++ [UInt8.ofNat l.length] ++ l).length = pre.length + (l.length + 1) := by simp
      rw [hlen] at this
      rw [this]
      simp [encLabels]

theorem encodeFQDN_eq (s : Bytes) : encodeFQDN s = ok (encLabels (splitDot s)) := by
  have h := encodeFQDNLoop_eq (splitDot s) [] (List.replicate (s.length + 1) 0)
    (by rw [length_encLabels_splitDot]; simp)
  simp only [List.length_nil, List.nil_append] at h
  rw [encodeFQDN, h, length_encLabels_splitDot]
  simp

theorem decodeFQDNLoop_returns (fuel : Nat) : ∀ (b : Bytes) (off : Nat) (acc : List Bytes),
    b.length - off < fuel → Returns (decodeFQDNLoop fuel b off acc) := by
  induction fuel with
  | zero => intro b off acc h; omega
  | succ fuel ih =>
    intro b off acc h
    rw [decodeFQDNLoop]
    split
    · rename_i hlt
      rw [idx_of_lt hlt]
      simp only [bind_ok]
      split
      · simp
      · rename_i hle
        rw [slice_of_le (by omega) (by omega)]
        simp only [bind_ok]
        exact ih _ _ _ (by omega)
    · simp

theorem decodeFQDNLoop_eq (ls : List Bytes) : ∀ (fuel : Nat) (pre : Bytes) (acc : List Bytes),
    (∀ l ∈ ls, l.length ≤ 255) → (encLabels ls).length < fuel →
    decodeFQDNLoop fuel (pre ++ encLabels ls) pre.length acc = ok (acc ++ ls) := by
  induction ls with
  | nil =>
    intro fuel pre acc _ hf
    cases fuel with
    | zero => simp at hf
    | succ f => simp [decodeFQDNLoop, encLabels]
  | cons l ls ih =>
    intro fuel pre acc hl hf
    cases fuel with
    | zero => simp at hf
    | succ f =>
      have hl0 : l.length ≤ 255 := hl l (by simp)
      have hn : (UInt8.ofNat l.length).toNat = l.length := by simp only [UInt8.toNat_ofNat']; omega
      simp only [encLabels, List.cons_append, List.length_cons, List.length_append] at hf
      rw [decodeFQDNLoop]
      rw [if_pos (by simp [encLabels])]
      have hi : idx (pre ++ encLabels (l :: ls)) pre.length = ok (UInt8.ofNat l.length) := by
        simp [idx, encLabels]
      rw [hi]
      simp only [bind_ok, hn]
      rw [if_neg (by simp [encLabels]; omega)]
      rw [slice_of_le (by omega) (by simp [encLabels]; omega)]
      have hs : ((pre ++ encLabels (l :: ls)).drop (pre.length + 1)).take
          (pre.length + l.length + 1 - (pre.length + 1)) = l := by
        have e : pre ++ encLabels (l :: ls) = (pre ++ [UInt8.ofNat l.length]) ++ (l ++ encLabels ls) := by
          simp [encLabels]
        have hp : (pre ++ [UInt8.ofNat l.length]).length = pre.length + 1 := by simp
        rw [e, ← hp, List.drop_left, hp]
        have : pre.length + l.length + 1 - (pre.length + 1) = l.length := by omega
        rw [this, List.take_left]
      rw [hs]
      simp only [bind_ok]
      have := ih f (pre ++ (UInt8.ofNat l.length :: l)) (acc ++ [l]) (fun x hx => hl x (by simp [hx])) (by omega)
      have hlen : (pre ++ (UInt8.ofNat l.length :: l)).length = pre.length + (l.length + 1) := by simp
      rw [hlen] at this
      have e : pre ++ encLabels (l :: ls) = (pre ++ (UInt8.ofNat l.length :: l)) ++ encLabels ls := by
        simp [encLabels]
      rw [e, this]; simp

/-- C04: a dotted name whose labels have at most 255 octets survives label encoding; encoding never fails. -/
theorem C04_fqdn_round_trip (s : Bytes) (h : ∀ l ∈ splitDot s, l.length ≤ 255) :
    ∃ b, encodeFQDN s = ok b ∧ b.length = s.length + 1 ∧ decodeFQDN b = ok s := by
  refine ⟨_, encodeFQDN_eq s, length_encLabels_splitDot s, ?_⟩
  have := decodeFQDNLoop_eq (splitDot s) ((encLabels (splitDot s)).length + 1) [] [] h (by omega)
  simp only [List.nil_append, List.length_nil] at this
  rw [decodeFQDN, this]
  simp [joinDot_splitDot]

/-- C04: the labels the hypothesis speaks about really are the dot-separated parts: joined they give the name,
and none contains a dot. -/
theorem C04_labels (s : Bytes) : joinDot (splitDot s) = s ∧ ∀ l ∈ splitDot s, (46 : UInt8) ∉ l := by
  refine ⟨joinDot_splitDot s, ?_⟩
  induction s with
  | nil => simp [splitDot]
  | cons c r ih =>
    rw [splitDot]
    cases hs : splitDot r with
    | nil => exact absurd hs (splitDot_ne_nil r)
    | cons l ls =>
      rw [hs] at ih
      split
      · intro x hx
        simp only [List.mem_cons] at hx
        rcases hx with rfl | hx
        · simp
        · exact ih x (by simpa using hx)
      · rename_i hc
        intro x hx
        simp only [List.mem_cons] at hx
        rcases hx with rfl | hx
        · have := ih l (by simp)
          simp only [List.mem_cons, not_or]
          exact ⟨fun h => hc h.symm, this⟩
        · exact ih x (by simp [hx])

/-- C04: decoding arbitrary octets returns. -/
theorem C04_fqdn_decode_returns (b : Bytes) : Returns (decodeFQDN b) := by
  rw [decodeFQDN]
  exact returns_bind (decodeFQDNLoop_returns _ b 0 [] (by omega)) (by simp)

-- "ab.c" encodes to 02 61 62 01 63
example : encodeFQDN [97, 98, 46, 99] = ok [2, 97, 98, 1, 99] ∧
    decodeFQDN [2, 97, 98, 1, 99] = ok [97, 98, 46, 99] := by decide

end Verif.Utils

namespace Verif.Utils
open Res
/-! ### cases that meet the hypotheses -/

example := C01_even [52, 52, 48, 49] [102] (by decide) (by decide)
example := C01_odd [52, 52, 48] (by decide) (by decide)
example := C01_octets [52, 52, 48] (by decide)
example := C02_plmn_round_trip [52, 52, 48] [48, 49, 50] (by decide) (by decide) (by decide) (.inr rfl)
example := C02_plmn_octets [48, 48, 49] [48, 49] (by decide) (by decide) (by decide) (.inl rfl)
example := C02_plmn_injective [48, 48, 49] [48, 49] [48, 48, 49] [48, 49] _ (by decide) (by decide) (by decide) (.inl rfl)
  (by decide) (by decide) (by decide) (.inl rfl) rfl rfl
example := C04_fqdn_round_trip [97, 98, 46, 99] (by decide)
end Verif.Utils
