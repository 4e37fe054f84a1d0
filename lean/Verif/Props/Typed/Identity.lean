import Verif.Model.Typed.Identity
import Verif.Props.Typed.QoS
import Verif.Props.V1IE
/-
Property theorem C44 (subscriber and equipment identities, all three versions), and C48 for them.
-/
set_option linter.unusedSimpArgs false
namespace Verif
open Res Utils

/-- reading TBCD back -/
theorem unTbcd : ∀ s : Bytes, Digits s →
    hexEncode (swap (tbcd s)) = if s.length % 2 = 0 then s else s ++ [102]
  | [], _ => rfl
  | [a], hd => by
    have h := single_digit (hd a (by simp))
    simp only [tbcd, swap, List.map_cons, List.map_nil, hexEncode, ← swap_single (hd a (by simp))]
    simp only at h
    rw [h.1, h.2]; simp
  | a :: b :: r, hd => by
    have ha := hd a (by simp)
    have hb := hd b (by simp)
    have h := pair_digit ha hb
    have ih := unTbcd r (fun c hc => hd c (by simp [hc]))
    simp only [tbcd, swap, List.map_cons, hexEncode, ← swap_pair ha hb] at ih ⊢
    simp only at h
    rw [h.1, h.2, ih]
    by_cases h2 : r.length % 2 = 0
    · rw [if_pos h2, if_pos (by simp; omega)]
    · rw [if_neg h2, if_neg (by simp; omega)]; rfl

theorem length_tbcd : ∀ s : Bytes, (tbcd s).length = (s.length + 1) / 2
  | [] => rfl
  | [_] => by simp [tbcd]
  | _ :: _ :: r => by simp only [tbcd, List.length_cons, length_tbcd r]; omega

/-- unpacking TBCD octets: with the last character cut, or with a trailing filler trimmed -/
theorem swapped_tbcd {s : Bytes} (hd : Digits s) (h : s ≠ []) :
    swappedToStr (tbcd s) true = ok (if s.length % 2 = 0 then s.dropLast else s) ∧
    swappedToStr (tbcd s) false = ok (if s.length % 2 = 0 then s else s ++ [102]) := by
  have hl : (tbcd s).length ≠ 0 := by
    rw [length_tbcd]; cases s with
    | nil => simp at h
    | cons => simp
  have hs : 0 < s.length := List.length_pos_iff.mpr h
  constructor
  · rw [swappedToStr, if_neg hl]
    simp only [unTbcd s hd, if_true]
    split
    · rw [slice_of_le (by omega) (by omega)]
      simp [List.dropLast_eq_take]
    · rw [slice_of_le (by omega) (by simp)]
      simp
  · rw [swappedToStr, if_neg hl]
    simp [unTbcd s hd]

theorem trimF_digits {s : Bytes} (hd : Digits s) : trimF (if s.length % 2 = 0 then s else s ++ [102]) = s := by
  split
  · rw [trimF, if_neg]
    intro h
    have := hd 102 (List.mem_of_getLast? h)
    revert this; decide
  · simp [trimF]

namespace V2
variable (g : UInt8 → Bool)

theorem newDigits_eq (t : UInt8) {s : Bytes} (hd : Digits s) : newDigits t s = ok (some (newIE t 0 (tbcd s))) := by
  rw [newDigits, C01_octets s hd]

/-- C44, GTPv2 MSISDN and Mobile Equipment Identity: every non-empty digit string comes back, also over the wire. -/
theorem C44_v2_msisdn_mei (s : Bytes) (hd : Digits s) (h0 : s ≠ []) (hl : s.length ≤ 131070) (g1 : g 76 = false)
    (g2 : g 75 = false) :
    (∃ i, newMSISDN s = ok (some i) ∧ i.payload = tbcd s ∧
      ∀ n, Carried g (i.withInstance n) ∧ (i.withInstance n).msisdn = ok s) ∧
    (∃ i, newMEI s = ok (some i) ∧ i.payload = tbcd s ∧
      ∀ n, Carried g (i.withInstance n) ∧ (i.withInstance n).mei = ok s) := by
  have hp := (swapped_tbcd hd h0).2
  have hz : 1 ≤ (tbcd s).length := by
    rw [length_tbcd]; cases s with
    | nil => simp at h0
    | cons => simp; omega
  have hw : (tbcd s).length < 65536 := by rw [length_tbcd]; omega
  constructor
  · refine ⟨_, newDigits_eq 76 hd, rfl, fun n => ⟨carried_new g hw g1, ?_⟩⟩
    rw [withInstance_new, IE.msisdn, if_neg (by simp), if_neg (by rw [payload_new]; omega), payload_new, hp]
    simp [trimF_digits hd]
  · refine ⟨_, newDigits_eq 75 hd, rfl, fun n => ⟨carried_new g hw g2, ?_⟩⟩
    rw [withInstance_new, IE.mei, if_neg (by simp), if_neg (by rw [payload_new]; omega), payload_new, hp]
    simp [trimF_digits hd]

/-- C44, GTPv2 IMSI: every digit string of odd length, in particular every IMSI of 15 digits, comes back. Missing: digit
strings of even length (IMSIs of 14 digits, allowed by TS 23.003), for which the accessor drops the last digit
(`C44_v2_imsi_even_wrong`). -/
theorem C44_v2_imsi_partial (s : Bytes) (hd : Digits s) (ho : s.length % 2 = 1) (hl : s.length ≤ 131070) (hg : g 1 = false) :
    ∃ i, newIMSI s = ok (some i) ∧ i.payload = tbcd s ∧
      ∀ n, Carried g (i.withInstance n) ∧ (i.withInstance n).imsi = ok s := by
  have h0 : s ≠ [] := by rintro rfl; simp at ho
  have hp := (swapped_tbcd hd h0).1
  rw [if_neg (by omega)] at hp
  refine ⟨_, newDigits_eq 1 hd, rfl, fun n => ⟨carried_new g (by rw [length_tbcd]; omega) hg, ?_⟩⟩
  rw [withInstance_new, IE.imsi, if_neg (by simp), if_neg (by simp [length_tbcd]; omega), payload_new, hp]

/-- the IMSI accessor returns one digit less than given whenever the number of digits is even -/
theorem C44_v2_imsi_even_wrong (s : Bytes) (hd : Digits s) (he : s.length % 2 = 0) (h0 : s ≠ []) :
    ∃ i, newIMSI s = ok (some i) ∧ i.imsi = ok s.dropLast := by
  have hp := (swapped_tbcd hd h0).1
  rw [if_pos he] at hp
  have hz : 1 ≤ (tbcd s).length := by
    rw [length_tbcd]; cases s with
    | nil => simp at h0
    | cons => simp; omega
  refine ⟨_, newDigits_eq 1 hd, ?_⟩
  rw [IE.imsi, if_neg (by simp), if_neg (by rw [payload_new]; omega), payload_new, hp]

-- 001011234567891
example : newIMSI [48, 48, 49, 48, 49, 49, 50, 51, 52, 53, 54, 55, 56, 57, 49] =
    ok (some (.mk 1 8 0 [0x00, 0x01, 0x11, 0x32, 0x54, 0x76, 0x98, 0xf1] [])) := by decide
example : (newMSISDN [56, 49, 57, 48, 49]).bind (fun i => (i.getD default).msisdn) = ok [56, 49, 57, 48, 49] := by decide
example : newMSISDN [56, 120] = ok none := by decide

/-- C48 for the identities -/
theorem C48_identity (i : IE) : Returns i.imsi ∧ Returns i.msisdn ∧ Returns i.mei := by
  have h := C01_unpack_returns i.payload
  refine ⟨?_, ?_, ?_⟩
  · unfold IE.imsi; ret; exact h _
  · unfold IE.msisdn; ret; exact returns_bind (h _) (fun _ _ => by ret)
  · unfold IE.mei; ret; exact returns_bind (h _) (fun _ _ => by ret)

end V2

namespace TLV

/-- the element survives the wire of its version -/
def Kept (v : Ver) (i : IE) : Prop :=
  ∃ b, i.marshal v.cfg = ok b ∧ ∀ rest, parse v.cfg (b ++ rest) = ok i

theorem kept_new (v : Ver) (t : UInt8) (val : Bytes)
    (hfix : t.toNat < 128 → v.proto.fixed t = some val.length ∧ 0 < val.length)
    (hvar : 128 ≤ t.toNat → val.length < (if v.proto.short t then 256 else 65536)) : Kept v (newIE v.cfg t val) := by
  obtain ⟨-, -, b, h1, -, h2⟩ := C19_new v t val hfix hvar
  exact ⟨b, h1, h2⟩

@[simp] theorem typ_new (c : Cfg) (t : UInt8) (p : Bytes) : (newIE c t p).typ = t := by
  simp only [newIE, IE.setLength]; split <;> rfl
@[simp] theorem payload_new (c : Cfg) (t : UInt8) (p : Bytes) : (newIE c t p).payload = p := by
  simp only [newIE, IE.setLength]; split <;> rfl

/-- the constructor of the version -/
def Ver.newIMSI : Ver → Bytes → Res (Option IE)
  | .v0, s => TLV.newIMSI0 TLV.v0 s
  | .v1, s => TLV.newIMSI TLV.v1 s

theorem newIMSI_eq (v : Ver) {s : Bytes} (hd : Digits s) : v.newIMSI s = ok (some (newIE v.cfg 2 (tbcd s))) := by
  cases v
  · simp only [Ver.newIMSI, newIMSI0, C01_octets s hd]; rfl
  · simp only [Ver.newIMSI, newIMSI, C01_octets s hd]; rfl

/-- C44, GTPv1 and GTPv0 IMSI: 15 digits come back, also over the wire; any other odd number of digits comes back from the
element itself. Missing: an even number of digits (`C44_imsi_even_wrong`). -/
theorem C44_imsi_partial (v : Ver) (s : Bytes) (hd : Digits s) (ho : s.length % 2 = 1) :
    ∃ i, v.newIMSI s = ok (some i) ∧ i.payload = tbcd s ∧ i.imsi = ok s ∧ (s.length = 15 → Kept v i) := by
  have h0 : s ≠ [] := by rintro rfl; simp at ho
  have hp := (swapped_tbcd hd h0).1
  rw [if_neg (by omega)] at hp
  refine ⟨_, newIMSI_eq v hd, by simp, ?_, fun h15 => ?_⟩
  · rw [IE.imsi, if_neg (by simp), if_neg (by simp [length_tbcd]; omega), payload_new, hp]
  · refine kept_new v 2 _ (fun _ => ?_) (fun h => absurd h (by decide))
    rw [length_tbcd, h15]
    constructor
    · cases v <;> rfl
    · decide

/-- an even number of digits: the accessor drops the last one -/
theorem C44_imsi_even_wrong (v : Ver) (s : Bytes) (hd : Digits s) (he : s.length % 2 = 0) (h0 : s ≠ []) :
    ∃ i, v.newIMSI s = ok (some i) ∧ i.imsi = ok s.dropLast := by
  have hp := (swapped_tbcd hd h0).1
  rw [if_pos he] at hp
  have hs : 0 < s.length := List.length_pos_iff.mpr h0
  refine ⟨_, newIMSI_eq v hd, ?_⟩
  rw [IE.imsi, if_neg (by simp), if_neg (by simp [length_tbcd]; omega), payload_new, hp]

/-- C44, GTPv1 and GTPv0 MSISDN: an even number of digits comes back, the element survives the wire. Missing: an odd number
of digits (`C44_msisdn_odd_wrong`). -/
theorem C44_msisdn_partial (v : Ver) (s : Bytes) (hd : Digits s) (he : s.length % 2 = 0) (h0 : s ≠ [])
    (hl : s.length ≤ 131000) :
    ∃ i, newMSISDN v.cfg s = ok (some i) ∧ i.payload = 0x91 :: tbcd s ∧ i.msisdn = ok s ∧ Kept v i := by
  have hd' : Digits ([49, 57] ++ s) := by
    intro c hc
    simp only [List.cons_append, List.nil_append, List.mem_cons] at hc
    rcases hc with rfl | rfl | hc
    · decide
    · decide
    · exact hd c hc
  have ht : tbcd ([49, 57] ++ s) = 0x91 :: tbcd s := rfl
  have hp := (swapped_tbcd hd h0).2
  rw [if_pos he] at hp
  have hs : 0 < s.length := List.length_pos_iff.mpr h0
  refine ⟨newIE v.cfg 134 (0x91 :: tbcd s), by rw [newMSISDN, C01_octets _ hd', ht], by simp, ?_, ?_⟩
  · rw [IE.msisdn, if_neg (by simp), if_neg (by simp [length_tbcd]; omega), payload_new, sliceFrom_of_le (by simp)]
    simpa using hp
  · refine kept_new v 134 _ (fun h => absurd h (by decide)) (fun _ => ?_)
    have hsh : v.proto.short 134 = false := by cases v <;> decide
    rw [hsh]
    simp [length_tbcd]; omega

/-- an odd number of digits: the accessor returns the filler "f" as last digit -/
theorem C44_msisdn_odd_wrong (v : Ver) (s : Bytes) (hd : Digits s) (ho : s.length % 2 = 1) :
    ∃ i, newMSISDN v.cfg s = ok (some i) ∧ i.msisdn = ok (s ++ [102]) := by
  have h0 : s ≠ [] := by rintro rfl; simp at ho
  have hd' : Digits ([49, 57] ++ s) := by
    intro c hc
    simp only [List.cons_append, List.nil_append, List.mem_cons] at hc
    rcases hc with rfl | rfl | hc
    · decide
    · decide
    · exact hd c hc
  have ht : tbcd ([49, 57] ++ s) = 0x91 :: tbcd s := rfl
  have hp := (swapped_tbcd hd h0).2
  rw [if_neg (by omega)] at hp
  have hs : 0 < s.length := List.length_pos_iff.mpr h0
  refine ⟨newIE v.cfg 134 (0x91 :: tbcd s), by rw [newMSISDN, C01_octets _ hd', ht], ?_⟩
  rw [IE.msisdn, if_neg (by simp), if_neg (by simp [length_tbcd]; omega), payload_new, sliceFrom_of_le (by simp)]
  simpa using hp

/-- C44, GTPv1 IMEISV: every digit string comes back, also over the wire. -/
theorem C44_imeisv (s : Bytes) (hd : Digits s) (h0 : s ≠ []) (hl : s.length ≤ 131000) :
    ∃ i, newIMEISV TLV.v1 s = ok (some i) ∧ i.payload = tbcd s ∧ i.imeisv = ok s ∧ Kept .v1 i := by
  have hp := (swapped_tbcd hd h0).2
  have hs : 0 < s.length := List.length_pos_iff.mpr h0
  refine ⟨newIE TLV.v1 154 (tbcd s), by rw [newIMEISV, C01_octets _ hd], by simp, ?_, ?_⟩
  · rw [IE.imeisv, if_neg (by simp), if_neg (by simp [length_tbcd]; omega), payload_new, hp]
    simp [trimF_digits hd]
  · refine kept_new .v1 154 _ (fun h => absurd h (by decide)) (fun _ => ?_)
    have hsh : Ver.v1.proto.short 154 = false := by decide
    rw [hsh]
    simp [length_tbcd]; omega

example : (Ver.v1.newIMSI [48, 48, 49, 48, 49, 49, 50, 51, 52, 53, 54, 55, 56, 57, 49]).bind (fun i => (i.getD default).imsi) =
    ok [48, 48, 49, 48, 49, 49, 50, 51, 52, 53, 54, 55, 56, 57, 49] := by decide
example : (newMSISDN TLV.v1 [56, 49, 57]).bind (fun i => (i.getD default).msisdn) = ok [56, 49, 57, 102] := by decide

/-- C48 for the identities of GTPv1 and GTPv0 -/
theorem C48_identity (i : IE) : Returns i.imsi ∧ Returns i.msisdn ∧ Returns i.imeisv := by
  refine ⟨?_, ?_, ?_⟩
  · unfold IE.imsi; ret; exact C01_unpack_returns _ _
  · unfold IE.msisdn; ret; exact C01_unpack_returns _ _
  · unfold IE.imeisv; ret; exact returns_bind (C01_unpack_returns _ _) (fun _ _ => by ret)

end TLV
end Verif

/-! ### cases that meet the hypotheses -/

namespace Verif.V2
open Res Utils
theorem exDigits15 : Digits [48, 48, 49, 48, 49, 49, 50, 51, 52, 53, 54, 55, 56, 57, 49] := by unfold Digits; decide
theorem exDigits4 : Digits [56, 49, 57, 48] := by unfold Digits; decide
example := C44_v2_msisdn_mei (g := defaultGrouped) _ exDigits4 (by decide) (by decide) (by decide) (by decide)
example := C44_v2_imsi_partial (g := defaultGrouped) _ exDigits15 (by decide) (by decide) (by decide)
example := C44_v2_imsi_even_wrong _ exDigits4 (by decide) (by decide)
end Verif.V2
namespace Verif.TLV
open Res Utils
example := C44_imsi_partial .v1 _ V2.exDigits15 (by decide)
example := C44_imsi_even_wrong .v0 _ V2.exDigits4 (by decide) (by decide)
example := C44_msisdn_partial .v1 _ V2.exDigits4 (by decide) (by decide) (by decide)
example := C44_msisdn_odd_wrong .v0 _ V2.exDigits15 (by decide)
example := C44_imeisv _ V2.exDigits15 (by decide) (by decide)
end Verif.TLV
