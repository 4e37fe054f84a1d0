import Verif.Props.V2Header
import Verif.Props.V1Header
import Verif.Props.V0Msg
import Verif.Props.Utils
/-
C70: the setters of the three headers.
-/
namespace Verif.V2
open Res Spec
open V1.Spec (bit)

/-- bit k of an octet (also in Spec/V1Header.lean) under the setters; all 256 octets -/
theorem piggy_bits (f : UInt8) (v : UInt8) (k : Nat) (hk : k < 8) :
    bit ((f &&& (0xef : UInt8)) ||| ((v &&& (0x01 : UInt8)) <<< 4)) k = if k = 4 then bit v 0 else bit f k := by
  have hv : (v &&& (0x01 : UInt8)) = if bit v 0 then 1 else 0 := by
    revert v
    apply forall_byte (p := fun v => (v &&& (0x01 : UInt8)) = if bit v 0 then 1 else 0)
    decide +kernel
  rw [hv]
  cases bit v 0 <;> revert k <;> revert f
  · apply forall_byte (p := fun f => ∀ k, k < 8 → bit ((f &&& (0xef : UInt8)) ||| ((if false = true then (1 : UInt8) else 0) <<< 4)) k =
      if k = 4 then false else bit f k)
    decide +kernel
  · apply forall_byte (p := fun f => ∀ k, k < 8 → bit ((f &&& (0xef : UInt8)) ||| ((if true = true then (1 : UInt8) else 0) <<< 4)) k =
      if k = 4 then true else bit f k)
    decide +kernel

theorem or_bits (f : UInt8) (k : Nat) (hk : k < 8) :
    bit (f ||| ((1 : UInt8) <<< 3)) k = (k == 3 || bit f k) ∧ bit (f ||| ((1 : UInt8) <<< 2)) k = (k == 2 || bit f k) := by
  revert k
  revert f
  apply forall_byte (p := fun f => ∀ k, k < 8 →
    bit (f ||| ((1 : UInt8) <<< 3)) k = (k == 3 || bit f k) ∧ bit (f ||| ((1 : UInt8) <<< 2)) k = (k == 2 || bit f k))
  decide +kernel

theorem hasTEID_bit (h : Header) : h.hasTEID = bit h.flags 3 := by rw [hasTEID_iff]; rfl

theorem isPiggy_bit (h : Header) : h.isPiggybacking = bit h.flags 4 := by
  unfold Header.isPiggybacking
  generalize h.flags = f
  revert f
  apply forall_byte (p := fun f => (((f >>> 4) &&& (1 : UInt8)) == 1) = bit f 4)
  decide +kernel

theorem hasPriority_bit (h : Header) : h.hasPriority = bit h.flags 2 := by
  unfold Header.hasPriority
  generalize h.flags = f
  revert f
  apply forall_byte (p := fun f => (((f >>> 2) &&& (1 : UInt8)) == 1) = bit f 2)
  decide +kernel

/-- the P flag is set to the value given (0 or 1), everything else stays -/
theorem C70_v2_piggybacking (h : Header) (v : UInt8) :
    (h.setPiggybacking v).isPiggybacking = decide (v.toNat % 2 = 1) ∧
    (∀ k, k < 8 → k ≠ 4 → bit (h.setPiggybacking v).flags k = bit h.flags k) ∧
    { h.setPiggybacking v with flags := h.flags } = h := by
  refine ⟨?_, fun k hk hne => ?_, rfl⟩
  · rw [isPiggy_bit, Header.setPiggybacking, piggy_bits _ _ _ (by omega)]
    simp [bit]
  · rw [Header.setPiggybacking, piggy_bits _ _ _ hk, if_neg hne]

/-- SetSequenceNumber: the number, everything else stays -/
theorem C70_v2_sequence (h : Header) (n : UInt32) : (h.setSequence n).sequence = n ∧ { h.setSequence n with seq := h.seq } = h :=
  ⟨rfl, rfl⟩

/-- SetTEID: TEID and T flag, everything else stays -/
theorem C70_v2_teid (h : Header) (t : UInt32) :
    (h.setTEID t).teidAcc = t ∧ (h.setTEID t).hasTEID = true ∧
    (∀ k, k < 8 → k ≠ 3 → bit (h.setTEID t).flags k = bit h.flags k) ∧
    { h.setTEID t with flags := h.flags, teid := h.teid } = h := by
  have hb : (h.setTEID t).hasTEID = true := by
    rw [hasTEID_bit, Header.setTEID, (or_bits h.flags 3 (by omega)).1]; rfl
  refine ⟨?_, hb, fun k hk hne => ?_, rfl⟩
  · rw [Header.teidAcc, if_pos hb]; rfl
  · rw [Header.setTEID, (or_bits h.flags k hk).1]; simp [hne]

/-- SetMessagePriority: the flag and the upper half of the octet given, everything else stays -/
theorem C70_v2_priority_partial (h : Header) (mp : UInt8) :
    (h.setPriority mp).hasPriority = true ∧ (h.setPriority mp).priority.toNat = mp.toNat / 16 * 16 ∧
    (∀ k, k < 8 → k ≠ 2 → bit (h.setPriority mp).flags k = bit h.flags k) ∧
    { h.setPriority mp with flags := h.flags, spare := h.spare } = h := by
  refine ⟨?_, ?_, fun k hk hne => ?_, rfl⟩
  · rw [hasPriority_bit, Header.setPriority, (or_bits h.flags 2 (by omega)).2]; rfl
  · simp only [Header.priority, Header.setPriority]
    revert mp
    apply forall_byte (p := fun mp => ((mp &&& (0xf0 : UInt8)) &&& (0xf0 : UInt8)).toNat = mp.toNat / 16 * 16)
    decide +kernel
  · rw [Header.setPriority, (or_bits h.flags k hk).2]; simp [hne]

/-- the 16 priorities of the standard (0 to 15) given as they are all become 0 -/
theorem C70_v2_priority_wrong (h : Header) (mp : UInt8) (hmp : mp.toNat < 16) : (h.setPriority mp).priority = 0 ∧
    (h.setPriority mp).spare = 0 := by
  have h0 : (mp &&& (0xf0 : UInt8)) = 0 := by
    revert hmp
    revert mp
    apply forall_byte (p := fun mp => mp.toNat < 16 → (mp &&& (0xf0 : UInt8)) = 0)
    decide +kernel
  simp only [Header.priority, Header.setPriority, h0]
  exact ⟨by decide, trivial⟩

/-- headers that survive the wire still do after setting sequence number, P flag, priority, or the TEID where there was one -/
theorem C70_v2_wire (h : Header) (hw : h.Wf) (rest : Bytes) (h12 : 12 ≤ h.marshalLen + rest.length) (n t : UInt32) (v mp : UInt8)
    (h' : Header) (hh : (h' = h.setSequence n ∧ n.toNat < 2 ^ 24) ∨ h' = h.setPiggybacking v ∨ h' = h.setPriority mp ∨
      (h' = h.setTEID t ∧ h.hasTEID = true)) :
    ∃ b, h'.marshal = ok b ∧ Header.parse (b ++ rest) = ok h' := by
  have key : ∀ x : Header, x.hasTEID = h.hasTEID → x.payload = h.payload → x.length = h.length → x.seq.toNat < 2 ^ 24 →
      (h.hasTEID = false → x.teid = 0) → ∃ b, x.marshal = ok b ∧ Header.parse (b ++ rest) = ok x := by
    intro x h1 h2 h3 h4 h5
    have hl : x.marshalLen = h.marshalLen := by simp only [Header.marshalLen, h1, h2]
    refine ⟨encH x, ?_, Header.parse_encH x rest ⟨h4, ?_, by rw [h3, hl]; exact hw.len, by rw [hl]; exact hw.fits⟩ (by rw [hl]; exact h12)⟩
    · rw [Header.marshal, Header.marshalTo_eq _ _ (by simp)]; simp
    · intro hf
      apply h5
      rw [← h1, hasTEID_iff]
      simp [hf]
  have h0 : h.hasTEID = false → h.teid = 0 := by
    intro hf
    rw [hasTEID_iff] at hf
    simp only [decide_eq_false_iff_not] at hf
    exact hw.teid (by omega)
  rcases hh with ⟨rfl, hn⟩ | rfl | rfl | ⟨rfl, ht⟩
  · exact key _ rfl rfl rfl hn h0
  · exact key _ (by rw [hasTEID_bit, hasTEID_bit, (C70_v2_piggybacking h v).2.1 3 (by omega) (by omega)]) rfl rfl hw.seq h0
  · exact key _ (by rw [hasTEID_bit, hasTEID_bit, (C70_v2_priority_partial h mp).2.2.1 3 (by omega) (by omega)]) rfl rfl hw.seq h0
  · exact key _ ((C70_v2_teid h t).2.1.trans ht.symm) rfl rfl hw.seq (by rw [ht]; simp)

/-- SetTEID on a header without TEID does not change Length: the last four octets of the payload are not read back -/
theorem C70_v2_teid_wrong (h : Header) (hw : h.Wf) (hT : h.hasTEID = false) (h4 : 4 ≤ h.payload.length) (t : UInt32) :
    ∃ b, (h.setTEID t).marshal = ok b ∧
      Header.parse b = ok { h.setTEID t with payload := h.payload.take (h.payload.length - 4) } := by
  have hT' := (C70_v2_teid h t).2.1
  have hl : h.length.toNat = 4 + h.payload.length := by
    have := hw.len
    simp only [Header.marshalLen, hT] at this
    simp at this
    omega
  have hfit := hw.fits
  simp only [Header.marshalLen, hT] at hfit
  simp at hfit
  -- the header that is read back is the one with the shorter payload, followed by four octets
  let x : Header := { h.setTEID t with payload := h.payload.take (h.payload.length - 4) }
  have hxT : x.hasTEID = true := hT'
  have hxl : x.marshalLen = 8 + h.payload.length := by
    simp only [Header.marshalLen, hxT, x]
    simp
    omega
  have hx : Header.parse (encH x ++ h.payload.drop (h.payload.length - 4)) = ok x := by
    refine Header.parse_encH x _ ⟨hw.seq, ?_, ?_, by omega⟩ (by omega)
    · intro hf
      rw [hasTEID_iff] at hxT
      simp only [decide_eq_true_eq] at hxT
      omega
    · show h.length.toNat + 4 = x.marshalLen
      omega
  refine ⟨encH (h.setTEID t), ?_, ?_⟩
  · rw [Header.marshal, Header.marshalTo_eq _ _ (by simp)]; simp
  · have he : encH (h.setTEID t) = encH x ++ h.payload.drop (h.payload.length - 4) := by
      simp only [encH, x, List.append_assoc]
      simp only [Header.setTEID, List.take_append_drop]
    rw [he]
    exact hx

example : ((Header.new 0x40 1 0 7 [3, 0, 1, 0, 9]).setTEID 0x11223344).marshal =
    ok [0x48, 1, 0, 9, 0x11, 0x22, 0x33, 0x44, 0, 0, 7, 0, 3, 0, 1, 0, 9] ∧
    Header.parse [0x48, 1, 0, 9, 0x11, 0x22, 0x33, 0x44, 0, 0, 7, 0, 3, 0, 1, 0, 9] =
      ok { (Header.new 0x40 1 0 7 [3, 0, 1, 0, 9]).setTEID 0x11223344 with payload := [3] } := by decide
example : ((Header.new 0x48 1 5 7 []).setPriority 0x50).priority = 0x50 ∧ ((Header.new 0x48 1 5 7 []).setPriority 5).priority = 0 ∧
    ((Header.new 0x48 1 5 7 []).setPriority 5).flags = 0x4c := by decide
example : ((Header.new 0x58 1 5 7 []).setPiggybacking 0).flags = 0x48 ∧ ((Header.new 0x48 1 5 7 []).setPiggybacking 1).flags = 0x58 := by
  decide

end Verif.V2

namespace Verif.V1
open Res Spec

theorem v1_or_bits (f : UInt8) (k : Nat) (hk : k < 8) :
    bit (f ||| (0x02 : UInt8)) k = (k == 1 || bit f k) ∧ bit (f ||| (0x01 : UInt8)) k = (k == 0 || bit f k) ∧
    bit (f ||| (0x04 : UInt8)) k = (k == 2 || bit f k) ∧ bit (f ||| ((1 : UInt8) <<< 3)) k = (k == 3 || bit f k) := by
  revert k
  revert f
  apply forall_byte (p := fun f => ∀ k, k < 8 →
    bit (f ||| (0x02 : UInt8)) k = (k == 1 || bit f k) ∧ bit (f ||| (0x01 : UInt8)) k = (k == 0 || bit f k) ∧
    bit (f ||| (0x04 : UInt8)) k = (k == 2 || bit f k) ∧ bit (f ||| ((1 : UInt8) <<< 3)) k = (k == 3 || bit f k))
  decide +kernel

/-- SetSequenceNumber: number, S flag and Length, everything else stays; the header still survives the wire -/
theorem C70_v1_sequence (h : Header) (hw : Wf h) (n : UInt16) (hfit : (encH h).length + 4 < 65536) :
    (h.setSequence n).sequence = n ∧ (h.setSequence n).hasSeq = true ∧
    (∀ k, k < 8 → k ≠ 1 → bit (h.setSequence n).flags k = bit h.flags k) ∧
    { h.setSequence n with flags := h.flags, length := h.length, seq := h.seq } = h ∧
    (h.setSequence n).marshal = ok (encH (h.setSequence n)) ∧
    ∀ rest, Header.parse (encH (h.setSequence n) ++ rest) = ok (h.setSequence n) := by
  have hb : ∀ k, k < 8 → k ≠ 1 → bit (h.setSequence n).flags k = bit h.flags k := by
    intro k hk hne
    show bit (h.flags ||| (0x02 : UInt8)) k = _
    rw [(v1_or_bits h.flags k hk).1]; simp [hne]
  have hb1 : bit (h.setSequence n).flags 1 = true := by
    show bit (h.flags ||| (0x02 : UInt8)) 1 = _
    rw [(v1_or_bits h.flags 1 (by omega)).1]; rfl
  have hle : (encH (h.setSequence n)).length ≤ (encH h).length + 4 := by
    rw [length_encH, length_encH]
    simp only [Header.marshalLen, hasSeq_eq, hasNPDU_eq, hasExt_eq, hb1, hb 0 (by omega) (by omega), hb 2 (by omega) (by omega)]
    show h.payload.length + 8 + _ + _ ≤ _
    simp only [Bool.true_or, if_true]
    have : (h.setSequence n).exts = h.exts := rfl
    rw [this]
    split <;> split <;> omega
  have hw' : Wf (h.setSequence n) := by
    refine ⟨?_, by omega, by simp [hb1], ?_, ?_, ?_⟩
    · have h8 : 8 ≤ (h.setSequence n).marshalLen := by unfold Header.marshalLen; omega
      have : (h.setSequence n).length = UInt16.ofNat ((h.setSequence n).marshalLen - 8) := rfl
      rw [length_encH] at hle ⊢
      rw [this, toNat_ofNat16 (by omega)]
      omega
    · rw [hb 0 (by omega) (by omega)]; exact hw.npdu
    · rw [hb 2 (by omega) (by omega)]; exact hw.noext
    · rw [hb 2 (by omega) (by omega)]; exact hw.ext
  exact ⟨rfl, by rw [hasSeq_eq]; exact hb1, hb, rfl, C21_round_trip _ hw'⟩

/-- SetNPDUNumber: number, PN flag and Length, everything else stays; the header still survives the wire -/
theorem C70_v1_npdu (h : Header) (hw : Wf h) (n : UInt8) (hfit : (encH h).length + 4 < 65536) :
    (h.setNPDU n).npdu = n ∧ (h.setNPDU n).hasNPDU = true ∧
    (∀ k, k < 8 → k ≠ 0 → bit (h.setNPDU n).flags k = bit h.flags k) ∧
    { h.setNPDU n with flags := h.flags, length := h.length, npdu := h.npdu } = h ∧
    (h.setNPDU n).marshal = ok (encH (h.setNPDU n)) ∧
    ∀ rest, Header.parse (encH (h.setNPDU n) ++ rest) = ok (h.setNPDU n) := by
  have hb : ∀ k, k < 8 → k ≠ 0 → bit (h.setNPDU n).flags k = bit h.flags k := by
    intro k hk hne
    show bit (h.flags ||| (0x01 : UInt8)) k = _
    rw [(v1_or_bits h.flags k hk).2.1]; simp [hne]
  have hb0 : bit (h.setNPDU n).flags 0 = true := by
    show bit (h.flags ||| (0x01 : UInt8)) 0 = _
    rw [(v1_or_bits h.flags 0 (by omega)).2.1]; rfl
  have hle : (encH (h.setNPDU n)).length ≤ (encH h).length + 4 := by
    rw [length_encH, length_encH]
    simp only [Header.marshalLen, hasSeq_eq, hasNPDU_eq, hasExt_eq, hb0, hb 1 (by omega) (by omega), hb 2 (by omega) (by omega)]
    show h.payload.length + 8 + _ + _ ≤ _
    simp only [Bool.true_or, Bool.or_true, if_true]
    have : (h.setNPDU n).exts = h.exts := rfl
    rw [this]
    split <;> split <;> omega
  have hw' : Wf (h.setNPDU n) := by
    refine ⟨?_, by omega, ?_, by simp [hb0], ?_, ?_⟩
    · have h8 : 8 ≤ (h.setNPDU n).marshalLen := by unfold Header.marshalLen; omega
      have : (h.setNPDU n).length = UInt16.ofNat ((h.setNPDU n).marshalLen - 8) := rfl
      rw [length_encH] at hle ⊢
      rw [this, toNat_ofNat16 (by omega)]
      omega
    · rw [hb 1 (by omega) (by omega)]; exact hw.seq
    · rw [hb 2 (by omega) (by omega)]; exact hw.noext
    · rw [hb 2 (by omega) (by omega)]; exact hw.ext
  exact ⟨rfl, by rw [hasNPDU_eq]; exact hb0, hb, rfl, C21_round_trip _ hw'⟩

/-- SetTEID of GTPv1 gives the TEID, and also sets bit 4 of the first octet, which has no meaning in GTPv1 and is to be sent
as zero -/
theorem C70_v1_teid_wrong (h : Header) (hw : Wf h) (t : UInt32) :
    (h.setTEID t).teid = t ∧ { h.setTEID t with flags := h.flags, teid := h.teid } = h ∧
    (∀ k, k < 8 → k ≠ 3 → bit (h.setTEID t).flags k = bit h.flags k) ∧
    ∃ b f r, (h.setTEID t).marshal = ok b ∧ b = f :: r ∧ bit f 3 = true ∧
      ∀ rest, Header.parse (b ++ rest) = ok (h.setTEID t) := by
  have hb : ∀ k, k < 8 → k ≠ 3 → bit (h.setTEID t).flags k = bit h.flags k := by
    intro k hk hne
    show bit (h.flags ||| ((1 : UInt8) <<< 3)) k = _
    rw [(v1_or_bits h.flags k hk).2.2.2]; simp [hne]
  have hl : (encH (h.setTEID t)).length = (encH h).length := by
    rw [length_encH, length_encH]
    simp only [Header.marshalLen, hasSeq_eq, hasNPDU_eq, hasExt_eq, hb 0 (by omega) (by omega), hb 1 (by omega) (by omega),
      hb 2 (by omega) (by omega)]
    rfl
  have hw' : Wf (h.setTEID t) := by
    refine ⟨by rw [hl]; exact hw.len, by rw [hl]; exact hw.fits, ?_, ?_, ?_, ?_⟩
    · rw [hb 1 (by omega) (by omega)]; exact hw.seq
    · rw [hb 0 (by omega) (by omega)]; exact hw.npdu
    · rw [hb 2 (by omega) (by omega)]; exact hw.noext
    · rw [hb 2 (by omega) (by omega)]; exact hw.ext
  obtain ⟨h1, h2⟩ := C21_round_trip _ hw'
  refine ⟨rfl, rfl, hb, encH (h.setTEID t), (h.setTEID t).flags, _, h1, rfl, ?_, h2⟩
  show bit (h.flags ||| ((1 : UInt8) <<< 3)) 3 = true
  rw [(v1_or_bits h.flags 3 (by omega)).2.2.2]; rfl

/-- SetNextExtensionHeaderType leaves Length and extension headers as they are: what is sent for a header without options is
read as one whose first extension header begins in the payload, or refused -/
theorem C70_v1_next_type_wrong :
    ((Header.new 0x30 255 1 0 [1, 2, 3, 4, 5, 6]).setNextExt 0x85).marshal =
      ok [0x34, 255, 0, 6, 0, 0, 0, 1, 0, 0, 0, 0x85, 1, 2, 3, 4, 5, 6] ∧
    Header.parse [0x34, 255, 0, 6, 0, 0, 0, 1, 0, 0, 0, 0x85, 1, 2, 3, 4, 5, 6] ≠
      ok ((Header.new 0x30 255 1 0 [1, 2, 3, 4, 5, 6]).setNextExt 0x85) := by decide

example : (Header.new 0x30 255 1 0 [9]).setSequence 0x1234 = ⟨0x32, 255, 5, 1, 0x1234, 0, 0, [], [9]⟩ ∧
    ((Header.new 0x30 255 1 0 [9]).setSequence 0x1234).marshal = ok [0x32, 255, 0, 5, 0, 0, 0, 1, 0x12, 0x34, 0, 0, 9] := by decide
example : (Header.new 0x30 255 1 0 [9]).setNPDU 7 = ⟨0x31, 255, 5, 1, 0, 7, 0, [], [9]⟩ := by decide
example : ((Header.new 0x30 255 1 0 [9]).setTEID 2).flags = 0x38 := by decide

end Verif.V1

namespace Verif.V0
open Res

/-- the TID of a GTPv0 header is shown as the sixteen digits its octets stand for -/
theorem C70_v0_tid (h : Header) (s : Bytes) (hd : Utils.Digits s) (h16 : s.length = 16) (he : be64 h.tid = Utils.tbcd s) :
    h.tidStr = ok s := by
  obtain ⟨raw, h1, -, h3⟩ := Utils.C01_even s [102] hd (by omega)
  rw [Utils.C01_octets s hd] at h1
  injection h1 with h1
  rw [Header.tidStr, he, h1]
  exact h3

example : (Header.new 0x1e 16 1 2 0x2143658709214355 []).tidStr = ok [49, 50, 51, 52, 53, 54, 55, 56, 57, 48, 49, 50, 51, 52, 53, 53] := by
  decide

end Verif.V0

namespace Verif.V2
open Res Spec
/-! ### cases that meet the hypotheses -/

example := C70_v2_priority_wrong (Header.new 0x48 1 5 7 []) 5 (by decide)
example := C70_v2_wire ⟨0x48, 32, 8, 1, 2, 0, []⟩ ⟨by decide, by decide, by decide, by decide⟩ [9] (by decide) 77 0 0 0 _ (.inl ⟨rfl, by decide⟩)
example := C70_v2_teid_wrong (Header.new 0x40 1 0 7 [3, 0, 1, 0, 9]) ⟨by decide, by decide, by decide, by decide⟩ (by decide) (by decide) 9
end Verif.V2

namespace Verif.V1
open Res Spec

example := C70_v1_sequence (Header.new 0x30 255 1 0 [9]) ⟨by decide, by decide, by decide, by decide, by decide, by decide⟩ 0x1234 (by decide)
example := C70_v1_npdu (Header.new 0x30 255 1 0 [9]) ⟨by decide, by decide, by decide, by decide, by decide, by decide⟩ 7 (by decide)
example := C70_v1_teid_wrong (Header.new 0x30 255 1 0 [9]) ⟨by decide, by decide, by decide, by decide, by decide, by decide⟩ 2
end Verif.V1

namespace Verif.V0
open Res

example := C70_v0_tid (Header.new 0x1e 16 1 2 0x2143658709214355 []) [49, 50, 51, 52, 53, 54, 55, 56, 57, 48, 49, 50, 51, 52, 53, 53]
  (by decide) (by decide) (by decide)
end Verif.V0
