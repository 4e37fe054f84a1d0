import Verif.Props.Typed.Reuse
/-
Helper lemmas for C97: what the decoders return determines the octets they read.
-/
namespace Verif.Utils
open Res

theorem hexVal_hi (x : UInt8) : hexVal (hexChar (x >>> 4)) = some (x >>> 4) :=
  forall_byte (p := fun x => hexVal (hexChar (x >>> 4)) = some (x >>> 4)) (by decide +kernel) x
theorem hexVal_lo (x : UInt8) : hexVal (hexChar (x &&& 0x0f)) = some (x &&& 0x0f) :=
  forall_byte (p := fun x => hexVal (hexChar (x &&& 0x0f)) = some (x &&& 0x0f)) (by decide +kernel) x
theorem swap_nibbles (x : UInt8) : swapByte (((x &&& 0x0f) <<< 4) ||| (x >>> 4)) = x :=
  forall_byte (p := fun x => swapByte (((x &&& 0x0f) <<< 4) ||| (x >>> 4)) = x) (by decide +kernel) x
theorem plmn_mid2 (y : UInt8) : hexChar (y >>> 4) = 102 → swapByte (((y &&& 0x0f) <<< 4) ||| 15) = y :=
  forall_byte (p := fun y => hexChar (y >>> 4) = 102 → swapByte (((y &&& 0x0f) <<< 4) ||| 15) = y) (by decide +kernel) y
theorem plmn_mid3 (y : UInt8) : ((swapByte (((y &&& 0x0f) <<< 4) ||| 15)) &&& (0x0f : UInt8)) |||
    ((swapByte (((y >>> 4) <<< 4) ||| 15) <<< 4) &&& (0xf0 : UInt8)) = y :=
  forall_byte (p := fun y => ((swapByte (((y &&& 0x0f) <<< 4) ||| 15)) &&& (0x0f : UInt8)) |||
    ((swapByte (((y >>> 4) <<< 4) ||| 15) <<< 4) &&& (0xf0 : UInt8)) = y) (by decide +kernel) y

theorem plmn_decoded (x y z : UInt8) : decodePLMN [x, y, z] = ok
    ([hexChar (x &&& 0x0f), hexChar (x >>> 4), hexChar (y &&& 0x0f)],
     if hexChar (y >>> 4) = 102 then [hexChar (z &&& 0x0f), hexChar (z >>> 4)]
     else [hexChar (z &&& 0x0f), hexChar (z >>> 4), hexChar (y >>> 4)]) := by
  have e1 : decodeMCC [x, y] = ok [hexChar (x &&& 0x0f), hexChar (x >>> 4), hexChar (y &&& 0x0f)] := by
    simp [decodeMCC, hexEncode, idx]
  have e2 : decodeMNC [y, z] = ok (if hexChar (y >>> 4) = 102 then [hexChar (z &&& 0x0f), hexChar (z >>> 4)]
     else [hexChar (z &&& 0x0f), hexChar (z >>> 4), hexChar (y >>> 4)]) := by
    simp only [decodeMNC, hexEncode, idx]
    simp
    split <;> rfl
  simp [decodePLMN, slice, e1, e2]

theorem plmn_again (x y z : UInt8) (mcc mnc : Bytes) (h : decodePLMN [x, y, z] = ok (mcc, mnc)) :
    encodePLMN mcc mnc = ok [x, y, z] := by
  rw [plmn_decoded] at h
  simp only [ok.injEq, Prod.mk.injEq] at h
  obtain ⟨rfl, rfl⟩ := h
  have f15 : hexVal 102 = some 15 := by decide
  split
  · rename_i e
    simp [encodePLMN, strToSwapped, hexDecode, hexVal_lo, hexVal_hi, f15, swap, swap_nibbles, plmn_mid2 y e]
  · simp [encodePLMN, strToSwapped, hexDecode, hexVal_lo, hexVal_hi, f15, swap, swap_nibbles, plmn_mid3, idx]
end Verif.Utils

namespace Verif.V2
open Res Utils NetIP

theorem be16_of_rd16 {s : Bytes} {v : UInt16} (hl : s.length = 2) (h : rd16 s = ok v) : be16 v = s := by
  match s, hl with
  | [x, y], _ =>
    simp only [rd16, ok.injEq] at h
    subst h
    have := x.toNat_lt; have := y.toNat_lt
    simp only [be16, List.cons.injEq, and_true]
    refine ⟨UInt8.toNat_inj.1 ?_, UInt8.toNat_inj.1 ?_⟩ <;> simp <;> omega

theorem be32_of_rd32 {s : Bytes} {v : UInt32} (hl : s.length = 4) (h : rd32 s = ok v) : be32 v = s := by
  match s, hl with
  | [x, y, z, w], _ =>
    simp only [rd32, ok.injEq] at h
    subst h
    have := x.toNat_lt; have := y.toNat_lt; have := z.toNat_lt; have := w.toNat_lt
    simp only [be32, List.cons.injEq, and_true]
    refine ⟨UInt8.toNat_inj.1 ?_, UInt8.toNat_inj.1 ?_, UInt8.toNat_inj.1 ?_, UInt8.toNat_inj.1 ?_⟩ <;> simp <;> omega

/-- the octets `lo` to `hi` -/
def seg (b : Bytes) (lo hi : Nat) : Bytes := (b.drop lo).take (hi - lo)

theorem slice_seg {b s : Bytes} {lo hi : Nat} (h : slice b lo hi = ok s) : lo ≤ hi ∧ hi ≤ b.length ∧ s = seg b lo hi := slice_ok_iff.1 h

theorem seg_length {b : Bytes} {lo hi : Nat} (h : hi ≤ b.length) : (seg b lo hi).length = hi - lo := by simp [seg]; omega

theorem seg_append {b : Bytes} {lo mid hi : Nat} (h1 : lo ≤ mid) (h2 : mid ≤ hi) : seg b lo mid ++ seg b mid hi = seg b lo hi := by
  unfold seg
  rw [show hi - lo = (mid - lo) + (hi - mid) by omega, List.take_add, List.drop_drop, show lo + (mid - lo) = mid by omega]

theorem seg_zero (b : Bytes) (n : Nat) : seg b 0 n = b.take n := by simp [seg]

theorem seg_one {b : Bytes} {i : Nat} {x : UInt8} (h : idx b i = ok x) : [x] = seg b i (i + 1) := by
  unfold idx at h
  split at h
  · rename_i hx
    cases h
    obtain ⟨hl, rfl⟩ := List.getElem?_eq_some_iff.1 hx
    rw [seg, show i + 1 - i = 1 by omega, List.take_one, List.head?_drop]
    simp [hl]
  · cases h

theorem u40_seg {b : Bytes} {lo hi : Nat} (h : hi ≤ b.length) (h5 : hi - lo = 5) : uint64To40 (uint40To64 (seg b lo hi)) = seg b lo hi :=
  ((C03_uint40_bytes _).1 (by rw [seg_length h, h5])).2

theorem u24_seg {b : Bytes} {lo hi : Nat} (h : hi ≤ b.length) (h5 : hi - lo = 3) : uint32To24 (uint24To32 (seg b lo hi)) = seg b lo hi :=
  ((C03_uint24_bytes _).1 (by rw [seg_length h, h5])).2


/-- join neighbouring segments -/
macro "segs" : tactic => `(tactic| (
  repeat rw [seg_append (by omega) (by omega)]
  try rw [seg_zero]))

theorem ambr_writes (f : AMBR) : Writes f.marshalTo (be32 f.up ++ be32 f.down) := by
  intro z hz
  simp only [List.length_append, len32] at hz
  rw [← List.nil_append z]
  simp only [AMBR.marshalTo]
  wr
  simp

theorem bearerQoS_writes (f : BearerQoS) : Writes f.marshalTo ([f.arp] ++ [f.qci] ++ uint64To40 f.mbrUp ++ uint64To40 f.mbrDown ++
    uint64To40 f.gbrUp ++ uint64To40 f.gbrDown) := by
  intro z hz
  simp only [List.length_append, uint64To40_length, List.length_cons, List.length_nil] at hz
  rw [← List.nil_append z]
  simp only [BearerQoS.marshalTo]
  have := uint64To40_length f.mbrUp
  have := uint64To40_length f.mbrDown
  have := uint64To40_length f.gbrUp
  have := uint64To40_length f.gbrDown
  wr
  simp [*]

theorem flowQoS_writes (f : FlowQoS) : Writes f.marshalTo ([f.qci] ++ uint64To40 f.mbrUp ++ uint64To40 f.mbrDown ++
    uint64To40 f.gbrUp ++ uint64To40 f.gbrDown) := by
  intro z hz
  simp only [List.length_append, uint64To40_length, List.length_cons, List.length_nil] at hz
  rw [← List.nil_append z]
  simp only [FlowQoS.marshalTo]
  have := uint64To40_length f.mbrUp
  have := uint64To40_length f.mbrDown
  have := uint64To40_length f.gbrUp
  have := uint64To40_length f.gbrDown
  wr
  simp [*]

theorem s1udf_writes (f : S1UDF) (h : f.addr.length = f.addrLen.toNat) :
    Writes f.marshalTo ([f.ebi &&& 0x0f] ++ [f.addrLen] ++ f.addr ++ be32 f.teid) := by
  intro z hz
  simp only [List.length_append, List.length_cons, List.length_nil, len32] at hz
  rw [← List.nil_append z]
  simp only [S1UDF.marshalTo]
  wr
  simp
  rw [show 1 + 1 + f.addr.length + 4 = f.addr.length + 4 + 1 + 1 by omega]

theorem s103_writes (f : S103) (h : f.addr.length = f.addrLen.toNat) (he : f.ebis.length = f.ebiNum.toNat) :
    Writes f.marshalTo ([f.addrLen] ++ f.addr ++ be32 f.greKey ++ [f.ebiNum] ++ f.ebis.map (· &&& 0x0f)) := by
  intro z hz
  simp only [List.length_append, List.length_cons, List.length_nil, len32, List.length_map] at hz
  rw [← List.nil_append z]
  simp only [S103.marshalTo]
  wr
  rw [putEBIs_writes _ _ _ _ (by lenw) (by lenw)]
  simp [Nat.add_comm, Nat.add_left_comm]
  congr 1
  omega

theorem ppp_writes (p : PPP) (h : p.payload ≠ []) : Writes p.marshalTo ([p.code] ++ [p.ident] ++ be16 p.len ++ p.payload) := by
  have hp : 0 < p.payload.length := List.length_pos_iff.mpr h
  intro z hz
  simp only [List.length_append, List.length_cons, List.length_nil, len16] at hz
  rw [← List.nil_append z]
  simp only [PPP.marshalTo]
  wr
  simp
  omega

theorem pap_writes (p : PAP) (h1 : p.ident.length = p.idLen.toNat) (h2 : p.pw.length = p.pwLen.toNat) :
    Writes p.marshalTo ([p.idLen] ++ p.ident ++ [p.pwLen] ++ p.pw) := by
  intro z hz
  simp only [List.length_append, List.length_cons, List.length_nil] at hz
  rw [← List.nil_append z]
  simp only [PAP.marshalTo]
  wr
  simp
  omega

theorem chap_writes (c : CHAP) (h1 : c.value.length = c.size.toNat) (h2 : 0 < c.value.length + c.name.length) :
    Writes c.marshalTo ([c.size] ++ c.value ++ c.name) := by
  intro z hz
  simp only [List.length_append, List.length_cons, List.length_nil] at hz
  rw [← List.nil_append z]
  simp only [CHAP.marshalTo]
  wr
  simp
  omega

theorem ipcp_writes_any (o : IPCP) (h : o.payload ≠ []) : Writes o.marshalTo ([o.typ] ++ [o.len] ++ o.payload) := by
  have hp : 0 < o.payload.length := List.length_pos_iff.mpr h
  intro z hz
  simp only [List.length_append, List.length_cons, List.length_nil] at hz
  rw [← List.nil_append z]
  simp only [IPCP.marshalTo]
  wr
  simp
  omega

theorem rannas_writes (f : RANNAS) :
    Writes f.marshalTo ([((f.proto &&& (0x0f : UInt8)) <<< 4) ||| (f.ctype &&& (0x0f : UInt8))] ++ f.cause) := by
  intro z hz
  simp only [List.length_append, List.length_cons, List.length_nil] at hz
  rw [← List.nil_append z]
  simp only [RANNAS.marshalTo]
  wr
  simp

theorem getEBIs_seg (b : Bytes) : ∀ (n off : Nat) (xs : Bytes), getEBIs b n off = ok xs → xs = seg b off (off + n)
  | 0, off, xs, h => by cases h; simp [seg]
  | n + 1, off, xs, h => by
    unfold getEBIs at h
    obtain ⟨x, hx, h⟩ := bind_eq_ok.1 h
    obtain ⟨ys, hy, h⟩ := bind_eq_ok.1 h
    cases h
    rw [getEBIs_seg b n _ _ hy, ← List.singleton_append, seg_one hx, seg_append (by omega) (by omega)]
    congr 1; omega

theorem getCSIDs_seg (b : Bytes) : ∀ (fuel off : Nat) (xs : List UInt16), off ≤ b.length → getCSIDs fuel b off = ok xs →
    off + xs.length * 2 ≤ b.length ∧ b.length < off + xs.length * 2 + 2 ∧ xs.flatMap be16 = seg b off (off + xs.length * 2)
  | 0, _, _, _, h => by cases h
  | fuel + 1, off, xs, hl, h => by
    unfold getCSIDs at h
    split at h
    · rename_i h2
      obtain ⟨s, hs, h⟩ := bind_eq_ok.1 h
      obtain ⟨x, hx, h⟩ := bind_eq_ok.1 h
      obtain ⟨ys, hy, h⟩ := bind_eq_ok.1 h
      cases h
      obtain ⟨-, l1, rfl⟩ := slice_seg hs
      obtain ⟨i0, i1, i2⟩ := getCSIDs_seg b fuel _ _ h2 hy
      refine ⟨by simp only [List.length_cons]; omega, by simp only [List.length_cons]; omega, ?_⟩
      rw [List.flatMap_cons, i2, be16_of_rd16 (by rw [seg_length l1]; omega) hx, seg_append (by omega) (by omega)]
      congr 1; simp only [List.length_cons]; omega
    · cases h
      exact ⟨by simp; omega, by simp; omega, by simp [seg]⟩

theorem seg_cons (x : UInt8) (r : Bytes) (n : Nat) : seg (x :: r) 1 (n + 1) = r.take n := by simp [seg]

end Verif.V2
