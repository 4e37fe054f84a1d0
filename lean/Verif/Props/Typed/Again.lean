import Verif.Proofs.Typed.Again
/-
C97: decoding a composed element and serialising it again.
-/
namespace Verif.V2
open Res Utils NetIP Duration

/-! ### the PLMN -/

/-- **C97** for the PLMN: whatever three octets are decoded, encoding the MCC and MNC obtained gives them back. -/
theorem C97_plmn (x y z : UInt8) : ∃ mcc mnc, decodePLMN [x, y, z] = ok (mcc, mnc) ∧ encodePLMN mcc mnc = ok [x, y, z] :=
  ⟨_, _, plmn_decoded x y z, plmn_again x y z _ _ (plmn_decoded x y z)⟩

example : decodePLMN [0x44, 0xf0, 0x01] = ok ([52, 52, 48], [49, 48]) ∧ encodePLMN [52, 52, 48] [49, 48] = ok [0x44, 0xf0, 0x01] ∧
    decodePLMN [0xba, 0xdc, 0xfe] = ok ([97, 98, 99], [101, 102, 100]) := by decide

/-! ### elements of a fixed size -/

/-- **C97** for the Aggregate Maximum Bit Rate. -/
theorem C97_ambr {b : Bytes} {f : AMBR} (h : parseAMBR b = ok f) : f.marshal = ok (b.take 8) := by
  unfold parseAMBR at h
  split at h
  · cases h
  obtain ⟨s, hs, h⟩ := bind_eq_ok.1 h
  obtain ⟨u, hu, h⟩ := bind_eq_ok.1 h
  obtain ⟨t, ht, h⟩ := bind_eq_ok.1 h
  obtain ⟨d, hd, h⟩ := bind_eq_ok.1 h
  cases h
  obtain ⟨-, l1, rfl⟩ := slice_seg hs
  obtain ⟨-, l2, rfl⟩ := slice_seg ht
  rw [AMBR.marshal, (ambr_writes _).marshal (show 8 = _ from rfl), be32_of_rd32 (seg_length l1) hu, be32_of_rd32 (seg_length l2) hd]
  segs

example : (do let f ← parseAMBR [0, 0, 1, 2, 0, 0, 3, 4, 9]; f.marshal) = ok [0, 0, 1, 2, 0, 0, 3, 4] := by decide

/-- **C97** for the Bearer QoS. -/
theorem C97_bearerQoS {b : Bytes} {f : BearerQoS} (h : parseBearerQoS b = ok f) : f.marshal = ok (b.take 22) := by
  unfold parseBearerQoS at h
  split at h
  · cases h
  obtain ⟨s, hs, h⟩ := bind_eq_ok.1 h
  obtain ⟨u, hu, h⟩ := bind_eq_ok.1 h
  obtain ⟨s1, h1, h⟩ := bind_eq_ok.1 h
  obtain ⟨s2, h2, h⟩ := bind_eq_ok.1 h
  obtain ⟨s3, h3, h⟩ := bind_eq_ok.1 h
  obtain ⟨s4, h4, h⟩ := bind_eq_ok.1 h
  cases h
  obtain ⟨-, l1, rfl⟩ := slice_seg h1
  obtain ⟨-, l2, rfl⟩ := slice_seg h2
  obtain ⟨-, l3, rfl⟩ := slice_seg h3
  obtain ⟨-, l4, rfl⟩ := slice_seg h4
  rw [BearerQoS.marshal, (bearerQoS_writes _).marshal (show 22 = _ from rfl), u40_seg l1 rfl, u40_seg l2 rfl, u40_seg l3 rfl,
    u40_seg l4 rfl, seg_one hs, seg_one hu]
  segs

example : (do let f ← parseBearerQoS [0xff, 9, 0, 0, 0, 0, 1, 0, 0, 0, 0, 2, 0, 0, 0, 0, 3, 0, 0, 0, 0, 4]; f.marshal) =
    ok [0xff, 9, 0, 0, 0, 0, 1, 0, 0, 0, 0, 2, 0, 0, 0, 0, 3, 0, 0, 0, 0, 4] := by decide

/-- **C97** for the Flow QoS. -/
theorem C97_flowQoS {b : Bytes} {f : FlowQoS} (h : parseFlowQoS b = ok f) : f.marshal = ok (b.take 21) := by
  unfold parseFlowQoS at h
  split at h
  · cases h
  obtain ⟨s, hs, h⟩ := bind_eq_ok.1 h
  obtain ⟨s1, h1, h⟩ := bind_eq_ok.1 h
  obtain ⟨s2, h2, h⟩ := bind_eq_ok.1 h
  obtain ⟨s3, h3, h⟩ := bind_eq_ok.1 h
  obtain ⟨s4, h4, h⟩ := bind_eq_ok.1 h
  cases h
  obtain ⟨-, l1, rfl⟩ := slice_seg h1
  obtain ⟨-, l2, rfl⟩ := slice_seg h2
  obtain ⟨-, l3, rfl⟩ := slice_seg h3
  obtain ⟨-, l4, rfl⟩ := slice_seg h4
  rw [FlowQoS.marshal, (flowQoS_writes _).marshal (show 21 = _ from rfl), u40_seg l1 rfl, u40_seg l2 rfl, u40_seg l3 rfl,
    u40_seg l4 rfl, seg_one hs]
  segs

example : (do let f ← parseFlowQoS [9, 0, 0, 0, 0, 1, 0, 0, 0, 0, 2, 0, 0, 0, 0, 3, 0, 0, 0, 0, 4, 7]; f.marshal) =
    ok [9, 0, 0, 0, 0, 1, 0, 0, 0, 0, 2, 0, 0, 0, 0, 3, 0, 0, 0, 0, 4] := by decide

/-! ### elements with an address -/

/-- **C97** for the S1-U Data Forwarding: the spare half of the first octet is cleared. -/
theorem C97_s1udf {x : UInt8} {r : Bytes} {f : S1UDF} (h : parseS1UDF (x :: r) = ok f) :
    f.marshal = ok ((x &&& 0x0f) :: r.take (f.marshalLen - 1)) := by
  unfold parseS1UDF at h
  split at h
  · cases h
  rw [idx_zero, bind_ok] at h
  obtain ⟨n, hn, h⟩ := bind_eq_ok.1 h
  split at h
  · cases h
  obtain ⟨a, ha, h⟩ := bind_eq_ok.1 h
  simp only [] at h
  split at h
  · cases h
  obtain ⟨s, hs, h⟩ := bind_eq_ok.1 h
  obtain ⟨t, ht, h⟩ := bind_eq_ok.1 h
  cases h
  obtain ⟨-, l1, rfl⟩ := slice_seg ha
  obtain ⟨-, l2, rfl⟩ := slice_seg hs
  have e1 : (seg (x :: r) 2 (2 + n.toNat)).length = n.toNat := by rw [seg_length l1]; omega
  rw [S1UDF.marshal, (s1udf_writes _ e1).marshal (by simp [S1UDF.marshalLen, e1]; omega)]
  simp only []
  rw [be32_of_rd32 (by rw [seg_length l2]; omega) ht, seg_one hn]
  simp only [List.append_assoc]
  rw [seg_append (by omega) (by omega), seg_append (by omega) (by omega), S1UDF.marshalLen]
  rw [show 2 + n.toNat + 4 = (n.toNat + 5) + 1 by omega, seg_cons, UInt8.and_assoc]
  rfl

example : (do let f ← parseS1UDF [0xf5, 4, 127, 0, 0, 1, 0, 0, 0, 9, 7]; f.marshal) = ok [0x05, 4, 127, 0, 0, 1, 0, 0, 0, 9] := by decide

/-- **C97** for the S103 PDN Data Forwarding Info: the spare half of each bearer identity is cleared. -/
theorem C97_s103 {x : UInt8} {r : Bytes} {f : S103} (h : parseS103 (x :: r) = ok f) :
    f.marshal = ok ((x :: r).take (6 + x.toNat) ++ (((x :: r).drop (6 + x.toNat)).take f.ebiNum.toNat).map (· &&& 0x0f)) := by
  unfold parseS103 at h
  split at h
  · cases h
  have hx : idx (x :: r) 0 = ok x := idx_zero _ _
  rw [hx, bind_ok] at h
  split at h
  · cases h
  obtain ⟨a, ha, h⟩ := bind_eq_ok.1 h
  simp only [] at h
  split at h
  · cases h
  obtain ⟨s, hs, h⟩ := bind_eq_ok.1 h
  obtain ⟨t, ht, h⟩ := bind_eq_ok.1 h
  split at h
  · cases h
  obtain ⟨k, hk, h⟩ := bind_eq_ok.1 h
  split at h
  · cases h
  rename_i hl
  obtain ⟨es, he, h⟩ := bind_eq_ok.1 h
  cases h
  obtain ⟨-, l1, rfl⟩ := slice_seg ha
  obtain ⟨-, l2, rfl⟩ := slice_seg hs
  have := getEBIs_seg _ _ _ _ he
  subst this
  have e1 : (seg (x :: r) 1 (1 + x.toNat)).length = x.toNat := by rw [seg_length l1]; omega
  have e2 : (seg (x :: r) (1 + x.toNat + 4 + 1) (1 + x.toNat + 4 + 1 + k.toNat)).length = k.toNat := by
    rw [seg_length (by omega)]; omega
  rw [S103.marshal, (s103_writes _ e1 e2).marshal (by simp [S103.marshalLen, e1, e2]; omega)]
  simp only []
  rw [be32_of_rd32 (by rw [seg_length l2]; omega) ht, seg_one hx, seg_one hk]
  segs
  rw [show 1 + x.toNat + 4 + 1 = 6 + x.toNat by omega, seg, Nat.add_sub_cancel_left]

example : (do let f ← parseS103 [4, 127, 0, 0, 1, 0, 0, 0, 9, 2, 0x15, 0x26, 7]; f.marshal) =
    ok [4, 127, 0, 0, 1, 0, 0, 0, 9, 2, 0x05, 0x06] := by decide

theorem fteid_bits : ∀ x : UInt8, ((x &&& 0x3f) ||| (if has8thBit (x &&& 0xc0) then 0x80 else 0)) |||
    (if has7thBit (x &&& 0xc0) then 0x40 else 0) = x :=
  forall_byte (p := fun x => ((x &&& 0x3f) ||| (if has8thBit (x &&& 0xc0) then 0x80 else 0)) |||
    (if has7thBit (x &&& 0xc0) then 0x40 else 0) = x) (by decide +kernel)

/-- **C97** for the F-TEID. -/
theorem C97_fteid {b : Bytes} {f : FTEID} (h : parseFTEID b = ok f) : f.marshal = ok (b.take f.marshalLen) := by
  unfold parseFTEID at h
  match b, h with
  | x :: p :: q :: u :: v :: r, h =>
    rw [if_neg (by simp), idx_zero, bind_ok, slice_of_le (by simp) (by simp), bind_ok] at h
    obtain ⟨t, ht, h⟩ := bind_eq_ok.1 h
    have hb := be32_of_rd32 rfl ht
    simp only [Nat.reduceSub, List.drop_succ_cons, List.drop_zero, List.take_succ_cons, List.take_zero] at hb
    obtain ⟨⟨g, o⟩, hg, h⟩ := bind_eq_ok.1 h
    unfold FTEID.getV4 at hg
    simp only [] at hg
    have hx := fteid_bits x
    have n4 : to4 [] = none := rfl
    cases h8 : has8thBit (x &&& 0xc0)
    · simp only [h8, Bool.false_eq_true, if_false] at hg
      cases hg
      unfold FTEID.getV6 at h
      simp only [] at h
      cases h7 : has7thBit (x &&& 0xc0)
      · simp only [h7, Bool.false_eq_true, if_false] at h
        cases h
        simp only [h8, h7, Bool.false_eq_true, if_false, UInt8.or_zero] at hx
        simp only [FTEID.marshal, FTEID.marshalLen, h8, h7, FTEID.marshalTo, FTEID.putV4, FTEID.putV6, hb, hx]
        simp [setAt, copyAt, List.replicate]
      · simp only [h7, if_true] at h
        split at h
        · cases h
        rename_i hl
        obtain ⟨v0, v1, v2, v3, v4, v5, v6, v7, v8, v9, v10, v11, v12, v13, v14, v15, r, rfl⟩ :=
          pop16 (z := r) (by simp at hl; omega)
        rw [slice_of_le (by omega) (by omega), bind_ok] at h
        simp only [Nat.reduceSub, Nat.reduceAdd, List.drop_succ_cons, List.drop_zero, List.take_succ_cons, List.take_zero,
          to16_16 (v := [_, _, _, _, _, _, _, _, _, _, _, _, _, _, _, _]) rfl] at h
        cases h
        simp only [h8, h7, Bool.false_eq_true, if_false, if_true, UInt8.or_zero] at hx
        simp only [FTEID.marshal, FTEID.marshalLen, h8, h7, FTEID.marshalTo, FTEID.putV4, FTEID.putV6, hb,
          to16_16 (v := [_, _, _, _, _, _, _, _, _, _, _, _, _, _, _, _]) rfl]
        simp [setAt, copyAt, idx, List.replicate, hx]
    · simp only [h8, if_true] at hg
      split at hg
      · cases hg
      rename_i hl
      obtain ⟨w0, w1, w2, w3, r, rfl⟩ := pop4 (z := r) (by simp at hl; omega)
      rw [slice_of_le (by omega) (by omega), bind_ok] at hg
      simp only [Nat.reduceSub, Nat.reduceAdd, List.drop_succ_cons, List.drop_zero, List.take_succ_cons, List.take_zero,
        to4_4] at hg
      cases hg
      unfold FTEID.getV6 at h
      simp only [] at h
      cases h7 : has7thBit (x &&& 0xc0)
      · simp only [h7, Bool.false_eq_true, if_false] at h
        cases h
        simp only [h8, h7, Bool.false_eq_true, if_false, if_true, UInt8.or_zero] at hx
        simp only [FTEID.marshal, FTEID.marshalLen, h8, h7, FTEID.marshalTo, FTEID.putV4, FTEID.putV6, hb, to4_4]
        simp [setAt, copyAt, idx, List.replicate, hx]
      · simp only [h7, if_true] at h
        split at h
        · cases h
        rename_i hl
        obtain ⟨v0, v1, v2, v3, v4, v5, v6, v7, v8, v9, v10, v11, v12, v13, v14, v15, r, rfl⟩ :=
          pop16 (z := r) (by simp at hl; omega)
        rw [slice_of_le (by omega) (by omega), bind_ok] at h
        simp only [Nat.reduceSub, Nat.reduceAdd, List.drop_succ_cons, List.drop_zero, List.take_succ_cons, List.take_zero,
          to16_16 (v := [_, _, _, _, _, _, _, _, _, _, _, _, _, _, _, _]) rfl] at h
        cases h
        simp only [h8, h7, if_true] at hx
        simp only [FTEID.marshal, FTEID.marshalLen, h8, h7, FTEID.marshalTo, FTEID.putV4, FTEID.putV6, hb, to4_4,
          to16_16 (v := [_, _, _, _, _, _, _, _, _, _, _, _, _, _, _, _]) rfl]
        simp [setAt, copyAt, idx, List.replicate, hx]
  | [], h => cases h
  | [_], h => cases h
  | [_, _], h => cases h
  | [_, _, _], h => cases h
  | [_, _, _, _], h => cases h

example : (do let f ← parseFTEID [0x8a, 0, 0, 0, 9, 127, 0, 0, 1, 7]; f.marshal) = ok [0x8a, 0, 0, 0, 9, 127, 0, 0, 1] := by decide

/-- **C97** for the PDN Address Allocation: the spare bits of the first octet are cleared. -/
theorem C97_paa {x : UInt8} {r : Bytes} {f : PAA} (h : parsePAA (x :: r) = ok f) :
    f.marshal = ok ((x &&& 0x07) :: r.take (f.marshalLen - 1)) := by
  unfold parsePAA at h
  rw [if_neg (by simp), idx_zero, bind_ok] at h
  simp only [] at h
  have e7 : x &&& 7 &&& 7 = x &&& 7 := by rw [UInt8.and_assoc]; rfl
  generalize x &&& 7 = t at h e7 ⊢
  by_cases t1 : t = 1
  · subst t1
    rw [if_pos rfl] at h
    split at h
    · cases h
    rename_i hl
    obtain ⟨w0, w1, w2, w3, r, rfl⟩ := pop4 (z := r) (by simp at hl; omega)
    rw [slice_of_le (by omega) (by omega), bind_ok] at h
    cases h
    simp [PAA.marshal, PAA.marshalLen, PAA.marshalTo, setAt, copyAt, List.replicate, ofOpt, to4_4]
  · rw [if_neg t1] at h
    by_cases t2 : t = 2
    · subst t2
      rw [if_pos rfl] at h
      split at h
      · cases h
      rename_i hl
      obtain ⟨w, r, rfl⟩ : ∃ w r', r = w :: r' := by
        cases r with
        | nil => simp at hl
        | cons w r => exact ⟨w, r, rfl⟩
      obtain ⟨v0, v1, v2, v3, v4, v5, v6, v7, v8, v9, v10, v11, v12, v13, v14, v15, r, rfl⟩ :=
        pop16 (z := r) (by simp at hl; omega)
      rw [slice_of_le (by omega) (by omega)] at h
      cases h
      simp [PAA.marshal, PAA.marshalLen, PAA.marshalTo, setAt, copyAt, List.replicate, ofOpt,
        to16_16 (v := [_, _, _, _, _, _, _, _, _, _, _, _, _, _, _, _]) rfl]
    · rw [if_neg t2] at h
      by_cases t3 : t = 3
      · subst t3
        rw [if_pos rfl] at h
        split at h
        · cases h
        rename_i hl
        obtain ⟨w, r, rfl⟩ : ∃ w r', r = w :: r' := by
          cases r with
          | nil => simp at hl
          | cons w r => exact ⟨w, r, rfl⟩
        obtain ⟨v0, v1, v2, v3, v4, v5, v6, v7, v8, v9, v10, v11, v12, v13, v14, v15, r, rfl⟩ :=
          pop16 (z := r) (by simp at hl; omega)
        obtain ⟨w0, w1, w2, w3, r, rfl⟩ := pop4 (z := r) (by simp at hl; omega)
        rw [slice_of_le (by omega) (by omega), slice_of_le (by omega) (by omega)] at h
        cases h
        simp [PAA.marshal, PAA.marshalLen, PAA.marshalTo, setAt, copyAt, List.replicate, ofOpt, to4_4,
          to16_16 (v := [_, _, _, _, _, _, _, _, _, _, _, _, _, _, _, _]) rfl]
      · rw [if_neg t3] at h
        cases h
        simp [PAA.marshal, PAA.marshalLen, PAA.marshalTo, setAt, t1, t2, t3, e7]

example : (do let f ← parsePAA [0xf9, 10, 0, 0, 1, 7]; f.marshal) = ok [0x01, 10, 0, 0, 1] := by decide

/-! ### protocol configuration options -/

/-- what is decoded of a container -/
theorem parseContainer_ok {b : Bytes} {c : Container} (h : parseContainer b = ok c) :
    c.marshalLen ≤ b.length ∧ (c.len = 0 → c.contents = []) ∧ be16 c.ident ++ [c.len] ++ c.contents = b.take c.marshalLen := by
  unfold parseContainer at h
  split at h
  · cases h
  rename_i h3
  obtain ⟨s, hs, h⟩ := bind_eq_ok.1 h
  obtain ⟨-, l1, e0⟩ := slice_seg hs
  obtain ⟨i, hi, h⟩ := bind_eq_ok.1 h
  obtain ⟨n, hn, h⟩ := bind_eq_ok.1 h
  rw [e0] at hi
  split at h
  · rename_i hc
    obtain ⟨t, ht, h⟩ := bind_eq_ok.1 h
    cases h
    obtain ⟨-, l2, rfl⟩ := slice_seg ht
    have e : (seg b 3 (3 + n.toNat)).length = n.toNat := by rw [seg_length l2]; omega
    refine ⟨by simp only [Container.marshalLen, e]; omega, fun h0 => absurd h0 hc.1, ?_⟩
    simp only [Container.marshalLen, e]
    rw [be16_of_rd16 (by rw [seg_length l1]) hi, seg_one hn]
    segs
  · cases h
    refine ⟨by simp only [Container.marshalLen, List.length_nil]; omega, fun _ => rfl, ?_⟩
    simp only [Container.marshalLen, List.append_nil, List.length_nil]
    rw [be16_of_rd16 (by rw [seg_length l1]) hi, seg_one hn]
    segs

theorem container_writes_any {c : Container} (h : c.len = 0 → c.contents = []) :
    Writes c.marshalTo (be16 c.ident ++ [c.len] ++ c.contents) := by
  intro z hz
  simp only [List.length_append, len16, List.length_cons, List.length_nil] at hz
  rw [← List.nil_append z]
  simp only [Container.marshalTo]
  by_cases h0 : c.len = 0
  · simp only [h0, ne_eq, not_true_eq_false, if_false]
    wr
    simp [h h0]
  · simp only [ne_eq, h0, not_false_eq_true, if_true]
    wr
    simp
    omega

theorem putContainers_any : ∀ (cs : List Container) (pre z : Bytes) (off : Nat), (∀ c ∈ cs, c.len = 0 → c.contents = []) →
    off = pre.length → (cs.map Container.marshalLen).sum ≤ z.length →
    putContainers cs off (pre ++ z) = ok (pre ++ cs.flatMap (fun c => be16 c.ident ++ [c.len] ++ c.contents) ++
      z.drop (cs.map Container.marshalLen).sum)
  | [], pre, z, off, _, _, _ => by simp [putContainers]
  | c :: cs, pre, z, off, hc, ho, hz => by
    have hl : c.marshalLen = (be16 c.ident ++ [c.len] ++ c.contents).length := by simp [Container.marshalLen]; omega
    simp only [List.map_cons, List.sum_cons] at hz
    rw [putContainers, (container_writes_any (hc c (by simp))).subEnd ho rfl (by omega)]
    simp only [bind_ok]
    rw [putContainers_any cs _ _ _ (fun x hx => hc x (by simp [hx])) (by rw [hl]; simp; omega)
      (by rw [List.length_drop, ← hl]; omega)]
    rw [List.drop_drop, ← hl]
    simp

theorem getContainers_ok (b : Bytes) : ∀ (fuel off : Nat) (cs : List Container), off ≤ b.length → getContainers b fuel off = ok cs →
    (∀ c ∈ cs, c.len = 0 → c.contents = []) ∧ cs.flatMap (fun c => be16 c.ident ++ [c.len] ++ c.contents) = b.drop off
  | 0, _, _, _, h => by cases h
  | fuel + 1, off, cs, hl, h => by
    unfold getContainers at h
    split at h
    · cases h
      exact ⟨by simp, by rw [List.drop_of_length_le (by omega)]; rfl⟩
    rw [sliceFrom_of_le hl, bind_ok] at h
    obtain ⟨c, hc, h⟩ := bind_eq_ok.1 h
    obtain ⟨r, hr, h⟩ := bind_eq_ok.1 h
    cases h
    obtain ⟨h1, h2, h3⟩ := parseContainer_ok hc
    rw [List.length_drop] at h1
    obtain ⟨i1, i2⟩ := getContainers_ok b fuel _ _ (by omega) hr
    refine ⟨?_, ?_⟩
    · intro x hx
      rcases List.mem_cons.1 hx with rfl | hx
      · exact h2
      · exact i1 x hx
    · rw [List.flatMap_cons, i2, h3, ← List.drop_drop, List.take_append_drop]

/-- **C97** for a container of the protocol configuration options; of one whose contents are cut off the first three octets. -/
theorem C97_container {b : Bytes} {c : Container} (h : parseContainer b = ok c) :
    c.marshalTo (List.replicate c.marshalLen 0) = ok (b.take c.marshalLen) := by
  obtain ⟨-, h2, h3⟩ := parseContainer_ok h
  rw [(container_writes_any h2).marshal (by simp [Container.marshalLen]; omega), h3]

theorem pco_again {x : UInt8} {r : Bytes} {cs : List Container} {fuel : Nat} (h : getContainers (x :: r) fuel 1 = ok cs) (y : UInt8) :
    (do let b ← setAt (List.replicate (1 + (cs.map Container.marshalLen).sum) 0) 0 y
        putContainers cs 1 b) = ok (y :: r) := by
  obtain ⟨h1, h2⟩ := getContainers_ok _ _ _ _ (by simp) h
  rw [Nat.add_comm, List.replicate_succ]
  simp only [setAt, List.length_cons, List.set_cons_zero]
  rw [if_pos (by omega), bind_ok, ← List.singleton_append, putContainers_any cs [y] _ 1 h1 rfl (by simp), h2]
  simp

/-- **C97** for the Protocol Configuration Options: of the first octet the spare bits are cleared and the extension bit is set, the
others are given back, also when a container is cut off. -/
theorem C97_pco {x : UInt8} {r : Bytes} {f : PCO} (h : parsePCO (x :: r) = ok f) :
    f.marshal = ok (((x &&& 7) ||| 0x80) :: r) := by
  unfold parsePCO at h
  rw [if_neg (by simp), idx_zero, bind_ok] at h
  obtain ⟨cs, hc, h⟩ := bind_eq_ok.1 h
  cases h
  have e7 : x &&& 7 &&& 7 = x &&& 7 := by rw [UInt8.and_assoc]; rfl
  rw [PCO.marshal, PCO.marshalTo, PCO.marshalLen]
  simp only [e7]
  exact pco_again hc _

example : (do let f ← parsePCO [0x78, 0, 13, 1, 8, 0, 16, 0]; f.marshal) = ok [0x80, 0, 13, 1, 8, 0, 16, 0] := by decide

/-- **C97** for the Protocol Configuration Options of GTPv1. -/
theorem C97_pco_v1 {x : UInt8} {r : Bytes} {f : TLV.PCOPayload} (h : TLV.parsePCOPayload (x :: r) = ok f) :
    f.marshalTo (List.replicate f.marshalLen 0) = ok (((x &&& 7) ||| 0x80) :: r) := by
  unfold TLV.parsePCOPayload at h
  rw [if_neg (by simp), idx_zero, bind_ok] at h
  obtain ⟨cs, hc, h⟩ := bind_eq_ok.1 h
  cases h
  have e7 : x &&& 7 &&& 7 = x &&& 7 := by rw [UInt8.and_assoc]; rfl
  rw [TLV.PCOPayload.marshalTo, TLV.PCOPayload.marshalLen]
  simp only [e7]
  exact pco_again hc _

example : parsePCO [0x80, 0, 13, 4, 1] = err .tooShortParse ∧ parsePCO [0x78, 0, 13, 4, 0, 16, 0] =
    ok ⟨0, 0, [⟨13, 4, []⟩, ⟨16, 0, []⟩]⟩ ∧
    PCO.marshal ⟨0, 0, [⟨13, 4, []⟩, ⟨16, 0, []⟩]⟩ = ok [0x80, 0, 13, 4, 0, 16, 0] := by decide

/-- **C97** for a PPP packet with contents. -/
theorem C97_ppp_partial {b : Bytes} {p : PPP} (h : parsePPP b = ok p) :
    p.marshal = if p.len = 4 then err .eof else ok (b.take p.len.toNat) := by
  unfold parsePPP at h
  split at h
  · cases h
  obtain ⟨x, hx, h⟩ := bind_eq_ok.1 h
  obtain ⟨y, hy, h⟩ := bind_eq_ok.1 h
  obtain ⟨s, hs, h⟩ := bind_eq_ok.1 h
  obtain ⟨n, hn, h⟩ := bind_eq_ok.1 h
  split at h
  · cases h
  obtain ⟨c, hc, h⟩ := bind_eq_ok.1 h
  cases h
  obtain ⟨-, l1, rfl⟩ := slice_seg hs
  obtain ⟨l0, l2, rfl⟩ := slice_seg hc
  have e : (seg b 4 n.toNat).length = n.toNat - 4 := seg_length l2
  by_cases h4 : n = 4
  · subst h4
    simp only [if_true]
    rw [show (4 : UInt16).toNat = 4 from rfl] at *
    have : seg b 4 4 = [] := List.length_eq_zero_iff.1 (by rw [e])
    rw [PPP.marshal, this]; rfl
  · have h4' : n.toNat ≠ 4 := fun e => h4 (UInt16.toNat_inj.1 e)
    rw [if_neg h4, PPP.marshal, (ppp_writes _ (by
      intro h0
      simp only [] at h0
      rw [h0] at e
      simp at e; omega)).marshal (by simp; omega)]
    simp only []
    rw [be16_of_rd16 (by rw [seg_length l1]) hn, seg_one hx, seg_one hy]
    segs

example : (do let f ← parsePPP [1, 2, 0, 5, 9, 7]; f.marshal) = ok [1, 2, 0, 5, 9] ∧
    (do let f ← parsePPP [1, 2, 0, 4, 7]; f.marshal) = err .eof := by decide

/-- **C97** for the fields of a PAP packet. -/
theorem C97_pap {b : Bytes} {p : PAP} (h : parsePAP b = ok p) : p.marshal = ok (b.take (2 + p.ident.length + p.pw.length)) := by
  unfold parsePAP at h
  split at h
  · cases h
  obtain ⟨n, hn, h⟩ := bind_eq_ok.1 h
  split at h
  · cases h
  obtain ⟨s, hs, h⟩ := bind_eq_ok.1 h
  obtain ⟨k, hk, h⟩ := bind_eq_ok.1 h
  split at h
  · cases h
  obtain ⟨c, hc, h⟩ := bind_eq_ok.1 h
  cases h
  obtain ⟨-, l1, rfl⟩ := slice_seg hs
  obtain ⟨-, l2, rfl⟩ := slice_seg hc
  have e1 : (seg b 1 (1 + n.toNat)).length = n.toNat := by rw [seg_length l1]; omega
  have e2 : (seg b (1 + n.toNat + 1) (1 + n.toNat + 1 + k.toNat)).length = k.toNat := by rw [seg_length l2]; omega
  rw [PAP.marshal, (pap_writes _ e1 e2).marshal (by simp; omega)]
  simp only [e1, e2]
  rw [seg_one hn, seg_one hk]
  segs
  congr 2; omega

example : (do let f ← parsePAP [1, 65, 2, 66, 67, 7]; f.marshal) = ok [1, 65, 2, 66, 67] := by decide

/-- **C97** for the fields of a CHAP packet: all the octets. -/
theorem C97_chap {b : Bytes} {c : CHAP} (h : parseCHAP b = ok c) : c.marshal = ok b := by
  unfold parseCHAP at h
  split at h
  · cases h
  obtain ⟨n, hn, h⟩ := bind_eq_ok.1 h
  split at h
  · cases h
  obtain ⟨s, hs, h⟩ := bind_eq_ok.1 h
  rw [sliceFrom_of_le (by omega), bind_ok] at h
  cases h
  obtain ⟨-, l1, rfl⟩ := slice_seg hs
  have e1 : (seg b 1 (1 + n.toNat)).length = n.toNat := by rw [seg_length l1]; omega
  have e2 : b.drop (1 + n.toNat) = seg b (1 + n.toNat) b.length := by
    rw [seg, List.take_of_length_le (by simp)]
  have e3 : (seg b (1 + n.toNat) b.length).length = b.length - (1 + n.toNat) := seg_length (Nat.le_refl _)
  rw [e2, CHAP.marshal, (chap_writes _ e1 (by simp only [e1, e3]; omega)).marshal (by simp; omega)]
  simp only []
  rw [seg_one hn]
  segs
  rw [List.take_of_length_le (Nat.le_refl _)]

example : (do let f ← parseCHAP [1, 65, 66, 67]; f.marshal) = ok [1, 65, 66, 67] := by decide

/-- **C97** for an IPCP option with contents. -/
theorem C97_ipcp_partial {b : Bytes} {o : IPCP} (h : parseIPCP b = ok o) :
    o.marshal = if o.len = 2 then err .eof else ok (b.take o.len.toNat) := by
  unfold parseIPCP at h
  split at h
  · cases h
  obtain ⟨x, hx, h⟩ := bind_eq_ok.1 h
  obtain ⟨n, hn, h⟩ := bind_eq_ok.1 h
  split at h
  · cases h
  obtain ⟨c, hc, h⟩ := bind_eq_ok.1 h
  cases h
  obtain ⟨l0, l2, rfl⟩ := slice_seg hc
  have e : (seg b 2 n.toNat).length = n.toNat - 2 := seg_length l2
  by_cases h4 : n = 2
  · subst h4
    simp only [if_true]
    rw [show (2 : UInt8).toNat = 2 from rfl] at *
    have : seg b 2 2 = [] := List.length_eq_zero_iff.1 (by rw [e])
    rw [IPCP.marshal, this]; rfl
  · have h4' : n.toNat ≠ 2 := fun e => h4 (UInt8.toNat_inj.1 e)
    rw [if_neg h4, IPCP.marshal, (ipcp_writes_any _ (by
      intro h0
      simp only [] at h0
      rw [h0] at e
      simp at e; omega)).marshal (by simp [IPCP.marshalLen]; omega)]
    simp only []
    rw [seg_one hx, seg_one hn]
    segs

example : (do let f ← parseIPCP [129, 6, 8, 8, 8, 8, 7]; f.marshal) = ok [129, 6, 8, 8, 8, 8] ∧
    (do let f ← parseIPCP [129, 2, 7]; f.marshal) = err .eof := by decide

/-! ### causes, throttling, paging -/

theorem rannas_octet : ∀ x : UInt8, (((((x &&& (0xf0 : UInt8)) >>> 4) &&& (0x0f : UInt8)) <<< 4) |||
    ((x &&& (0x0f : UInt8)) &&& (0x0f : UInt8))) = x :=
  forall_byte (p := fun x => (((((x &&& (0xf0 : UInt8)) >>> 4) &&& (0x0f : UInt8)) <<< 4) |||
    ((x &&& (0x0f : UInt8)) &&& (0x0f : UInt8))) = x) (by decide +kernel)

/-- **C97** for the RAN/NAS cause: all the octets. -/
theorem C97_rannas {b : Bytes} {f : RANNAS} (h : parseRANNAS b = ok f) : f.marshal = ok b := by
  unfold parseRANNAS at h
  match b, h with
  | [], h => cases h
  | [_], h => cases h
  | x :: y :: r, h =>
    rw [if_neg (by simp), idx_zero, bind_ok, sliceFrom_of_le (by simp), bind_ok] at h
    cases h
    rw [RANNAS.marshal, (rannas_writes _).marshal (by simp; omega)]
    simp only [rannas_octet]
    rfl

example : (do let f ← parseRANNAS [0x12, 3, 4]; f.marshal) = ok [0x12, 3, 4] := by decide

theorem throttling_octet : ∀ x : UInt8, ∀ u, u = (x &&& (0xe0 : UInt8)) >>> 5 → ∀ v : Duration, v = (x &&& (0x1f : UInt8)).toNat →
    ((u <<< 5) &&& (0xe0 : UInt8)) ||| ((Throttling.value ⟨u,
      if u = 4 then v * (10 * hour) else if u = 3 then v * hour else if u = 2 then v * (10 * minute)
      else if u = 1 then v * minute else if u = 0 then v * (2 * second) else 0, 0⟩) &&& (0x1f : UInt8)) =
    if x < 0xa0 then x else x &&& 0xe0 := by
  intro x u hu v hv
  subst hu hv
  revert x
  exact forall_byte (p := fun x => ((((x &&& (0xe0 : UInt8)) >>> 5) <<< 5) &&& (0xe0 : UInt8)) |||
    ((Throttling.value ⟨(x &&& (0xe0 : UInt8)) >>> 5,
      if (x &&& (0xe0 : UInt8)) >>> 5 = 4 then ((x &&& (0x1f : UInt8)).toNat : Int) * (10 * hour)
      else if (x &&& (0xe0 : UInt8)) >>> 5 = 3 then ((x &&& (0x1f : UInt8)).toNat : Int) * hour
      else if (x &&& (0xe0 : UInt8)) >>> 5 = 2 then ((x &&& (0x1f : UInt8)).toNat : Int) * (10 * minute)
      else if (x &&& (0xe0 : UInt8)) >>> 5 = 1 then ((x &&& (0x1f : UInt8)).toNat : Int) * minute
      else if (x &&& (0xe0 : UInt8)) >>> 5 = 0 then ((x &&& (0x1f : UInt8)).toNat : Int) * (2 * second) else 0, 0⟩) &&& (0x1f : UInt8)) =
    if x < 0xa0 then x else x &&& 0xe0) (by decide +kernel)

/-- **C97** for the Throttling: of a unit the standard does not define the value is lost.
Missing: the units 5 to 7. -/
theorem C97_throttling_partial {x y : UInt8} {r : Bytes} {f : Throttling} (h : parseThrottling (x :: y :: r) = ok f) :
    f.marshalTo (List.replicate 2 0) = ok [if x < 0xa0 then x else x &&& 0xe0, y] := by
  unfold parseThrottling at h
  rw [if_neg (by simp), idx_zero, bind_ok] at h
  simp only [idx_succ, idx_zero, bind_ok] at h
  have e := throttling_octet x _ rfl _ rfl
  cases h
  rw [← e]
  rfl

example : parseThrottling [0xe1, 50] = ok ⟨7, 0, 50⟩ ∧ Throttling.marshalTo ⟨7, 0, 50⟩ [0, 0] = ok [0xe0, 50] := by decide

theorem paging_octet : ∀ x : UInt8, x &&& 0x0f &&& 0x0f = x &&& 0x0f := fun x => by rw [UInt8.and_assoc]; rfl

/-- **C97** fails for the Paging and Service Information: the second octet is replaced by the first one. -/
theorem C97_paging_wrong {x y : UInt8} {r : Bytes} {f : Paging} (h : parsePaging (x :: y :: r) = ok f) :
    f.marshal = ok ([x &&& 0x0f, x] ++ if has1stBit x then (r.take 1).map (· &&& 0x7f) else []) := by
  unfold parsePaging at h
  rw [if_neg (by simp), idx_zero, bind_ok] at h
  split at h
  · rename_i hx
    split at h
    · cases h
    rename_i hl
    cases r with
    | nil => simp at hl
    | cons z r =>
      simp only [idx_succ, idx_zero, bind_ok] at h
      cases h
      have e : z &&& 0x7f &&& 0x7f = z &&& 0x7f := by rw [UInt8.and_assoc]; rfl
      simp [Paging.marshal, Paging.marshalLen, Paging.marshalTo, hx, setAt, paging_octet, e, List.replicate]
  · rename_i hx
    cases h
    simp [Paging.marshal, Paging.marshalLen, Paging.marshalTo, hx, setAt, paging_octet, List.replicate]

example : parsePaging [5, 1, 0x33] = ok ⟨5, 5, 0x33⟩ ∧ Paging.marshal ⟨5, 5, 0x33⟩ = ok [5, 5, 0x33] ∧
    parsePaging [6, 1, 0x33] = ok ⟨6, 6, 0⟩ ∧ Paging.marshal ⟨6, 6, 0⟩ = ok [6, 6] := by decide

/-! ### elements with a PLMN -/

theorem plmn_seg {b : Bytes} {off : Nat} {mcc mnc : Bytes} (hl : off + 3 ≤ b.length) (h : decodePLMN (seg b off (off + 3)) = ok (mcc, mnc)) :
    encodePLMN mcc mnc = ok (seg b off (off + 3)) := by
  have e : (seg b off (off + 3)).length = 3 := by rw [seg_length hl]; omega
  generalize seg b off (off + 3) = s at h e
  match s, e with
  | [x, y, z], _ => exact plmn_again x y z mcc mnc h

/-- **C97** for the Trace Reference. -/
theorem C97_trace {b : Bytes} {f : Trace} (h : parseTrace b = ok f) : f.marshalTo (List.replicate 6 0) = ok (b.take 6) := by
  unfold parseTrace at h
  split at h
  · cases h
  obtain ⟨s, hs, h⟩ := bind_eq_ok.1 h
  obtain ⟨⟨mcc, mnc⟩, hp, h⟩ := bind_eq_ok.1 h
  simp only [] at h
  split at h
  · cases h
  obtain ⟨t, ht, h⟩ := bind_eq_ok.1 h
  cases h
  obtain ⟨-, l1, rfl⟩ := slice_seg hs
  obtain ⟨-, l2, rfl⟩ := slice_seg ht
  have e0 : (seg b 0 3).length = 3 := seg_length l1
  have e1 : (seg b 3 6).length = 3 := seg_length l2
  rw [Trace.marshalTo, plmn_seg (off := 0) l1 hp]
  simp only [bind_ok, u24_seg (lo := 3) l2 rfl, Nat.zero_add]
  rw [← List.nil_append (List.replicate 6 _)]
  wr
  simp only [List.nil_append, e0, e1]
  segs
  simp

example : (do let f ← parseTrace [0x44, 0xf0, 0x01, 1, 2, 3, 7]; f.marshalTo (List.replicate 6 0)) = ok [0x44, 0xf0, 0x01, 1, 2, 3] := by decide

theorem uci_last : ∀ x : UInt8, (((x >>> 6) &&& (0x03 : UInt8)) <<< 6) ||| (x &&& (0x03 : UInt8)) = x &&& 0xc3 :=
  forall_byte (p := fun x => (((x >>> 6) &&& (0x03 : UInt8)) <<< 6) ||| (x &&& (0x03 : UInt8)) = x &&& 0xc3) (by decide +kernel)

theorem and7 (x : UInt8) : (x &&& 7).toNat = x.toNat % 8 := by
  rw [UInt8.toNat_and, show (7 : UInt8).toNat = 2 ^ 3 - 1 from rfl, Nat.and_two_pow_sub_one_eq_mod]

theorem csg_octets {x y z w : UInt8} {v : UInt32} (h : rd32 [x, y, z, w] = ok v) :
    be32 (v &&& 0x7ffffff &&& 0x7ffffff) = [x &&& 0x07, y, z, w] := by
  have hb : rd32 [x &&& 0x07, y, z, w] = ok (v &&& 0x7ffffff &&& 0x7ffffff) := by
    simp only [rd32, ok.injEq] at h ⊢
    subst h
    apply UInt32.toNat_inj.1
    have := x.toNat_lt; have := y.toNat_lt; have := z.toNat_lt; have := w.toNat_lt
    simp only [UInt32.toNat_and, UInt32.toNat_ofNat', and7]
    rw [show (0x7ffffff : UInt32).toNat = 2 ^ 27 - 1 from rfl, Nat.and_two_pow_sub_one_eq_mod, Nat.and_two_pow_sub_one_eq_mod]
    omega
  exact be32_of_rd32 rfl hb

/-- **C97** for the User CSG Information: the spare bits are cleared. -/
theorem C97_uci {x0 x1 x2 x3 x4 x5 x6 x7 : UInt8} {r : Bytes} {f : UCI}
    (h : parseUCI (x0 :: x1 :: x2 :: x3 :: x4 :: x5 :: x6 :: x7 :: r) = ok f) :
    f.marshalTo (List.replicate 8 0) = ok [x0, x1, x2, x3 &&& 0x07, x4, x5, x6, x7 &&& 0xc3] := by
  unfold parseUCI at h
  rw [if_neg (by simp), slice_of_le (by omega) (by simp), bind_ok] at h
  simp only [Nat.reduceSub, List.drop_zero, List.take_succ_cons, List.take_zero] at h
  obtain ⟨⟨mcc, mnc⟩, hp, h⟩ := bind_eq_ok.1 h
  simp only [] at h
  rw [if_neg (by simp), slice_of_le (by omega) (by simp), bind_ok] at h
  simp only [Nat.reduceSub, List.drop_succ_cons, List.drop_zero, List.take_succ_cons, List.take_zero] at h
  obtain ⟨v, hv, h⟩ := bind_eq_ok.1 h
  simp only [idx_succ, idx_zero, bind_ok] at h
  cases h
  have e1 := plmn_again _ _ _ _ _ hp
  have e2 := csg_octets hv
  simp only [UCI.marshalTo, e1, e2, bind_ok, uci_last]
  simp [copyAt, setAt, List.replicate]

example : (do let f ← parseUCI [0x44, 0xf0, 0x01, 0xff, 1, 2, 3, 0xff]; f.marshalTo (List.replicate 8 0)) =
    ok [0x44, 0xf0, 0x01, 0x07, 1, 2, 3, 0xc3] := by decide

/-- **C97** fails for the GUTI: the octets of the PLMN are replaced by those behind them. -/
theorem C97_guti_wrong {x0 x1 x2 x3 x4 x5 x6 x7 x8 x9 : UInt8} {r spare : Bytes} {f : GUTI}
    (h : parseGUTI (x0 :: x1 :: x2 :: x3 :: x4 :: x5 :: x6 :: x7 :: x8 :: x9 :: r) spare = ok f) :
    f.marshalTo (List.replicate 10 0) = ok [x1, x2, x3, x3, x4, x5, x6, x7, x8, x9] := by
  unfold parseGUTI at h
  rw [if_neg (by simp), slice_of_le (by omega) (by simp), bind_ok] at h
  simp only [Nat.reduceSub, List.drop_succ_cons, List.drop_zero, List.take_succ_cons, List.take_zero] at h
  obtain ⟨mcc, hc, h⟩ := bind_eq_ok.1 h
  rw [slice_of_le (by omega) (by simp), bind_ok] at h
  simp only [Nat.reduceSub, List.cons_append, List.drop_succ_cons, List.drop_zero, List.take_succ_cons, List.take_zero] at h
  obtain ⟨mnc, hn, h⟩ := bind_eq_ok.1 h
  rw [if_neg (by simp), slice_of_le (by omega) (by simp), bind_ok] at h
  simp only [Nat.reduceSub, List.drop_succ_cons, List.drop_zero, List.take_succ_cons, List.take_zero] at h
  obtain ⟨g, hg, h⟩ := bind_eq_ok.1 h
  simp only [idx_succ, idx_zero, bind_ok] at h
  rw [slice_of_le (by omega) (by simp), bind_ok] at h
  simp only [Nat.reduceSub, List.drop_succ_cons, List.drop_zero, List.take_succ_cons, List.take_zero] at h
  obtain ⟨m, hm, h⟩ := bind_eq_ok.1 h
  cases h
  have hp : decodePLMN [x1, x2, x3] = ok (mcc, mnc) := by
    simp only [decodePLMN, slice, List.length_cons, List.length_nil]
    simp [hc, hn]
  have e1 := plmn_again _ _ _ _ _ hp
  have e2 := be16_of_rd16 rfl hg
  have e3 := be32_of_rd32 rfl hm
  simp only [GUTI.marshalTo, e1, e2, e3]
  simp [copyAt, setAt, List.replicate]

/-- the constructor writes a GUTI whose PLMN is lost when it is decoded and serialised again -/
example : GUTI.marshalTo ⟨[48, 48, 49], [48, 49], 0x1234, 0x56, 0x789abcde⟩ (List.replicate 10 0) =
      ok [0x00, 0xf1, 0x10, 0x12, 0x34, 0x56, 0x78, 0x9a, 0xbc, 0xde] ∧
    (parseGUTI [0x00, 0xf1, 0x10, 0x12, 0x34, 0x56, 0x78, 0x9a, 0xbc, 0xde] [] >>= fun f => f.marshalTo (List.replicate 10 0)) =
      ok [0xf1, 0x10, 0x12, 0x12, 0x34, 0x56, 0x78, 0x9a, 0xbc, 0xde] := by decide

/-- **C97** for the FQ-CSID; an odd octet at the end is lost. -/
theorem C97_csid {b : Bytes} {f : CSID} (h : parseCSID b = ok f) :
    f.marshalTo (List.replicate f.marshalLen 0) = ok (b.take f.marshalLen) ∧ f.marshalLen ≤ b.length ∧ b.length ≤ f.marshalLen + 1 := by
  cases b with
  | nil => cases h
  | cons x r =>
    obtain ⟨e1, e2, e3, e4⟩ := parseCSID_shape h
    have hm := csid_marshal_any f e3 e4
    rw [hm, e1, e2, csid_nibble]
    have hx : idx (x :: r) 0 = ok x := idx_zero _ _
    unfold parseCSID at h
    rw [if_neg (by simp), hx, bind_ok] at h
    simp only [] at h
    split at h
    · rename_i hk
      split at h
      · cases h
      rename_i hl
      obtain ⟨s, hs, h⟩ := bind_eq_ok.1 h
      obtain ⟨-, l1, e0⟩ := slice_seg hs
      obtain ⟨ids, hi, h⟩ := bind_eq_ok.1 h
      cases h
      obtain ⟨i0, i1, i2⟩ := getCSIDs_seg _ _ _ _ (by omega) hi
      have hn : CSID.marshalLen ⟨(x >>> 4) &&& 0x0f, x &&& 0x0f, s, ids⟩ = 5 + ids.length * 2 := by
        unfold CSID.marshalLen; simp only []; rw [if_pos hk]
      rw [hn]
      refine ⟨?_, by omega, by omega⟩
      simp only []
      rw [e0, i2, seg_one hx]
      segs
    · rename_i hk
      split at h
      · rename_i hk1
        split at h
        · cases h
        rename_i hl
        obtain ⟨s, hs, h⟩ := bind_eq_ok.1 h
        obtain ⟨-, l1, e0⟩ := slice_seg hs
        obtain ⟨ids, hi, h⟩ := bind_eq_ok.1 h
        cases h
        obtain ⟨i0, i1, i2⟩ := getCSIDs_seg _ _ _ _ (by omega) hi
        have hn : CSID.marshalLen ⟨(x >>> 4) &&& 0x0f, x &&& 0x0f, s, ids⟩ = 17 + ids.length * 2 := by
          unfold CSID.marshalLen; simp only []; rw [if_neg hk, if_pos hk1]
        rw [hn]
        refine ⟨?_, by omega, by omega⟩
        simp only []
        rw [e0, i2, seg_one hx]
        segs
      · cases h

example : (do let f ← parseCSID [0x02, 127, 0, 0, 1, 0, 8, 0, 9]; f.marshalTo (List.replicate 9 0)) = ok [0x02, 127, 0, 0, 1, 0, 8, 0, 9] := by
  decide

/-! ### User Location Information -/

/-- a block read and written again -/
structure Block (b : Bytes) (off o : Nat) (put : Bytes → Nat → Res (Bytes × Nat)) : Prop where
  up : off ≤ o
  inside : off ≤ b.length → o ≤ b.length
  again : ∀ pre z : Bytes, pre.length = off → o - off ≤ z.length → put (pre ++ z) off = ok (pre ++ seg b off o ++ z.drop (o - off), o)

theorem block_none {b : Bytes} {off : Nat} : Block b off off (fun b off => ok (b, off)) :=
  ⟨Nat.le_refl _, id, fun pre z _ _ => by simp [seg]⟩

theorem area_again {flag : Bool} {b : Bytes} {off o : Nat} {x : Option Area} (h : getArea flag b off = ok (x, o)) :
    Block b off o (putArea flag x) ∧ o = off + if flag then 7 else 0 := by
  unfold getArea at h
  cases flag
  · simp only [Bool.false_eq_true, if_false] at h
    cases h
    exact ⟨block_none, rfl⟩
  · simp only [if_true] at h
    split at h
    · cases h
    rename_i hl
    obtain ⟨s, hs, h⟩ := bind_eq_ok.1 h
    obtain ⟨-, l1, e0⟩ := slice_seg hs
    obtain ⟨⟨mcc, mnc⟩, hp, h⟩ := bind_eq_ok.1 h
    simp only [] at h
    obtain ⟨t, ht, h⟩ := bind_eq_ok.1 h
    obtain ⟨-, l2, e1⟩ := slice_seg ht
    obtain ⟨u, hu, h⟩ := bind_eq_ok.1 h
    obtain ⟨t', ht', h⟩ := bind_eq_ok.1 h
    obtain ⟨-, l3, e2⟩ := slice_seg ht'
    obtain ⟨v, hv, h⟩ := bind_eq_ok.1 h
    cases h
    subst e0 e1 e2
    refine ⟨⟨by omega, fun _ => by omega, ?_⟩, rfl⟩
    intro pre z hpre hz
    have f0 : (seg b off (off + 3)).length = 3 := by rw [seg_length l1]; omega
    have f1 : (seg b (off + 3) (off + 5)).length = 2 := by rw [seg_length l2]; omega
    have f2 : (seg b (off + 5) (off + 7)).length = 2 := by rw [seg_length l3]; omega
    simp only [putArea, if_true]
    rw [if_neg (by simp; omega), plmn_seg l1 hp, bind_ok, be16_of_rd16 f1 hu, be16_of_rd16 f2 hv,
      copyAt_append (by omega) (by omega) (by omega), bind_ok, copyAt_append (by simp; omega) (by omega) (by simp; omega), bind_ok,
      copyAt_append (by simp; omega) (by omega) (by simp; omega), bind_ok]
    rw [← seg_append (b := b) (lo := off) (mid := off + 5) (hi := off + 7) (by omega) (by omega),
      ← seg_append (b := b) (lo := off) (mid := off + 3) (hi := off + 5) (by omega) (by omega)]
    simp [f0, f1, f2]

theorem loc_again {flag : Bool} {b : Bytes} {off o : Nat} {x : Option Loc} (h : getLoc flag b off = ok (x, o)) :
    Block b off o (putLoc flag x) ∧ o = off + if flag then 5 else 0 := by
  unfold getLoc at h
  cases flag
  · simp only [Bool.false_eq_true, if_false] at h
    cases h
    exact ⟨block_none, rfl⟩
  · simp only [if_true] at h
    split at h
    · cases h
    rename_i hl
    obtain ⟨s, hs, h⟩ := bind_eq_ok.1 h
    obtain ⟨-, l1, e0⟩ := slice_seg hs
    obtain ⟨⟨mcc, mnc⟩, hp, h⟩ := bind_eq_ok.1 h
    simp only [] at h
    obtain ⟨t, ht, h⟩ := bind_eq_ok.1 h
    obtain ⟨-, l2, e1⟩ := slice_seg ht
    obtain ⟨u, hu, h⟩ := bind_eq_ok.1 h
    cases h
    subst e0 e1
    refine ⟨⟨by omega, fun _ => by omega, ?_⟩, rfl⟩
    intro pre z hpre hz
    have f0 : (seg b off (off + 3)).length = 3 := by rw [seg_length l1]; omega
    have f1 : (seg b (off + 3) (off + 5)).length = 2 := by rw [seg_length l2]; omega
    simp only [putLoc, if_true]
    rw [if_neg (by simp; omega), plmn_seg l1 hp, bind_ok, be16_of_rd16 f1 hu,
      copyAt_append (by omega) (by omega) (by omega), bind_ok, copyAt_append (by simp; omega) (by omega) (by simp; omega), bind_ok]
    rw [← seg_append (b := b) (lo := off) (mid := off + 3) (hi := off + 5) (by omega) (by omega)]
    simp [f0, f1]

theorem ecgi_again {flag : Bool} {b : Bytes} {off o : Nat} {x : Option Node} (h : getECGI flag b off = ok (x, o)) :
    Block b off o (putECGI flag x) ∧ o = off + if flag then 7 else 0 := by
  unfold getECGI at h
  cases flag
  · simp only [Bool.false_eq_true, if_false] at h
    cases h
    exact ⟨block_none, rfl⟩
  · simp only [if_true] at h
    split at h
    · cases h
    rename_i hl
    obtain ⟨s, hs, h⟩ := bind_eq_ok.1 h
    obtain ⟨-, l1, e0⟩ := slice_seg hs
    obtain ⟨⟨mcc, mnc⟩, hp, h⟩ := bind_eq_ok.1 h
    simp only [] at h
    obtain ⟨t, ht, h⟩ := bind_eq_ok.1 h
    obtain ⟨-, l2, e1⟩ := slice_seg ht
    obtain ⟨u, hu, h⟩ := bind_eq_ok.1 h
    cases h
    subst e0 e1
    refine ⟨⟨by omega, fun _ => by omega, ?_⟩, rfl⟩
    intro pre z hpre hz
    have f0 : (seg b off (off + 3)).length = 3 := by rw [seg_length l1]; omega
    have f1 : (seg b (off + 3) (off + 7)).length = 4 := by rw [seg_length l2]; omega
    simp only [putECGI, if_true]
    rw [if_neg (by simp; omega), plmn_seg l1 hp, bind_ok, be32_of_rd32 f1 hu,
      copyAt_append (by omega) (by omega) (by omega), bind_ok, copyAt_append (by simp; omega) (by omega) (by simp; omega), bind_ok]
    rw [← seg_append (b := b) (lo := off) (mid := off + 3) (hi := off + 7) (by omega) (by omega)]
    simp [f0, f1]

theorem enb_again {flag : Bool} {b : Bytes} {off o : Nat} {x : Option Node} (h : getENB flag b off = ok (x, o)) :
    Block b off o (putENB flag x) ∧ o = off + if flag then 6 else 0 := by
  unfold getENB at h
  cases flag
  · simp only [Bool.false_eq_true, if_false] at h
    cases h
    exact ⟨block_none, rfl⟩
  · simp only [if_true] at h
    split at h
    · cases h
    rename_i hl
    obtain ⟨s, hs, h⟩ := bind_eq_ok.1 h
    obtain ⟨-, l1, e0⟩ := slice_seg hs
    obtain ⟨⟨mcc, mnc⟩, hp, h⟩ := bind_eq_ok.1 h
    simp only [] at h
    obtain ⟨t, ht, h⟩ := bind_eq_ok.1 h
    obtain ⟨-, l2, e1⟩ := slice_seg ht
    cases h
    subst e0 e1
    refine ⟨⟨by omega, fun _ => by omega, ?_⟩, rfl⟩
    intro pre z hpre hz
    have f0 : (seg b off (off + 3)).length = 3 := by rw [seg_length l1]; omega
    have f1 : (seg b (off + 3) (off + 6)).length = 3 := by rw [seg_length l2]; omega
    simp only [putENB, if_true]
    rw [if_neg (by simp; omega), plmn_seg l1 hp, bind_ok, u24_seg l2 (by omega),
      copyAt_append (by omega) (by omega) (by omega), bind_ok, copyAt_append (by simp; omega) (by omega) (by simp; omega), bind_ok]
    rw [← seg_append (b := b) (lo := off) (mid := off + 3) (hi := off + 6) (by omega) (by omega)]
    simp [f0, f1]

theorem Block.step {b : Bytes} {off o : Nat} {put : Bytes → Nat → Res (Bytes × Nat)} (h : Block b off o put) (hl : off ≤ b.length)
    {z : Bytes} (hz : o - off ≤ z.length) :
    put (b.take off ++ z) off = ok (b.take o ++ z.drop (o - off), o) := by
  rw [h.again _ _ (by simp; omega) hz, ← seg_zero b off, ← seg_zero b o, seg_append (by omega) h.up]

/-- **C97** for the User Location Information. -/
theorem C97_uli {b : Bytes} {f : ULI} (h : parseULI b = ok f) : f.marshal = ok (b.take f.marshalLen) := by
  cases b with
  | nil => cases h
  | cons fl r =>
  unfold parseULI at h
  rw [if_neg (by simp), idx_zero, bind_ok] at h
  generalize hb : fl :: r = b at h ⊢
  have h0 : 1 ≤ b.length := by rw [← hb]; simp
  obtain ⟨⟨x1, o1⟩, e1, h⟩ := bind_eq_ok.1 h
  obtain ⟨⟨x2, o2⟩, e2, h⟩ := bind_eq_ok.1 h
  obtain ⟨⟨x3, o3⟩, e3, h⟩ := bind_eq_ok.1 h
  obtain ⟨⟨x4, o4⟩, e4, h⟩ := bind_eq_ok.1 h
  obtain ⟨⟨x5, o5⟩, e5, h⟩ := bind_eq_ok.1 h
  obtain ⟨⟨x6, o6⟩, e6, h⟩ := bind_eq_ok.1 h
  obtain ⟨⟨x7, o7⟩, e7, h⟩ := bind_eq_ok.1 h
  obtain ⟨⟨x8, o8⟩, e8, h⟩ := bind_eq_ok.1 h
  cases h
  obtain ⟨b1, n1⟩ := area_again e1
  obtain ⟨b2, n2⟩ := area_again e2
  obtain ⟨b3, n3⟩ := area_again e3
  obtain ⟨b4, n4⟩ := loc_again e4
  obtain ⟨b5, n5⟩ := ecgi_again e5
  obtain ⟨b6, n6⟩ := loc_again e6
  obtain ⟨b7, n7⟩ := enb_again e7
  obtain ⟨b8, n8⟩ := enb_again e8
  have i1 := b1.inside h0
  have i2 := b2.inside i1
  have i3 := b3.inside i2
  have i4 := b4.inside i3
  have i5 := b5.inside i4
  have i6 := b6.inside i5
  have i7 := b7.inside i6
  have i8 := b8.inside i7
  have u1 := b1.up
  have u2 := b2.up
  have u3 := b3.up
  have u4 := b4.up
  have u5 := b5.up
  have u6 := b6.up
  have u7 := b7.up
  have u8 := b8.up
  have hn : ULI.marshalLen ⟨fl, x1, x2, x3, x4, x5, x6, x7, x8⟩ = o8 := by
    unfold ULI.marshalLen
    simp only []
    omega
  rw [ULI.marshal, hn, show o8 = (o8 - 1) + 1 by omega, List.replicate_succ]
  simp only [ULI.marshalTo, List.length_cons]
  rw [if_neg (by omega), setAt_of_lt (by simp), bind_ok, List.set_cons_zero]
  have ht : fl :: List.replicate (o8 - 1) (0 : UInt8) = b.take 1 ++ List.replicate (o8 - 1) 0 := by rw [← hb]; rfl
  rw [ht, b1.step h0 (by simp; omega)]
  simp only [bind_ok, List.drop_replicate]
  rw [b2.step i1 (by simp; omega)]
  simp only [bind_ok, List.drop_replicate]
  rw [b3.step i2 (by simp; omega)]
  simp only [bind_ok, List.drop_replicate]
  rw [b4.step i3 (by simp; omega)]
  simp only [bind_ok, List.drop_replicate]
  rw [b5.step i4 (by simp; omega)]
  simp only [bind_ok, List.drop_replicate]
  rw [b6.step i5 (by simp; omega)]
  simp only [bind_ok, List.drop_replicate]
  rw [b7.step i6 (by simp; omega)]
  simp only [bind_ok, List.drop_replicate]
  rw [b8.step i7 (by simp; omega)]
  simp only [bind_ok, List.drop_replicate]
  rw [show o8 - 1 - (o1 - 1) - (o2 - o1) - (o3 - o2) - (o4 - o3) - (o5 - o4) - (o6 - o5) - (o7 - o6) - (o8 - o7) = 0 by omega,
    show o8 - 1 + 1 = o8 by omega]
  simp

example : (do let f ← parseULI [0x18, 0x44, 0xf0, 0x01, 0, 1, 0x44, 0xf0, 0x01, 0xf1, 2, 3, 4, 7]; f.marshal) =
    ok [0x18, 0x44, 0xf0, 0x01, 0, 1, 0x44, 0xf0, 0x01, 0xf1, 2, 3, 4] := by decide

/-! ### Traffic Flow Template -/

/-- **C97** for a component of a packet filter. -/
theorem C97_comp {b : Bytes} {c : Comp} (h : parseComp b = ok c) :
    c.marshalTo (List.replicate c.marshalLen 0) = ok (b.take c.marshalLen) := by
  obtain ⟨-, -, h3⟩ := parseComp_ok h
  rw [(comp_writes c).marshal (by simp [Comp.marshalLen, encComp]; omega), h3]

/-- **C97** for a parameter of a template. -/
theorem C97_param {b : Bytes} {p : Param} (h : parseParam b = ok p) :
    p.marshalTo (List.replicate p.marshalLen 0) = ok (b.take p.marshalLen) := by
  obtain ⟨h1, -, h3⟩ := parseParam_ok h
  rw [(param_writes h1).marshal (by simp [Param.marshalLen, encParam]; omega), h3]

/-- an octet string with the two upper bits of its first octet cleared -/
def clearSpare : Bytes → Bytes
  | [] => []
  | x :: r => (x &&& 0x3f) :: r

theorem filter_chunk {b : Bytes} {p : Filter} (h : parseFilter b = ok p) :
    FilterOK p ∧ p.marshalLen ≤ b.length ∧ p.marshalLen = (encFilter p).length ∧ encFilter p = clearSpare (b.take p.marshalLen) := by
  obtain ⟨h1, h2, x, r, rfl, h3⟩ := parseFilter_ok h
  have hl : p.marshalLen = (encFilter p).length := by simp [Filter.marshalLen, compsLen_eq, encFilter]; omega
  refine ⟨h1, h2, hl, ?_⟩
  have : 0 < p.marshalLen := by simp only [Filter.marshalLen]; omega
  rw [h3]
  obtain ⟨n, hn⟩ : ∃ n, p.marshalLen = n + 1 := ⟨p.marshalLen - 1, by omega⟩
  rw [hn]
  rfl

/-- **C97** for a packet filter: the spare bits of the first octet are cleared. -/
theorem C97_filter {b : Bytes} {p : Filter} (h : parseFilter b = ok p) :
    p.marshalTo (List.replicate p.marshalLen 0) = ok (clearSpare (b.take p.marshalLen)) := by
  obtain ⟨h1, -, h3, h4⟩ := filter_chunk h
  rw [(filter_writes h1).marshal h3, h4]

theorem getFilters_chunks (b : Bytes) : ∀ (n off : Nat) (ps : List Filter) (o : Nat), off ≤ b.length → getFilters b n off = ok (ps, o) →
    ∃ chunks : List Bytes, chunks.length = n ∧ off ≤ o ∧ seg b off o = chunks.flatten ∧ encFilters ps = (chunks.map clearSpare).flatten
  | 0, off, ps, o, _, h => by
    cases h
    exact ⟨[], rfl, Nat.le_refl _, by simp [seg], rfl⟩
  | n + 1, off, ps, o, hl, h => by
    unfold getFilters at h
    rw [sliceFrom_of_le hl, bind_ok] at h
    obtain ⟨p, hp, h⟩ := bind_eq_ok.1 h
    obtain ⟨⟨qs, o'⟩, hq, h⟩ := bind_eq_ok.1 h
    cases h
    obtain ⟨h1, h2, h3, h4⟩ := filter_chunk hp
    rw [List.length_drop] at h2
    obtain ⟨cs, c1, c2, c3, c4⟩ := getFilters_chunks b n _ _ _ (by omega) hq
    refine ⟨seg b off (off + p.marshalLen) :: cs, by simp [c1], by omega, ?_, ?_⟩
    · rw [List.flatten_cons, ← c3, seg_append (by omega) c2]
    · rw [show encFilters (p :: qs) = encFilter p ++ encFilters qs by simp [encFilters], c4, h4, List.map_cons, List.flatten_cons,
        seg, Nat.add_sub_cancel_left]

theorem tft_head_again (x : UInt8) (e : Nat) (he : e < 2) :
    tftHead (x >>> 5) e (x &&& 0xf).toNat = (x &&& 0xe0) ||| (if e = 1 then 0x10 else 0) ||| (x &&& 0x0f) ∧
    tftHead (x >>> 5) e 0 = (x &&& 0xe0) ||| (if e = 1 then 0x10 else 0) := by
  have key : ∀ x : UInt8, ∀ e : Fin 2,
      tftHead (x >>> 5) e (x &&& 0xf).toNat = (x &&& 0xe0) ||| (if e.val = 1 then 0x10 else 0) ||| (x &&& 0x0f) ∧
      tftHead (x >>> 5) e 0 = (x &&& 0xe0) ||| (if e.val = 1 then 0x10 else 0) :=
    forall_byte (p := fun x => ∀ e : Fin 2,
      tftHead (x >>> 5) e (x &&& 0xf).toNat = (x &&& 0xe0) ||| (if e.val = 1 then 0x10 else 0) ||| (x &&& 0x0f) ∧
      tftHead (x >>> 5) e 0 = (x &&& 0xe0) ||| (if e.val = 1 then 0x10 else 0)) (by decide +kernel)
  exact key x ⟨e, he⟩

/-- **C97** for the Traffic Flow Template (also the Traffic Aggregate Description), exact: the octets behind the first one are the
packet filters, then the filter identifiers and the parameters; all are given back, but for the spare bits of each packet filter.  Of
the first octet, the bit announcing parameters is set for an odd number of them only.
Missing: an even number of parameters, whose bit is lost. -/
theorem C97_tft_partial {x : UInt8} {r : Bytes} {f : TFT} (h : parseTFT (x :: r) = ok f) :
    ∃ (filters : List Bytes) (rest : Bytes), r = filters.flatten ++ rest ∧ filters.length = f.filters.length ∧
      f.marshal = ok (((x &&& 0xe0) ||| (if f.params.length % 2 = 1 then 0x10 else 0) |||
          (if f.op = 1 ∨ f.op = 3 ∨ f.op = 4 ∨ f.op = 5 then x &&& 0x0f else 0)) ::
        ((filters.map clearSpare).flatten ++ if x &&& 0x10 = 0 then rest.take f.ids.length else rest)) := by
  have hok := parseTFT_ok h
  rw [TFT.marshal, (tft_writes hok).marshal (tft_marshalLen f), tftOut]
  unfold parseTFT at h
  rw [if_neg (by simp), idx_zero, bind_ok] at h
  simp only [bind_ok] at h
  have ebit : ∀ x : UInt8, (((x >>> 4) &&& 1) == 1) = true ↔ ¬ (x &&& 0x10 = 0) :=
    forall_byte (p := fun x => (((x >>> 4) &&& 1) == 1) = true ↔ ¬ (x &&& 0x10 = 0)) (by decide +kernel)
  -- the parameters
  have fin : ∀ (f0 : TFT) (off : Nat), f0.params = [] → off ≤ (x :: r).length →
      (if (((x >>> 4) &&& 1) == 1) = true then do
        let s ← sliceFrom (x :: r) off
        let ps ← parseParams (s.length + 1) s
        ok { f0 with params := ps }
      else ok f0) = ok f →
      f.op = f0.op ∧ f.filters = f0.filters ∧ f.ids = f0.ids ∧
        encParams f.params = if x &&& 0x10 = 0 then [] else (x :: r).drop off := by
    intro f0 off k1 k2 h
    by_cases hx : x &&& 0x10 = 0
    · rw [if_neg (by rw [ebit]; exact fun h => h hx)] at h
      cases h
      exact ⟨rfl, rfl, rfl, by rw [k1, if_pos hx]; rfl⟩
    · rw [if_pos ((ebit x).2 hx), sliceFrom_of_le k2, bind_ok] at h
      obtain ⟨ps, hp, h⟩ := bind_eq_ok.1 h
      cases h
      obtain ⟨-, p1⟩ := parseParams_ok _ _ _ hp
      exact ⟨rfl, rfl, rfl, by rw [if_neg hx]; exact p1⟩
  have hd := tft_head_again x (f.params.length % 2) (by omega)
  by_cases hf : opFilters (x >>> 5) = true
  · rw [if_pos hf] at h
    obtain ⟨⟨ps, o⟩, hg, h⟩ := bind_eq_ok.1 h
    obtain ⟨-, g2, -, g4⟩ := getFilters_ok _ _ _ _ _ (by simp) hg
    obtain ⟨cs, c1, c2, c3, c4⟩ := getFilters_chunks _ _ _ _ _ (by simp) hg
    obtain ⟨q1, q2, q3, q4⟩ := fin _ _ rfl g4 h
    simp only [] at q1 q2 q3
    refine ⟨cs, (x :: r).drop o, ?_, ?_, ?_⟩
    · rw [← c3]
      have := List.take_append_drop (o - 1) r
      obtain ⟨k, rfl⟩ : ∃ k, o = k + 1 := ⟨o - 1, by omega⟩
      rw [seg_cons]
      exact this.symm
    · rw [c1, q2, g2]
    · have hop : f.op = 1 ∨ f.op = 3 ∨ f.op = 4 ∨ f.op = 5 := by
        rw [q1]
        simp [opFilters] at hf
        rcases hf with (h | h) | h <;> simp [h]
      rw [if_pos hop, q1, q2, q3, q4, g2, c4]
      simp only [List.length_nil, Nat.add_zero, List.append_nil]
      rw [hd.1]
      by_cases hx : x &&& 0x10 = 0 <;> simp [hx]
  · rw [if_neg hf] at h
    split at h
    · rename_i h5
      split at h
      · cases h
      rename_i hl
      obtain ⟨ids, hi, h⟩ := bind_eq_ok.1 h
      obtain ⟨-, l1, e0⟩ := slice_seg hi
      obtain ⟨q1, q2, q3, q4⟩ := fin _ _ rfl (by omega) h
      simp only [] at q1 q2 q3
      have e1 : ids.length = (x &&& 0xf).toNat := by rw [e0, seg_length l1]; omega
      refine ⟨[], r, rfl, by rw [q2]; rfl, ?_⟩
      have hop : f.op = 1 ∨ f.op = 3 ∨ f.op = 4 ∨ f.op = 5 := by rw [q1, h5]; simp
      rw [if_pos hop, q1, q2, q3, q4, e1]
      simp only [List.length_nil, Nat.zero_add]
      rw [hd.1]
      have e2 : ids = r.take (x &&& 0xf).toNat := by rw [e0, Nat.add_comm, seg_cons]
      by_cases hx : x &&& 0x10 = 0
      · simp [hx, encFilters, e2]
      · simp only [hx, if_false, encFilters, e2, Nat.add_comm 1, List.drop_succ_cons]
        simp [List.take_append_drop]
    · rename_i h5
      obtain ⟨q1, q2, q3, q4⟩ := fin _ _ rfl (by simp) h
      simp only [] at q1 q2 q3
      refine ⟨[], r, rfl, by rw [q2]; rfl, ?_⟩
      have hop : ¬ (f.op = 1 ∨ f.op = 3 ∨ f.op = 4 ∨ f.op = 5) := by
        rw [q1]
        obtain ⟨h1, h3, h4⟩ := tft_op_cases (Bool.eq_false_iff.2 hf)
        rintro (h | h | h | h)
        · exact h1 h
        · exact h3 h
        · exact h4 h
        · exact h5 h
      rw [if_neg hop, q1, q2, q3, q4]
      simp only [List.length_nil, Nat.zero_add]
      rw [hd.2]
      by_cases hx : x &&& 0x10 = 0 <;> simp [hx, encFilters]

/-- two parameters: the bit that announces them is lost, and so are they, when the octets are decoded a second time -/
theorem C97_tft_wrong : ∃ f, parseTFT [0xb0, 1, 1, 7, 2, 1, 8] = ok f ∧ f.params.length = 2 ∧
    f.marshal = ok [0xa0, 1, 1, 7, 2, 1, 8] ∧ ∃ f', parseTFT [0xa0, 1, 1, 7, 2, 1, 8] = ok f' ∧ f'.params = [] :=
  ⟨⟨5, [], [], [⟨1, 1, [7]⟩, ⟨2, 1, [8]⟩]⟩, by decide, by decide, by decide, ⟨5, [], [], []⟩, by decide, rfl⟩

example : parseTFT [0x31, 0xf1, 9, 2, 0x30, 17, 1, 1, 7] = ok ⟨1, [⟨3, 1, 9, 2, [⟨0x30, [17]⟩]⟩], [], [⟨1, 1, [7]⟩]⟩ ∧
    TFT.marshal ⟨1, [⟨3, 1, 9, 2, [⟨0x30, [17]⟩]⟩], [], [⟨1, 1, [7]⟩]⟩ = ok [0x31, 0x31, 9, 2, 0x30, 17, 1, 1, 7] := by decide

end Verif.V2

/-! ### cases that meet the hypotheses -/

namespace Verif.V2
open Res Utils NetIP Duration
example := C97_ambr (b := [0, 0, 1, 2, 0, 0, 3, 4, 9]) rfl
example := C97_bearerQoS (b := [0xff, 9, 0, 0, 0, 0, 1, 0, 0, 0, 0, 2, 0, 0, 0, 0, 3, 0, 0, 0, 0, 4]) rfl
example := C97_flowQoS (b := [9, 0, 0, 0, 0, 1, 0, 0, 0, 0, 2, 0, 0, 0, 0, 3, 0, 0, 0, 0, 4, 7]) rfl
example := C97_s1udf (x := 0xf5) (r := [4, 127, 0, 0, 1, 0, 0, 0, 9, 7]) rfl
example := C97_s103 (x := 4) (r := [127, 0, 0, 1, 0, 0, 0, 9, 2, 0x15, 0x26, 7]) rfl
example := C97_fteid (b := [0x8a, 0, 0, 0, 9, 127, 0, 0, 1, 7]) rfl
example := C97_paa (x := 0xf9) (r := [10, 0, 0, 1, 7]) rfl
example := C97_container (b := [0, 13, 2, 8, 9, 7]) rfl
example := C97_pco (x := 0x78) (r := [0, 13, 1, 8, 0, 16, 0]) rfl
example := C97_pco_v1 (x := 0x78) (r := [0, 13, 1, 8, 0, 16, 0]) rfl
example := C97_ppp_partial (b := [1, 2, 0, 5, 9, 7]) rfl
example := C97_pap (b := [1, 65, 2, 66, 67, 7]) rfl
example := C97_chap (b := [1, 65, 66, 67]) rfl
example := C97_ipcp_partial (b := [129, 6, 8, 8, 8, 8, 7]) rfl
example := C97_rannas (b := [0x12, 3, 4]) rfl
example := C97_throttling_partial (x := 0xe1) (y := 50) (r := []) rfl
example := C97_paging_wrong (x := 5) (y := 1) (r := [0x33]) rfl
example := C97_trace (b := [0x44, 0xf0, 0x01, 1, 2, 3, 7]) rfl
example := C97_uci (x0 := 0x44) (x1 := 0xf0) (x2 := 0x01) (x3 := 0xff) (x4 := 1) (x5 := 2) (x6 := 3) (x7 := 0xff) (r := []) rfl
example := C97_guti_wrong (x0 := 0x00) (x1 := 0xf1) (x2 := 0x10) (x3 := 0x12) (x4 := 0x34) (x5 := 0x56) (x6 := 0x78) (x7 := 0x9a) (x8 := 0xbc) (x9 := 0xde)
  (r := []) (spare := []) rfl
example := C97_csid (b := [0x02, 127, 0, 0, 1, 0, 8, 0, 9]) rfl
example := C97_uli (b := [0x18, 0x44, 0xf0, 0x01, 0, 1, 0x44, 0xf0, 0x01, 0xf1, 2, 3, 4, 7]) rfl
example := C97_comp (b := [0x30, 17, 7]) rfl
example := C97_param (b := [1, 2, 8, 9, 7]) rfl
example := C97_filter (b := [0xf1, 9, 2, 0x30, 17, 7]) rfl
example := C97_tft_partial (x := 0x31) (r := [0xf1, 9, 2, 0x30, 17, 1, 1, 7]) rfl
end Verif.V2
