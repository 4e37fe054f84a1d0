import Verif.Props.Typed.TFT
import Verif.Props.Typed.PCO
import Verif.Props.Typed.Plmn
import Verif.Props.Typed.Addr
import Verif.Props.Typed.QoS
import Verif.Props.Typed.Plain
import Verif.Model.Typed.Time
import Verif.Model.Typed.V1PCO
/-
Property theorem C79: the structures behind the composed elements serialise into any buffer that has room, and refuse the others.
-/
set_option linter.unusedSimpArgs false
namespace Verif
open Res

/-- an error -/
def Fails {α : Type} (r : Res α) : Prop := ∃ e, r = err e

/-- `mto` serialises into a buffer of the caller: a buffer of fewer than `n` octets is an error, any other buffer gets the octets
`mar` gives (`n` of them) at its start and keeps what it holds behind them -/
structure Into (n : Nat) (mar : Res Bytes) (mto : Bytes → Res Bytes) : Prop where
  short : ∀ b : Bytes, b.length < n → Fails (mto b)
  fits : ∃ s : Bytes, s.length = n ∧ mar = ok s ∧ ∀ b : Bytes, n ≤ b.length → mto b = ok (s ++ b.drop n)

/-- the second half alone -/
def Fits (n : Nat) (mar : Res Bytes) (mto : Bytes → Res Bytes) : Prop :=
  ∃ s : Bytes, s.length = n ∧ mar = ok s ∧ ∀ b : Bytes, n ≤ b.length → mto b = ok (s ++ b.drop n)

theorem fits_of {mto : Bytes → Res Bytes} {out : Bytes} {n : Nat} (h : Writes mto out) (hn : out.length = n) :
    Fits n (mto (List.replicate n 0)) mto :=
  ⟨out, hn, h.marshal hn.symm, fun b hb => by rw [h b (by omega), hn]⟩

theorem into_of {mto : Bytes → Res Bytes} {out : Bytes} {n : Nat} (h : Writes mto out) (hn : out.length = n)
    (hs : ∀ b : Bytes, b.length < n → Fails (mto b)) : Into n (mto (List.replicate n 0)) mto := ⟨hs, fits_of h hn⟩

theorem fails_err {α : Type} (e : Err) : Fails (err e : Res α) := ⟨e, rfl⟩
theorem fails_bind_setAt {β : Type} {b : Bytes} {i : Nat} {x : UInt8} {f : Bytes → Res β} (h : i < b.length)
    (hf : ∀ b' : Bytes, b'.length = b.length → Fails (f b')) : Fails (setAt b i x >>= f) := by
  rw [setAt_of_lt h]; exact hf _ (by simp)
theorem fails_bind_copyAt {β : Type} {b : Bytes} {lo hi : Nat} {src : Bytes} {f : Bytes → Res β} (h1 : lo ≤ hi)
    (h2 : hi ≤ b.length) (hf : ∀ b' : Bytes, b'.length = b.length → Fails (f b')) :
    Fails (copyAt b lo hi src >>= f) := by
  obtain ⟨b', h, hl⟩ := copyAt_len_ok h1 h2 src
  rw [h]; exact hf _ hl

theorem fails_bind_idx {β : Type} {b : Bytes} {i : Nat} {f : UInt8 → Res β} (h : i < b.length) (hf : ∀ x, Fails (f x)) :
    Fails (idx b i >>= f) := by rw [idx_of_lt h]; exact hf _

/-- prove that a writer fails on a buffer that is too short: bounds by `omega`, branches by `split` -/
macro "flr" : tactic => `(tactic| (repeat' first
  | with_reducible exact fails_err _
  | (exfalso; omega)
  | simp only [bind_ok, bind_err, bind_assoc']
  | (with_reducible refine fails_bind_idx (by omega) (fun _ => ?_))
  | (with_reducible refine fails_bind_setAt (by omega) (fun _ _ => ?_))
  | (with_reducible refine fails_bind_copyAt (by omega) (by omega) (fun _ _ => ?_))
  | split))

macro "lenw" : tactic => `(tactic| first
  | rfl | omega | (simp [-Nat.lt_one_iff, -List.length_eq_zero_iff]; done)
  | (simp [-Nat.lt_one_iff, -List.length_eq_zero_iff]; omega) | len)

/-- run a writer behind a prefix -/
macro "wr" : tactic => `(tactic| (repeat first
  | simp only [bind_ok]
  | rw [if_neg (by lenw)]
  | rw [setAt_append (by lenw) (by lenw)]
  | rw [copyAt_append (by lenw) (by lenw) (by lenw)]
  | rw [V2.copyFrom_append (by lenw) (by lenw)]))

end Verif

namespace Verif.V2
open Res Utils NetIP

theorem len16 (n : UInt16) : (be16 n).length = 2 := rfl
theorem len32 (n : UInt32) : (be32 n).length = 4 := rfl
theorem uint64To40_length (n : UInt64) : (uint64To40 n).length = 5 := rfl
theorem uint32To24_length (n : UInt32) : (uint32To24 n).length = 3 := rfl

/-! ### elements with a PLMN -/

theorem C79_trace {mcc mnc : Bytes} (h : IsPLMN mcc mnc) (id : UInt32) :
    Into 6 (Trace.marshalTo ⟨mcc, mnc, id⟩ (List.replicate 6 0)) (Trace.marshalTo ⟨mcc, mnc, id⟩) := by
  obtain ⟨h1, h2, -⟩ := plmn_facts h
  refine into_of (out := encPLMN mcc mnc ++ uint32To24 id) ?_ (by simp [h2, uint32To24_length]) ?_
  · intro z hz
    simp only [List.length_append, h2, uint32To24_length] at hz
    rw [← List.nil_append z]
    simp only [Trace.marshalTo, h1, bind_ok]
    have := uint32To24_length id
    wr
    simp [h2, uint32To24_length]
  · intro b hb
    simp only [Trace.marshalTo, h1, bind_ok]
    flr

theorem C79_uci {mcc mnc : Bytes} (h : IsPLMN mcc mnc) (csg : UInt32) (mode flags : UInt8) :
    Into 8 (UCI.marshalTo ⟨mcc, mnc, csg, mode, flags⟩ (List.replicate 8 0)) (UCI.marshalTo ⟨mcc, mnc, csg, mode, flags⟩) := by
  obtain ⟨h1, h2, -⟩ := plmn_facts h
  refine into_of (out := encPLMN mcc mnc ++ be32 (csg &&& 0x7ffffff) ++ [((mode &&& (0x03 : UInt8)) <<< 6) ||| flags]) ?_
    (by simp [h2]) ?_
  · intro z hz
    simp only [List.length_append, h2, List.length_cons, List.length_nil, len32] at hz
    rw [← List.nil_append z]
    simp only [UCI.marshalTo, h1, bind_ok]
    wr
    simp [h2]
  · intro b hb
    simp only [UCI.marshalTo, h1, bind_ok]
    flr

theorem C79_guti {mcc mnc : Bytes} (h : IsPLMN mcc mnc) (group : UInt16) (code : UInt8) (mtmsi : UInt32) :
    Into 10 (GUTI.marshalTo ⟨mcc, mnc, group, code, mtmsi⟩ (List.replicate 10 0))
      (GUTI.marshalTo ⟨mcc, mnc, group, code, mtmsi⟩) := by
  obtain ⟨h1, h2, -⟩ := plmn_facts h
  refine into_of (out := encPLMN mcc mnc ++ be16 group ++ [code] ++ be32 mtmsi) ?_ (by simp [h2]) ?_
  · intro z hz
    simp only [List.length_append, h2, List.length_cons, List.length_nil, len32, len16] at hz
    rw [← List.nil_append z]
    simp only [GUTI.marshalTo, h1, bind_ok]
    wr
    simp [h2]
  · intro b hb
    simp only [GUTI.marshalTo, h1, bind_ok]
    flr

/-! ### fixed layouts -/

theorem C79_ambr (f : AMBR) : Into 8 f.marshal f.marshalTo := by
  refine into_of (out := be32 f.up ++ be32 f.down) ?_ (by simp) ?_
  · intro z hz
    simp only [List.length_append, len32] at hz
    rw [← List.nil_append z]
    simp only [AMBR.marshalTo]
    wr
    simp
  · intro b hb
    simp only [AMBR.marshalTo]
    flr

theorem C79_bearer_qos (f : BearerQoS) : Into 22 f.marshal f.marshalTo := by
  refine into_of (out := [f.arp, f.qci] ++ uint64To40 f.mbrUp ++ uint64To40 f.mbrDown ++ uint64To40 f.gbrUp ++
    uint64To40 f.gbrDown) ?_ (by simp [uint64To40_length]) ?_
  · intro z hz
    have l1 := uint64To40_length f.mbrUp
    have l2 := uint64To40_length f.mbrDown
    have l3 := uint64To40_length f.gbrUp
    have l4 := uint64To40_length f.gbrDown
    simp only [List.length_append, List.length_cons, List.length_nil, uint64To40_length] at hz
    rw [← List.nil_append z]
    simp only [BearerQoS.marshalTo]
    wr
    simp [uint64To40_length]
  · intro b hb
    simp only [BearerQoS.marshalTo]
    flr

theorem C79_flow_qos (f : FlowQoS) : Into 21 f.marshal f.marshalTo := by
  refine into_of (out := [f.qci] ++ uint64To40 f.mbrUp ++ uint64To40 f.mbrDown ++ uint64To40 f.gbrUp ++
    uint64To40 f.gbrDown) ?_ (by simp [uint64To40_length]) ?_
  · intro z hz
    have l1 := uint64To40_length f.mbrUp
    have l2 := uint64To40_length f.mbrDown
    have l3 := uint64To40_length f.gbrUp
    have l4 := uint64To40_length f.gbrDown
    simp only [List.length_append, List.length_cons, List.length_nil, uint64To40_length] at hz
    rw [← List.nil_append z]
    simp only [FlowQoS.marshalTo]
    wr
    simp [uint64To40_length]
  · intro b hb
    simp only [FlowQoS.marshalTo]
    flr

theorem C79_throttling (f : Throttling) : Into 2 (f.marshalTo (List.replicate 2 0)) f.marshalTo := by
  refine into_of (out := [((f.unit <<< 5) &&& (0xe0 : UInt8)) ||| (f.value &&& (0x1f : UInt8)), f.factor]) ?_ (by simp) ?_
  · intro z hz
    simp only [List.length_cons, List.length_nil] at hz
    rw [← List.nil_append z]
    simp only [Throttling.marshalTo]
    wr
    simp
  · intro b hb
    simp only [Throttling.marshalTo]
    flr

theorem C79_ran_nas (f : RANNAS) : Into (1 + f.cause.length) f.marshal f.marshalTo := by
  refine into_of (out := [((f.proto &&& (0x0f : UInt8)) <<< 4) ||| (f.ctype &&& (0x0f : UInt8))] ++ f.cause) ?_
    (by simp; omega) ?_
  · intro z hz
    simp only [List.length_append, List.length_cons, List.length_nil] at hz
    rw [← List.nil_append z]
    simp only [RANNAS.marshalTo]
    wr
    simp
  · intro b hb
    simp only [RANNAS.marshalTo]
    flr

theorem C79_paging (f : Paging) : Into f.marshalLen f.marshal f.marshalTo := by
  refine into_of (out := [f.ebi &&& 0x0f, f.flags] ++ if has1stBit f.flags then [f.ppi &&& 0x7f] else []) ?_
    (by simp only [Paging.marshalLen]; split <;> simp) ?_
  · intro z hz
    by_cases h : has1stBit f.flags
    · simp only [h, if_true, List.length_append, List.length_cons, List.length_nil] at hz
      rw [← List.nil_append z]
      simp only [Paging.marshalTo, h, if_true]
      wr
      simp
    · simp only [h, if_false, List.length_append, List.length_cons, List.length_nil] at hz
      rw [← List.nil_append z]
      simp only [Paging.marshalTo, h, if_false]
      wr
      simp
  · intro b hb
    simp only [Paging.marshalLen] at hb
    simp only [Paging.marshalTo]
    by_cases h : has1stBit f.flags <;> simp only [h, if_true, Bool.false_eq_true, if_false] at hb ⊢ <;> flr

/-! ### addresses -/

theorem nlt {l a b : Nat} (h : b ≤ a) : (l + a < b) = False := by simp; omega

theorem pop4 {z : Bytes} (h : 4 ≤ z.length) : ∃ a b c d w, z = a :: b :: c :: d :: w := by
  match z, h with
  | a :: b :: c :: d :: w, _ => exact ⟨a, b, c, d, w, rfl⟩

theorem pop5 {z : Bytes} (h : 5 ≤ z.length) : ∃ a b c d e w, z = a :: b :: c :: d :: e :: w := by
  match z, h with
  | a :: b :: c :: d :: e :: w, _ => exact ⟨a, b, c, d, e, w, rfl⟩

theorem pop16 {z : Bytes} (h : 16 ≤ z.length) : ∃ a b c d e f g h i j k l m n o p w,
    z = a :: b :: c :: d :: e :: f :: g :: h :: i :: j :: k :: l :: m :: n :: o :: p :: w := by
  match z, h with
  | a :: b :: c :: d :: e :: f :: g :: h :: i :: j :: k :: l :: m :: n :: o :: p :: w, _ =>
    exact ⟨a, b, c, d, e, f, g, h, i, j, k, l, m, n, o, p, w, rfl⟩

theorem C79_fteid (ifType : UInt8) (teid : UInt32) (a4 a6 : Bytes) :
    Into (newFTEIDFields ifType teid a4 a6).marshalLen (newFTEIDFields ifType teid a4 a6).marshal
      (newFTEIDFields ifType teid a4 a6).marshalTo := by
  obtain ⟨p, q, r, s, hb, -⟩ := be32_cases teid
  rcases h4 : to4 a4 with _ | v4 <;> rcases h6 : to16 a6 with _ | v6
  · simp only [newFTEIDFields, h4, h6]
    refine into_of (out := [ifType, p, q, r, s]) ?_ (by simp [FTEID.marshalLen, hasBits]) ?_
    · intro z hz
      obtain ⟨x0, x1, x2, x3, x4, z, rfl⟩ := pop5 hz
      simp [FTEID.marshalTo, FTEID.putV4, FTEID.putV6, hb, setAt, copyAt]
    · intro b hb'
      simp [FTEID.marshalLen, hasBits] at hb'
      simp only [FTEID.marshalTo, FTEID.putV4, FTEID.putV6, to4_4,
        to16_16 (v := [_, _, _, _, _, _, _, _, _, _, _, _, _, _, _, _]) rfl]
      flr
  · obtain ⟨v0, v1, v2, v3, v4, v5, v6, v7, v8, v9, v10, v11, v12, v13, v14, v15, rfl⟩ := to16_some h6
    simp only [newFTEIDFields, h4, h6]
    refine into_of (out := [ifType ||| 0x40, p, q, r, s, v0, v1, v2, v3, v4, v5, v6, v7, v8, v9, v10, v11, v12, v13, v14, v15]) ?_
      (by simp [FTEID.marshalLen, hasBits]) ?_
    · intro z hz
      obtain ⟨x0, x1, x2, x3, x4, z, rfl⟩ := pop5 (z := z) (by simp at hz ⊢; omega)
      obtain ⟨_, _, _, _, _, _, _, _, _, _, _, _, _, _, _, _, z, rfl⟩ := pop16 (z := z) (by simp at hz ⊢; omega)
      simp [FTEID.marshalTo, FTEID.putV4, FTEID.putV6, Nat.add_assoc, nlt, hb, setAt, copyAt, to16_16 (v := [_, _, _, _, _, _, _, _, _, _, _, _, _, _, _, _]) rfl]
    · intro b hb'
      simp [FTEID.marshalLen, hasBits] at hb'
      simp only [FTEID.marshalTo, FTEID.putV4, FTEID.putV6, to4_4,
        to16_16 (v := [_, _, _, _, _, _, _, _, _, _, _, _, _, _, _, _]) rfl]
      flr
  · obtain ⟨w0, w1, w2, w3, rfl⟩ := to4_some h4
    simp only [newFTEIDFields, h4, h6]
    refine into_of (out := [ifType ||| 0x80, p, q, r, s, w0, w1, w2, w3]) ?_ (by simp [FTEID.marshalLen, hasBits]) ?_
    · intro z hz
      obtain ⟨x0, x1, x2, x3, x4, z, rfl⟩ := pop5 (z := z) (by simp at hz ⊢; omega)
      obtain ⟨_, _, _, _, z, rfl⟩ := pop4 (z := z) (by simp at hz ⊢; omega)
      simp [FTEID.marshalTo, FTEID.putV4, FTEID.putV6, Nat.add_assoc, nlt, hb, setAt, copyAt, to4_4]
    · intro b hb'
      simp [FTEID.marshalLen, hasBits] at hb'
      simp only [FTEID.marshalTo, FTEID.putV4, FTEID.putV6, to4_4,
        to16_16 (v := [_, _, _, _, _, _, _, _, _, _, _, _, _, _, _, _]) rfl]
      flr
  · obtain ⟨w0, w1, w2, w3, rfl⟩ := to4_some h4
    obtain ⟨v0, v1, v2, v3, v4, v5, v6, v7, v8, v9, v10, v11, v12, v13, v14, v15, rfl⟩ := to16_some h6
    simp only [newFTEIDFields, h4, h6]
    refine into_of (out := [ifType ||| 0x80 ||| 0x40, p, q, r, s, w0, w1, w2, w3,
      v0, v1, v2, v3, v4, v5, v6, v7, v8, v9, v10, v11, v12, v13, v14, v15]) ?_ (by simp [FTEID.marshalLen, hasBits, bitOr]) ?_
    · intro z hz
      obtain ⟨x0, x1, x2, x3, x4, z, rfl⟩ := pop5 (z := z) (by simp at hz ⊢; omega)
      obtain ⟨_, _, _, _, z, rfl⟩ := pop4 (z := z) (by simp at hz ⊢; omega)
      obtain ⟨_, _, _, _, _, _, _, _, _, _, _, _, _, _, _, _, z, rfl⟩ := pop16 (z := z) (by simp at hz ⊢; omega)
      simp [FTEID.marshalTo, FTEID.putV4, FTEID.putV6, Nat.add_assoc, nlt, hb, setAt, copyAt, to4_4, to16_16 (v := [_, _, _, _, _, _, _, _, _, _, _, _, _, _, _, _]) rfl]
    · intro b hb'
      simp [FTEID.marshalLen, hasBits, bitOr] at hb'
      simp only [FTEID.marshalTo, FTEID.putV4, FTEID.putV6, to4_4,
        to16_16 (v := [_, _, _, _, _, _, _, _, _, _, _, _, _, _, _, _]) rfl]
      flr

/-- PDN address allocation with the addresses its type asks for -/
theorem C79_paa (f : PAA) (h4 : f.pdnType = 1 ∨ f.pdnType = 3 → ∃ v, to4 f.v4 = some v)
    (h6 : f.pdnType = 2 ∨ f.pdnType = 3 → ∃ v, to16 f.v6 = some v) : Into f.marshalLen f.marshal f.marshalTo := by
  obtain ⟨t, a4, n, a6⟩ := f
  by_cases t1 : t = 1
  · subst t1
    obtain ⟨v, hv⟩ := h4 (by simp)
    obtain ⟨w0, w1, w2, w3, rfl⟩ := to4_some hv
    refine into_of (out := [1 &&& 0x07, w0, w1, w2, w3]) ?_ (by simp [PAA.marshalLen]) ?_
    · intro z hz
      simp only [List.length_cons, List.length_nil] at hz
      rw [← List.nil_append z]
      simp only [PAA.marshalTo, hv, ofOpt, if_true]
      wr
      simp
    · intro b hb
      simp [PAA.marshalLen] at hb
      simp only [PAA.marshalTo]
      flr
      simp at *
  · by_cases t2 : t = 2
    · subst t2
      obtain ⟨v, hv⟩ := h6 (by simp)
      have hl : v.length = 16 := by
        obtain ⟨_, _, _, _, _, _, _, _, _, _, _, _, _, _, _, _, rfl⟩ := to16_some hv; rfl
      refine into_of (out := [2 &&& 0x07, n] ++ v) ?_ (by simp [PAA.marshalLen, hl]) ?_
      · intro z hz
        simp only [List.length_append, List.length_cons, List.length_nil, hl] at hz
        rw [← List.nil_append z]
        simp only [PAA.marshalTo, hv, ofOpt, if_true, t1, if_false]
        wr
        simp [hl]
      · intro b hb
        simp [PAA.marshalLen] at hb
        simp only [PAA.marshalTo]
        flr
        simp at *
    · by_cases t3 : t = 3
      · subst t3
        obtain ⟨v, hv⟩ := h6 (by simp)
        obtain ⟨w, hw⟩ := h4 (by simp)
        have hl : v.length = 16 := by
          obtain ⟨_, _, _, _, _, _, _, _, _, _, _, _, _, _, _, _, rfl⟩ := to16_some hv; rfl
        have hl' : w.length = 4 := by
          obtain ⟨_, _, _, _, rfl⟩ := to4_some hw; rfl
        refine into_of (out := [3 &&& 0x07, n] ++ v ++ w) ?_ (by simp [PAA.marshalLen, hl, hl']) ?_
        · intro z hz
          simp only [List.length_append, List.length_cons, List.length_nil, hl, hl'] at hz
          rw [← List.nil_append z]
          simp only [PAA.marshalTo, hv, hw, ofOpt, if_true, t1, t2, if_false]
          wr
          simp [hl, hl']
        · intro b hb
          simp [PAA.marshalLen] at hb
          simp only [PAA.marshalTo]
          flr <;> simp at *
      · refine into_of (out := [t &&& 0x07]) ?_ (by simp [PAA.marshalLen, t1, t2, t3]) ?_
        · intro z hz
          simp only [List.length_append, List.length_cons, List.length_nil] at hz
          rw [← List.nil_append z]
          simp only [PAA.marshalTo, ofOpt, t1, t2, t3, if_false]
          wr
          simp
        · intro b hb
          simp [PAA.marshalLen, t1, t2, t3, -Nat.lt_one_iff] at hb
          simp only [PAA.marshalTo]
          flr

/-- S1-U data forwarding, the address as long as announced -/
theorem C79_s1udf (f : S1UDF) (h : f.addr.length = f.addrLen.toNat) : Into f.marshalLen f.marshal f.marshalTo := by
  refine into_of (out := [f.ebi &&& 0x0f, f.addrLen] ++ f.addr ++ be32 f.teid) ?_ (by simp [S1UDF.marshalLen, h]; omega) ?_
  · intro z hz
    simp only [List.length_append, List.length_cons, List.length_nil, len32] at hz
    rw [← List.nil_append z]
    simp only [S1UDF.marshalTo]
    wr
    simp
    rw [show 2 + f.addr.length + 4 = f.addr.length + 4 + 1 + 1 by omega]
  · intro b hb
    simp only [S1UDF.marshalLen] at hb
    simp only [S1UDF.marshalTo]
    flr

theorem putEBIs_writes : ∀ (es pre z : Bytes) (off : Nat), off = pre.length → es.length ≤ z.length →
    putEBIs es off (pre ++ z) = ok (pre ++ es.map (· &&& 0x0f) ++ z.drop es.length)
  | [], pre, z, off, _, _ => by simp [putEBIs]
  | e :: es, pre, z, off, ho, hz => by
    simp only [List.length_cons] at hz
    rw [putEBIs, setAt_append ho (by omega)]
    simp only [bind_ok]
    rw [putEBIs_writes es _ _ _ (by simp [ho]) (by simp; omega)]
    simp [List.drop_drop, Nat.add_comm]

/-- S103 PDN data forwarding, address and bearer IDs as many as announced.  Missing: a buffer that ends right before the count of
bearer IDs makes the code panic. -/
theorem C79_s103_partial (f : S103) (h : f.addr.length = f.addrLen.toNat) (he : f.ebis.length = f.ebiNum.toNat) :
    Fits f.marshalLen f.marshal f.marshalTo ∧
    ∀ b : Bytes, b.length < f.marshalLen →
      if b.length = 1 + f.addr.length + 4 then f.marshalTo b = .panic else Fails (f.marshalTo b) := by
  constructor
  · refine fits_of (out := [f.addrLen] ++ f.addr ++ be32 f.greKey ++ [f.ebiNum] ++ f.ebis.map (· &&& 0x0f)) ?_
      (by simp [S103.marshalLen, h, he]; omega)
    intro z hz
    simp only [List.length_append, List.length_cons, List.length_nil, len32, List.length_map] at hz
    rw [← List.nil_append z]
    simp only [S103.marshalTo]
    wr
    rw [putEBIs_writes _ _ _ _ (by lenw) (by lenw)]
    simp [Nat.add_comm, Nat.add_left_comm]
    congr 1
    omega
  · intro b hb
    simp only [S103.marshalLen] at hb
    by_cases hl : b.length = 1 + f.addr.length + 4
    · rw [if_pos hl]
      simp only [S103.marshalTo]
      rw [← List.nil_append b] at hl ⊢
      simp only [List.nil_append] at hl
      wr
      simp only [setAt]
      rw [if_neg (by simp; omega)]
      rfl
    · rw [if_neg hl]
      simp only [S103.marshalTo]
      flr

/-! ### user location -/

/-- one part of `n` octets -/
def StepN (n : Nat) (w : Bytes → Nat → Res (Bytes × Nat)) : Prop :=
  ∀ (b : Bytes) (off : Nat), off ≤ b.length → (b.length < off + n → Fails (w b off)) ∧
    (off + n ≤ b.length → ∃ b', w b off = ok (b', off + n) ∧ b'.length = b.length)

theorem fails_step {β : Type} {n : Nat} {w : Bytes → Nat → Res (Bytes × Nat)} (h : StepN n w) {b : Bytes} {off : Nat}
    {k : Bytes × Nat → Res β} (ho : off ≤ b.length)
    (hk : ∀ b' : Bytes, b'.length = b.length → off + n ≤ b.length → Fails (k (b', off + n))) : Fails (w b off >>= k) := by
  by_cases hl : b.length < off + n
  · obtain ⟨e, he⟩ := (h b off ho).1 hl
    rw [he]; exact ⟨e, rfl⟩
  · obtain ⟨b', e1, e2⟩ := (h b off ho).2 (by omega)
    rw [e1]; exact hk b' e2 (by omega)

theorem stepN_of {s : Bytes} {w : Bytes → Nat → Res (Bytes × Nat)}
    (hs : ∀ (b : Bytes) (off : Nat), s ≠ [] → b.length < off + s.length → Fails (w b off))
    (hp : ∀ (pre z : Bytes) (off : Nat), off = pre.length → s.length ≤ z.length →
      w (pre ++ z) off = ok (pre ++ s ++ z.drop s.length, off + s.length)) : StepN s.length w := by
  intro b off ho
  constructor
  · intro h
    exact hs b off (by rintro rfl; simp at h; omega) h
  · intro h
    have := hp (b.take off) (b.drop off) off (by simp; omega) (by simp; omega)
    rw [List.take_append_drop] at this
    exact ⟨_, this, by simp; omega⟩

theorem step_area {x : Option Area} (hx : AreaOK x) : StepN (encOpt encArea x).length (putArea x.isSome x) := by
  refine stepN_of ?_ (fun pre z off ho hz => putArea_eq hx ho hz)
  intro b off hs h
  cases x with
  | none => simp [encOpt] at hs
  | some a =>
    obtain ⟨h1, h2, -⟩ := plmn_facts (hx a rfl)
    have hl : (encOpt encArea (some a)).length = 7 := by simp [encOpt, encArea, h2]
    rw [hl] at h
    simp only [putArea, Option.isSome, if_true]
    rw [if_pos h]; exact fails_err _

theorem step_loc {x : Option Loc} (hx : LocOK x) : StepN (encOpt encLoc x).length (putLoc x.isSome x) := by
  refine stepN_of ?_ (fun pre z off ho hz => putLoc_eq hx ho hz)
  intro b off hs h
  cases x with
  | none => simp [encOpt] at hs
  | some a =>
    obtain ⟨h1, h2, -⟩ := plmn_facts (hx a rfl)
    have hl : (encOpt encLoc (some a)).length = 5 := by simp [encOpt, encLoc, h2]
    rw [hl] at h
    simp only [putLoc, Option.isSome, if_true]
    rw [if_pos h]; exact fails_err _

theorem step_ecgi {k : Nat} {x : Option Node} (hx : NodeOK k x) : StepN (encOpt encECGI x).length (putECGI x.isSome x) := by
  refine stepN_of ?_ (fun pre z off ho hz => putECGI_eq hx ho hz)
  intro b off hs h
  cases x with
  | none => simp [encOpt] at hs
  | some a =>
    obtain ⟨h1, h2, -⟩ := plmn_facts (hx a rfl).1
    have hl : (encOpt encECGI (some a)).length = 7 := by simp [encOpt, encECGI, h2]
    rw [hl] at h
    simp only [putECGI, Option.isSome, if_true]
    rw [if_pos h]; exact fails_err _

theorem step_enb {k : Nat} {x : Option Node} (hx : NodeOK k x) : StepN (encOpt encENB x).length (putENB x.isSome x) := by
  refine stepN_of ?_ (fun pre z off ho hz => putENB_eq hx ho hz)
  intro b off hs h
  cases x with
  | none => simp [encOpt] at hs
  | some a =>
    obtain ⟨h1, h2, -⟩ := plmn_facts (hx a rfl).1
    have hl : (encOpt encENB (some a)).length = 6 := by simp [encOpt, encENB, h2]
    rw [hl] at h
    simp only [putENB, Option.isSome, if_true]
    rw [if_pos h]; exact fails_err _

/-- user location information with any combination of locations, every PLMN valid -/
theorem C79_uli {cgi sai rai : Option Area} {tai : Option Loc} {ecgi : Option Node} {lai : Option Loc}
    {menbi emenbi : Option Node} (h1 : AreaOK cgi) (h2 : AreaOK sai) (h3 : AreaOK rai) (h4 : LocOK tai) (h5 : NodeOK 32 ecgi)
    (h6 : LocOK lai) (h7 : NodeOK 32 menbi) (h8 : NodeOK 32 emenbi) :
    Into (newULIFields cgi sai rai tai ecgi lai menbi emenbi).marshalLen
      (newULIFields cgi sai rai tai ecgi lai menbi emenbi).marshal
      (newULIFields cgi sai rai tai ecgi lai menbi emenbi).marshalTo := by
  have hlen : (encULI cgi sai rai tai ecgi lai menbi emenbi).length =
      (newULIFields cgi sai rai tai ecgi lai menbi emenbi).marshalLen := by
    rw [newULIFields_flags]
    obtain ⟨b1, b2, b3, b4, b5, b6, b7, b8⟩ := uliFlags_bits cgi.isSome sai.isSome rai.isSome tai.isSome ecgi.isSome lai.isSome
      menbi.isSome emenbi.isSome
    simp only [ULI.marshalLen, b1, b2, b3, b4, b5, b6, b7, b8, encULI, List.length_append, List.length_singleton, len_area h1,
      len_area h2, len_area h3, len_loc h4, len_ecgi h5, len_loc h6, len_enb h7, len_enb h8]
  refine into_of (out := encULI cgi sai rai tai ecgi lai menbi emenbi) ?_ hlen ?_
  · clear hlen
    intro z hl
    rw [newULIFields_flags]
    obtain ⟨b1, b2, b3, b4, b5, b6, b7, b8⟩ := uliFlags_bits cgi.isSome sai.isSome rai.isSome tai.isSome ecgi.isSome lai.isSome
      menbi.isSome emenbi.isSome
    unfold encULI at hl ⊢
    generalize uliFlags cgi.isSome sai.isSome rai.isSome tai.isSome ecgi.isSome lai.isSome menbi.isSome emenbi.isSome = fl at *
    simp only [List.length_append, List.length_singleton] at hl
    unfold ULI.marshalTo
    simp only [b1, b2, b3, b4, b5, b6, b7, b8]
    rw [if_neg (by omega), show z = [] ++ z by rfl, setAt_append (by rfl) (by omega)]
    simp only [bind_ok, List.nil_append]
    rw [putArea_eq h1 (by rfl) (by simp; omega)]
    simp only [bind_ok]
    rw [putArea_eq h2 (by simp; omega) (by simp; omega)]
    simp only [bind_ok]
    rw [putArea_eq h3 (by simp; omega) (by simp; omega)]
    simp only [bind_ok]
    rw [putLoc_eq h4 (by simp; omega) (by simp; omega)]
    simp only [bind_ok]
    rw [putECGI_eq h5 (by simp; omega) (by simp; omega)]
    simp only [bind_ok]
    rw [putLoc_eq h6 (by simp; omega) (by simp; omega)]
    simp only [bind_ok]
    rw [putENB_eq h7 (by simp; omega) (by simp; omega)]
    simp only [bind_ok]
    rw [putENB_eq h8 (by simp; omega) (by simp; omega)]
    simp only [bind_ok, ok.injEq, List.drop_drop, List.length_append, List.length_singleton]
  · intro b hb
    rw [← hlen] at hb
    clear hlen
    rw [newULIFields_flags]
    obtain ⟨b1, b2, b3, b4, b5, b6, b7, b8⟩ := uliFlags_bits cgi.isSome sai.isSome rai.isSome tai.isSome ecgi.isSome lai.isSome
      menbi.isSome emenbi.isSome
    unfold encULI at hb
    generalize uliFlags cgi.isSome sai.isSome rai.isSome tai.isSome ecgi.isSome lai.isSome menbi.isSome emenbi.isSome = fl at *
    simp only [List.length_append, List.length_singleton] at hb
    unfold ULI.marshalTo
    simp only [b1, b2, b3, b4, b5, b6, b7, b8]
    split
    · exact fails_err _
    · refine fails_bind_setAt (by omega) (fun b0 e0 => ?_)
      refine fails_step (step_area h1) (by omega) (fun b1 e1 l1 => ?_)
      refine fails_step (step_area h2) (by simp only; omega) (fun b2 e2 l2 => ?_)
      refine fails_step (step_area h3) (by simp only at *; omega) (fun b3 e3 l3 => ?_)
      refine fails_step (step_loc h4) (by simp only at *; omega) (fun b4 e4 l4 => ?_)
      refine fails_step (step_ecgi h5) (by simp only at *; omega) (fun b5 e5 l5 => ?_)
      refine fails_step (step_loc h6) (by simp only at *; omega) (fun b6 e6 l6 => ?_)
      refine fails_step (step_enb h7) (by simp only at *; omega) (fun b7 e7 l7 => ?_)
      refine fails_step (step_enb h8) (by simp only at *; omega) (fun b8 e8 l8 => ?_)
      simp only at *
      omega

/-! ### connection set identifiers -/

theorem putCSIDs_writes : ∀ (ids : List UInt16) (pre z : Bytes) (off : Nat), off = pre.length → ids.length * 2 ≤ z.length →
    putCSIDs ids off (pre ++ z) = ok (pre ++ ids.flatMap be16 ++ z.drop (ids.length * 2))
  | [], pre, z, off, _, _ => by simp [putCSIDs]
  | x :: xs, pre, z, off, ho, hz => by
    simp only [List.length_cons] at hz
    rw [putCSIDs, if_neg (by simp; omega), copyAt_append ho (by simp) (by simp; omega)]
    simp only [bind_ok]
    rw [putCSIDs_writes xs _ _ _ (by simp [ho]) (by simp; omega)]
    simp only [List.flatMap_cons, List.append_assoc, List.drop_drop, List.length_cons, len16]
    rw [show 2 + xs.length * 2 = (xs.length + 1) * 2 by omega]

/-- fully qualified CSID.  Missing: a buffer that ends within the CSIDs is filled without an error (`C79_csid_wrong`). -/
theorem C79_csid_partial (f : CSID) (hk : f.kind < 3) (hn : f.node.length = if f.kind = 1 then 16 else 4) :
    Fits f.marshalLen (f.marshalTo (List.replicate f.marshalLen 0)) f.marshalTo ∧
    ∀ b : Bytes, b.length < 1 + f.node.length → Fails (f.marshalTo b) := by
  have hl : f.marshalLen = 1 + f.node.length + f.ids.length * 2 := by
    have e : f.kind < 3 ↔ f.kind.toNat < 3 := Iff.rfl
    have : f.kind = 0 ∨ f.kind = 1 ∨ f.kind = 2 := by
      rw [e] at hk
      rcases (by omega : f.kind.toNat = 0 ∨ f.kind.toNat = 1 ∨ f.kind.toNat = 2) with h | h | h
      · exact .inl (UInt8.toNat_inj.mp h)
      · exact .inr (.inl (UInt8.toNat_inj.mp h))
      · exact .inr (.inr (UInt8.toNat_inj.mp h))
    rcases this with h | h | h <;> simp [CSID.marshalLen, hn, h]
  constructor
  · refine fits_of (out := [((f.kind <<< 4) &&& (0xf0 : UInt8)) ||| (f.num &&& (0x0f : UInt8))] ++ f.node ++ f.ids.flatMap be16) ?_
      (by rw [hl, List.length_append, flatMap_be16_length]; simp; omega)
    intro z hz
    rw [List.length_append, flatMap_be16_length] at hz
    simp only [List.length_append, List.length_singleton] at hz
    rw [← List.nil_append z]
    simp only [CSID.marshalTo]
    wr
    rw [putCSIDs_writes _ _ _ _ (by lenw) (by lenw)]
    rw [List.length_append, flatMap_be16_length]
    simp
  · intro b hb
    simp only [CSID.marshalTo]
    flr

/-! ### traffic flow templates -/

theorem C79_tft_component (c : Comp) : Into c.marshalLen (c.marshalTo (List.replicate c.marshalLen 0)) c.marshalTo := by
  refine into_of (comp_writes c) (comp_marshalLen c).symm ?_
  intro b hb
  simp only [Comp.marshalLen] at hb
  simp only [Comp.marshalTo]
  flr

theorem putComps_short : ∀ (cs : List Comp) (b : Bytes) (off : Nat), off ≤ b.length → b.length < off + compsLen cs →
    Fails (putComps cs off b)
  | [], b, off, ho, h => by simp [compsLen] at h; omega
  | c :: cs, b, off, ho, h => by
    simp only [compsLen, List.map_cons, List.sum_cons] at h
    rw [putComps]
    split
    · exact fails_err _
    · rename_i hl
      have := (comp_writes c).sub (pre := b.take off) (z := b.drop off) (lo := off) (hi := off + c.marshalLen)
        (by simp; omega) (by rw [comp_marshalLen]) (by rw [← comp_marshalLen]; simp; omega)
      rw [List.take_append_drop] at this
      rw [this]
      refine putComps_short cs _ _ ?_ ?_
      · rw [← comp_marshalLen] at *; simp [← comp_marshalLen]; omega
      · simp [← comp_marshalLen, compsLen]; omega

/-- any packet filter, whether or not its length field is right -/
theorem C79_tft_filter (p : Filter) : Into p.marshalLen (p.marshalTo (List.replicate p.marshalLen 0)) p.marshalTo := by
  refine into_of (out := [((p.dir &&& 3) <<< 4) ||| (p.ident &&& 0xf), p.prec, p.len] ++ encComps p.comps) ?_
    (by simp [Filter.marshalLen, compsLen_eq]; omega) ?_
  · intro z hz
    simp only [List.length_append, List.length_cons, List.length_nil] at hz
    rw [← List.nil_append z]
    simp only [Filter.marshalTo]
    wr
    rw [putComps_eq _ _ _ _ (by lenw) (by lenw)]
    simp
    omega
  · intro b hb
    simp only [Filter.marshalLen] at hb
    simp only [Filter.marshalTo]
    split
    · exact fails_err _
    · refine fails_bind_setAt (by omega) (fun b0 e0 => fails_bind_setAt (by omega) (fun b1 e1 =>
        fails_bind_setAt (by omega) (fun b2 e2 => ?_)))
      exact putComps_short _ _ _ (by omega) (by omega)

theorem C79_tft_parameter (p : Param) : Into p.marshalLen (p.marshalTo (List.replicate p.marshalLen 0)) p.marshalTo := by
  refine into_of (out := [p.ident, p.len] ++ p.contents) ?_ (by simp [Param.marshalLen]; omega) ?_
  · intro z hz
    simp only [List.length_append, List.length_cons, List.length_nil] at hz
    rw [← List.nil_append z]
    simp only [Param.marshalTo]
    wr
    simp
    omega
  · intro b hb
    simp only [Param.marshalLen] at hb
    simp only [Param.marshalTo]
    flr

/-- the whole template.  Missing: a buffer that is too short may make the code panic (`C79_tft_wrong`). -/
theorem C79_tft_partial {f : TFT} (h : TFTOK f) : Fits f.marshalLen f.marshal f.marshalTo :=
  fits_of (tft_writes h) (tft_marshalLen f).symm

/-! ### protocol configuration options -/

/-- Missing: a buffer that is too short makes the code panic or is filled without an error (`C79_container_wrong`). -/
theorem C79_container_partial {c : Container} (h : ContainerOK c) :
    Fits c.marshalLen (c.marshalTo (List.replicate c.marshalLen 0)) c.marshalTo :=
  fits_of (container_writes h) (container_marshalLen c).symm

theorem pco_writes (proto : UInt8) {opts : List Container} (ho : ∀ c ∈ opts, ContainerOK c) :
    Writes (fun b => do let b ← setAt b 0 ((proto &&& 7) ||| 0x80); putContainers opts 1 b)
      ([(proto &&& 7) ||| 0x80] ++ encContainers opts) := by
  intro z hz
  simp only [List.length_append, List.length_cons, List.length_nil] at hz
  rw [← List.nil_append z]
  wr
  rw [putContainers_eq _ _ _ _ ho (by lenw) (by lenw)]
  simp

/-- Missing: as for the containers. -/
theorem C79_pco_partial (f : PCO) (h : ∀ c ∈ f.opts, ContainerOK c) : Fits f.marshalLen f.marshal f.marshalTo :=
  fits_of (pco_writes f.proto h) (by simp [PCO.marshalLen, sum_containers]; omega)

/-- the options of GTPv1.  Missing: as for the containers. -/
theorem C79_pco_v1_partial (f : TLV.PCOPayload) (h : ∀ c ∈ f.opts, ContainerOK c) :
    Fits f.marshalLen (f.marshalTo (List.replicate f.marshalLen 0)) f.marshalTo :=
  fits_of (pco_writes f.proto h) (by simp [TLV.PCOPayload.marshalLen, sum_containers]; omega)

/-- Missing: an empty payload (`C79_ppp_wrong`), buffers that end within the payload, which are filled without an error. -/
theorem C79_ppp_partial (p : PPP) (h : p.payload ≠ []) :
    Fits (4 + p.payload.length) p.marshal p.marshalTo ∧ ∀ b : Bytes, b.length < 5 → Fails (p.marshalTo b) := by
  have hp : 0 < p.payload.length := List.length_pos_iff.mpr h
  constructor
  · refine fits_of (out := [p.code, p.ident] ++ be16 p.len ++ p.payload) ?_ (by simp; omega)
    intro z hz
    simp only [List.length_append, List.length_cons, List.length_nil, len16] at hz
    rw [← List.nil_append z]
    simp only [PPP.marshalTo]
    wr
    simp
    omega
  · intro b hb
    simp only [PPP.marshalTo]
    flr

/-- Missing: a buffer that ends right before the length of the password makes the code panic. -/
theorem C79_pap_partial (p : PAP) (h1 : p.ident.length = p.idLen.toNat) (h2 : p.pw.length = p.pwLen.toNat) :
    Fits (2 + p.ident.length + p.pw.length) p.marshal p.marshalTo ∧
    ∀ b : Bytes, b.length < 2 + p.ident.length + p.pw.length →
      if b.length = 1 + p.ident.length ∧ p.ident ≠ [] then p.marshalTo b = .panic else Fails (p.marshalTo b) := by
  constructor
  · refine fits_of (out := [p.idLen] ++ p.ident ++ [p.pwLen] ++ p.pw) ?_ (by simp; omega)
    intro z hz
    simp only [List.length_append, List.length_cons, List.length_nil] at hz
    rw [← List.nil_append z]
    simp only [PAP.marshalTo]
    wr
    simp
    omega
  · intro b hb
    by_cases hl : b.length = 1 + p.ident.length ∧ p.ident ≠ []
    · rw [if_pos hl]
      obtain ⟨hl, hn⟩ := hl
      have hp : 0 < p.ident.length := List.length_pos_iff.mpr hn
      simp only [PAP.marshalTo]
      rw [← List.nil_append b]
      wr
      simp only [setAt]
      rw [if_neg (by simp; omega)]
      rfl
    · rw [if_neg hl]
      have hl : b.length = 1 + p.ident.length → p.ident.length = 0 := by
        intro e
        apply Classical.byContradiction
        intro h
        exact hl ⟨e, by intro h'; rw [h'] at h; exact h rfl⟩
      simp only [PAP.marshalTo]
      flr

/-- Missing: a buffer that ends within the name is filled without an error (`C79_chap_wrong`); an empty value with an empty name. -/
theorem C79_chap_partial (c : CHAP) (h1 : c.value.length = c.size.toNat) (h2 : 0 < c.value.length + c.name.length) :
    Fits (1 + c.value.length + c.name.length) c.marshal c.marshalTo ∧
    ∀ b : Bytes, b.length < 1 + c.value.length ∨ b.length < 2 → Fails (c.marshalTo b) := by
  constructor
  · refine fits_of (out := [c.size] ++ c.value ++ c.name) ?_ (by simp; omega)
    intro z hz
    simp only [List.length_append, List.length_cons, List.length_nil] at hz
    rw [← List.nil_append z]
    simp only [CHAP.marshalTo]
    wr
    simp
    omega
  · intro b hb
    simp only [CHAP.marshalTo]
    flr

/-- Missing: an empty payload, buffers that end within the payload, which are filled without an error (`C79_ipcp_wrong`). -/
theorem C79_ipcp_partial (o : IPCP) (h : o.payload ≠ []) :
    Fits o.marshalLen o.marshal o.marshalTo ∧ ∀ b : Bytes, b.length < 3 → Fails (o.marshalTo b) := by
  have hp : 0 < o.payload.length := List.length_pos_iff.mpr h
  constructor
  · refine fits_of (out := [o.typ, o.len] ++ o.payload) ?_ (by simp [IPCP.marshalLen]; omega)
    intro z hz
    simp only [List.length_append, List.length_cons, List.length_nil] at hz
    rw [← List.nil_append z]
    simp only [IPCP.marshalTo]
    wr
    simp
    omega
  · intro b hb
    simp only [IPCP.marshalTo]
    flr

/-! ### where it fails -/

/-- three CSIDs of which a buffer of nine octets takes two, without an error -/
theorem C79_csid_wrong : CSID.marshalTo ⟨0, 3, [1, 2, 3, 4], [5, 6, 7]⟩ (List.replicate 9 0) =
    ok [0x03, 1, 2, 3, 4, 0, 5, 0, 6] := by decide

/-- a template with an ignored filter identifier, a buffer of one octet: panic -/
theorem C79_tft_wrong : TFT.marshalTo ⟨5, [], [1], []⟩ (List.replicate 1 0) = .panic := by decide

/-- too short for the identifier: panic; too short for the contents: truncated without an error -/
theorem C79_container_wrong : Container.marshalTo (newContainer 0x0d [8, 8, 8, 8]) [0] = .panic ∧
    Container.marshalTo (newContainer 0x0d [8, 8, 8, 8]) (List.replicate 5 0) = ok [0, 0x0d, 4, 8, 8] := by decide

/-- an empty PPP payload is refused by a buffer of the announced four octets; a payload is truncated without an error -/
theorem C79_ppp_wrong : (newPPP 1 2 []).marshal = err .eof ∧
    (newPPP 1 2 [7, 8, 9]).marshalTo (List.replicate 5 0) = ok [1, 2, 0, 7, 7] := by decide

theorem C79_chap_wrong : (newCHAP [1] [7, 8, 9]).marshalTo (List.replicate 3 0) = ok [1, 1, 7] := by decide

theorem C79_ipcp_wrong : (newIPCP 129 [8, 8, 8, 8]).marshalTo (List.replicate 3 0) = ok [129, 6, 8] ∧
    (newIPCP 129 []).marshal = err .eof := by decide

/-- a PDN address allocation without the address of its type leaves in the buffer what was there, and so does a GUTI whose PLMN
cannot be encoded -/
theorem C79_stale_wrong : PAA.marshalTo ⟨1, [], 0, []⟩ [9, 9, 9, 9, 9] = ok [1, 9, 9, 9, 9] ∧
    GUTI.marshalTo ⟨[0x7a, 0x7a, 0x7a], [0x7a, 0x7a], 0x1234, 5, 6⟩ [9, 9, 9, 9, 9, 9, 9, 9, 9, 9] = ok [9, 9, 9, 9, 9, 9, 9, 9, 9, 9] := by decide

/-! ### not vacuous -/

example : GUTI.marshalTo ⟨[48, 48, 49], [48, 49], 0x1234, 0x56, 0x789abcde⟩ [9, 9, 9, 9, 9, 9, 9, 9, 9, 9, 9, 9] =
    ok [0x00, 0xf1, 0x10, 0x12, 0x34, 0x56, 0x78, 0x9a, 0xbc, 0xde, 9, 9] := by decide

example : (newFTEIDFields 10 0xffffffff [127, 0, 0, 1] []).marshalTo [9, 9, 9, 9, 9, 9, 9, 9, 9, 9] =
    ok [0x8a, 0xff, 0xff, 0xff, 0xff, 127, 0, 0, 1, 9] ∧
    (newFTEIDFields 10 0xffffffff [127, 0, 0, 1] []).marshalTo [9, 9, 9, 9, 9, 9, 9, 9] = err .eof := by decide

example : (newULIFields none none none (some ⟨[48, 48, 49], [48, 49], 0x0102⟩) none none none none).marshalTo
      [9, 9, 9, 9, 9, 9, 9] = ok [8, 0x00, 0xf1, 0x10, 1, 2, 9] := by decide

example : S103.marshalTo ⟨4, [127, 0, 0, 1], 0xff, 2, [5, 6]⟩ (List.replicate 9 0) = .panic ∧
    S103.marshalTo ⟨4, [127, 0, 0, 1], 0xff, 2, [5, 6]⟩ (List.replicate 10 0) = err .eof ∧
    S103.marshalTo ⟨4, [127, 0, 0, 1], 0xff, 2, [5, 6]⟩ (List.replicate 13 1) =
      ok [4, 127, 0, 0, 1, 0, 0, 0, 0xff, 2, 5, 6, 1] := by decide

example : PAP.marshalTo (newPAP [1, 2] [3]) (List.replicate 3 0) = .panic ∧
    PAP.marshalTo (newPAP [1, 2] [3]) (List.replicate 6 9) = ok [2, 1, 2, 1, 3, 9] := by decide

end Verif.V2

/-! ### cases that meet the hypotheses -/

namespace Verif.V2
open Res Utils NetIP
theorem exPLMN : IsPLMN [48, 48, 49] [48, 49] := by decide
theorem exPLMN3 : IsPLMN [51, 49, 48] [52, 49, 48] := by decide
theorem exTemplate : TFTOK ⟨1, [newFilter 3 5 200 [compU8 0x30 17]], [], [newParam 1 [0xaa]]⟩ :=
  ⟨(by decide),
    (by intro p hp; obtain rfl := List.mem_singleton.1 hp
        refine ⟨?_, ?_, ?_, ?_⟩ <;> first | decide | (intro c hc; obtain rfl := List.mem_singleton.1 hc; unfold CompOK; decide)),
    (by intro p hp; obtain rfl := List.mem_singleton.1 hp; unfold ParamOK; decide), (by decide), (fun h => absurd rfl h), (fun _ => rfl)⟩
theorem exContainers2 : ∀ c ∈ [newContainer 0x0d [8, 8, 8, 8], newContainer 1 [5, 6]], ContainerOK c := by unfold ContainerOK; decide
example := C79_trace exPLMN 0x010203
example := C79_uci exPLMN3 0x010203 2 1
example := C79_guti exPLMN 0x1234 0x56 0x789abcde
example := C79_paa ⟨3, [10, 0, 0, 1], 64, List.replicate 16 1⟩ (fun _ => ⟨_, rfl⟩) (fun _ => ⟨_, rfl⟩)
example := C79_s1udf ⟨5, 4, [127, 0, 0, 1], 9⟩ rfl
example := C79_s103_partial ⟨4, [127, 0, 0, 1], 0xff, 2, [5, 6]⟩ rfl rfl
theorem exNone {α : Type} {P : α → Prop} : ∀ a, (none : Option α) = some a → P a := fun _ h => nomatch h
example := C79_uli (cgi := some ⟨[48, 48, 49], [48, 49], 1, 2⟩) (sai := none) (rai := none) (tai := some ⟨[51, 49, 48], [52, 49, 48], 0x0102⟩)
  (ecgi := some ⟨[48, 48, 49], [48, 49], 0x1020304⟩) (lai := none) (menbi := none) (emenbi := none)
  (fun _ h => Option.some.inj h ▸ exPLMN) exNone exNone (fun _ h => Option.some.inj h ▸ exPLMN3)
  (fun _ h => Option.some.inj h ▸ ⟨exPLMN, by decide⟩) exNone exNone exNone
example := C79_csid_partial ⟨0, 3, [1, 2, 3, 4], [5, 6, 7]⟩ (by decide) rfl
example := C79_tft_partial exTemplate
example := C79_container_partial (c := newContainer 0x0d [8, 8, 8, 8]) (newContainer_ok _ (by decide))
example := C79_pco_partial (newPCOFields 0 [newContainer 0x0d [8, 8, 8, 8], newContainer 1 [5, 6]]) exContainers2
example := C79_pco_v1_partial ⟨0, [newContainer 0x0d [8, 8, 8, 8], newContainer 1 [5, 6]]⟩ exContainers2
example := C79_ppp_partial (newPPP 1 2 [7, 8, 9]) (by decide)
example := C79_pap_partial (newPAP [1, 2] [3]) rfl rfl
example := C79_chap_partial (newCHAP [1] [7, 8, 9]) rfl (by decide)
example := C79_ipcp_partial (newIPCP 129 [8, 8, 8, 8]) (by decide)
end Verif.V2
