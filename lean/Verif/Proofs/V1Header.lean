import Verif.Spec.V1Header
import Verif.Proofs.V2Header
/-
Helper lemmas on the GTPv1 header and extension headers.
-/
namespace Verif.V1
open Res Spec

theorem hasSeq_eq (h : Header) : h.hasSeq = bit h.flags 1 := by
  unfold Header.hasSeq bit
  generalize h.flags = f
  revert f
  apply forall_byte (p := fun f => (((f >>> 1) &&& (1 : UInt8)) == 1) = decide (f.toNat / 2 ^ 1 % 2 = 1))
  decide +kernel

theorem hasNPDU_eq (h : Header) : h.hasNPDU = bit h.flags 0 := by
  unfold Header.hasNPDU bit
  generalize h.flags = f
  revert f
  apply forall_byte (p := fun f => ((f &&& (1 : UInt8)) == 1) = decide (f.toNat / 2 ^ 0 % 2 = 1))
  decide +kernel

theorem hasExt_eq (h : Header) : h.hasExt = bit h.flags 2 := by
  unfold Header.hasExt bit
  generalize h.flags = f
  revert f
  apply forall_byte (p := fun f => (((f >>> 2) &&& (1 : UInt8)) == 1) = decide (f.toNat / 2 ^ 2 % 2 = 1))
  decide +kernel

theorem pad4Len_eq (n : Nat) : pad4Len n = 4 * ((n + 3) / 4) := by unfold pad4Len; omega

theorem Ext.marshalLen_eq (e : Ext) : e.marshalLen = 4 * units e := pad4Len_eq _

theorem le_units (e : Ext) : e.content.length + 2 ≤ 4 * units e := by unfold units; omega

theorem one_le_units (e : Ext) : 1 ≤ units e := by unfold units; omega

theorem length_encExt (e : Ext) : (encExt e).length = e.marshalLen := by
  have := le_units e
  simp only [encExt, Ext.marshalLen_eq, List.length_append, List.length_cons, List.length_nil,
    List.length_replicate]
  omega

/-- writing an extension header into zeroed memory -/
theorem Ext.marshalTo_zero (e : Ext) (he : extOK e = true) (n : Nat) (hn : e.marshalLen ≤ n) :
    e.marshalTo (List.replicate n 0) = ok (encExt e ++ List.replicate (n - e.marshalLen) 0) := by
  simp only [extOK, decide_eq_true_eq] at he
  have h1 := le_units e
  have hm := e.marshalLen_eq
  unfold Ext.marshalTo
  rw [if_neg (by simp; omega)]
  have s1 := setAt_append (pre := []) (b := List.replicate n 0) (x := e.length) (i := 0) rfl (by simp; omega)
  rw [List.nil_append] at s1
  rw [s1, bind_ok, if_neg (by omega)]
  simp only [List.nil_append, List.drop_replicate]
  rw [if_neg (by simp; omega)]
  have c1 : copyAt ([e.length] ++ List.replicate (n - 1) 0) 1 (e.length.toNat * 4 - 1) e.content
      = ok ([e.length] ++ e.content ++ List.replicate (n - 1 - e.content.length) 0) := by
    rw [copyAt, if_pos (by simp; omega)]
    rw [List.take_of_length_le (l := e.content) (by omega), show min (e.length.toNat * 4 - 1 - 1) e.content.length = e.content.length by omega]
    rw [List.take_left' (by simp), List.drop_append]
    simp
  rw [c1, bind_ok]
  have hr : List.replicate (n - 1 - e.content.length) (0 : UInt8)
      = List.replicate (4 * units e - 2 - e.content.length) 0 ++ List.replicate (n - 4 * units e + 1) 0 := by
    rw [List.replicate_append_replicate]; congr 1; omega
  rw [hr, ← List.append_assoc, setAt_append (by simp; omega) (by simp)]
  have e0 : UInt8.ofNat (units e) = e.length := by rw [← he]; simp
  simp only [encExt, List.drop_replicate, hm, Nat.add_sub_cancel, e0]

theorem Ext.parse_encExt (e : Ext) (he : extOK e = true) (r : Bytes) :
    Ext.parse (encExt e ++ r) = ok ⟨0, e.length, e.content ++ List.replicate (4 * units e - 2 - e.content.length) 0, e.next⟩ := by
  simp only [extOK, decide_eq_true_eq] at he
  have h1 := le_units e
  have h2 := one_le_units e
  have hl := length_encExt e
  rw [e.marshalLen_eq] at hl
  unfold Ext.parse
  rw [if_neg (by simp only [List.length_append]; omega)]
  have e0 : UInt8.ofNat (units e) = e.length := by rw [← he]; simp
  have hne : (e.length == 0) = false := by
    cases h : e.length == 0 with
    | false => rfl
    | true => rw [beq_iff_eq] at h; rw [h] at he; simp at he; omega
  have i0 : idx (encExt e ++ r) 0 = ok e.length := by simp [encExt, e0]
  rw [i0, bind_ok]
  simp only [hne, Bool.false_eq_true, if_false]
  rw [if_neg (by simp only [List.length_append]; omega)]
  have sp : encExt e ++ r = [e.length] ++ (e.content ++ List.replicate (4 * units e - 2 - e.content.length) 0) ++ ([e.next] ++ r) := by
    simp [encExt, e0]
  have hlen : (e.content ++ List.replicate (4 * units e - 2 - e.content.length) (0 : UInt8)).length = 4 * units e - 2 := by
    simp; omega
  have s1 : slice (encExt e ++ r) 1 (e.length.toNat * 4 - 1)
      = ok (e.content ++ List.replicate (4 * units e - 2 - e.content.length) 0) := by
    have := slice_append [e.length] (e.content ++ List.replicate (4 * units e - 2 - e.content.length) 0) ([e.next] ++ r)
    rw [hlen] at this
    rw [sp, ← this]
    simp only [List.length_cons, List.length_nil]
    congr 1; omega
  have i1 : idx (encExt e ++ r) (e.length.toNat * 4 - 1) = ok e.next := by
    rw [sp, idx, List.getElem?_append_right (by simp; omega)]
    simp only [List.length_append, List.length_cons, List.length_nil, List.length_replicate]
    rw [show e.length.toNat * 4 - 1 - (0 + 1 + (e.content.length + (4 * units e - 2 - e.content.length))) = 0 by omega]
    rfl
  rw [s1, bind_ok, i1, bind_ok]

/-- parsing one extension header returns; on success it has consumed four octets per unit -/
theorem Ext.parse_spec (b : Bytes) : (∃ e, Ext.parse b = err e) ∨
    ∃ x, Ext.parse b = ok x ∧ x.marshalLen = 4 * x.length.toNat ∧ 4 ≤ x.marshalLen ∧ x.marshalLen ≤ b.length ∧
      extOK x = true ∧ (x.content.length + 2) % 4 = 0 ∧ encExt x <+: b := by
  unfold Ext.parse
  by_cases h : b.length < 2
  · exact .inl ⟨_, if_pos h⟩
  rw [if_neg h, idx_of_lt (by omega), bind_ok]
  by_cases h0 : (b[0] == 0) = true
  · exact .inl ⟨_, if_pos h0⟩
  have h0' : b[0].toNat ≠ 0 := by
    intro hh; apply h0; rw [beq_iff_eq]; apply UInt8.toNat_inj.mp; simpa using hh
  rw [if_neg h0]
  simp only []
  generalize hn : b[0].toNat = n at *
  by_cases h1 : b.length < n * 4 - 1 + 1
  · exact .inl ⟨_, if_pos h1⟩
  rw [if_neg h1, slice_of_le (by omega) (by omega), bind_ok, idx_of_lt (by omega), bind_ok]
  right
  have hc : ((b.drop 1).take (n * 4 - 1 - 1)).length = 4 * n - 2 := by
    simp only [List.length_take, List.length_drop]; omega
  have hu : units ⟨0, b[0], (b.drop 1).take (n * 4 - 1 - 1), b[n * 4 - 1]⟩ = n := by
    simp only [units, hc]; omega
  refine ⟨_, rfl, ?_, ?_, ?_, ?_, ?_, ?_⟩
  · rw [Ext.marshalLen_eq, hu]; simp only [hn]
  · rw [Ext.marshalLen_eq, hu]; omega
  · rw [Ext.marshalLen_eq, hu]; omega
  · simp only [extOK, hu, hn, decide_true]
  · simp only [hc]; omega
  · unfold encExt
    rw [hu]
    simp only [hc, Nat.sub_self, List.replicate_zero, List.append_nil]
    refine ⟨b.drop (n * 4), ?_⟩
    have e3 : UInt8.ofNat n = b[0] := by
      apply UInt8.toNat_inj.mp; rw [hn, UInt8.toNat_ofNat']; have := b[0].toNat_lt; omega
    rw [e3]
    have e1 : b = [b[0]] ++ b.drop 1 := by
      cases b with
      | nil => simp at h
      | cons a t => simp
    have e2 : b.drop (n * 4 - 1) = b[n * 4 - 1] :: b.drop (n * 4) := by
      rw [List.drop_eq_getElem_cons (by omega)]
      congr 2; omega
    calc [b[0]] ++ (b.drop 1).take (n * 4 - 1 - 1) ++ [b[n * 4 - 1]] ++ b.drop (n * 4)
        = [b[0]] ++ ((b.drop 1).take (n * 4 - 1 - 1) ++ b.drop (n * 4 - 1)) := by rw [e2]; simp
      _ = [b[0]] ++ b.drop 1 := by
          congr 1
          have : b.drop (n * 4 - 1) = (b.drop 1).drop (n * 4 - 1 - 1) := by
            rw [List.drop_drop]; congr 1; omega
          rw [this, List.take_append_drop]
      _ = b := e1.symm

/-- the extension header with its content padded, as the parser returns it -/
def padded (e : Ext) : Ext :=
  { e with content := e.content ++ List.replicate (4 * units e - 2 - e.content.length) 0 }

theorem length_padded (e : Ext) : (padded e).content.length = 4 * units e - 2 := by
  have := le_units e
  simp [padded]; omega

theorem marshalLen_padded (e : Ext) : (padded e).marshalLen = e.marshalLen := by
  have := one_le_units e
  rw [Ext.marshalLen_eq, Ext.marshalLen_eq]
  unfold units at this ⊢
  rw [length_padded]; unfold units; omega

theorem padded_eq (e : Ext) (h : (e.content.length + 2) % 4 = 0) : padded e = e := by
  have : 4 * units e - 2 - e.content.length = 0 := by unfold units; omega
  simp [padded, this]

theorem sum_padded (l : List Ext) : ((l.map padded).map Ext.marshalLen).sum = (l.map Ext.marshalLen).sum := by
  rw [List.map_map]
  congr 1
  exact List.map_congr_left (fun e _ => marshalLen_padded e)

theorem length_encExts (l : List Ext) : ((l.map encExt).flatten).length = (l.map Ext.marshalLen).sum := by
  induction l with
  | nil => rfl
  | cons e l ih => simp [ih, length_encExt]

theorem Ext.writeAll_zero : ∀ (l : List Ext) (pre : Bytes) (n : Nat), (∀ e ∈ l, extOK e = true) →
    (l.map Ext.marshalLen).sum ≤ n →
    Ext.writeAll l pre.length (pre ++ List.replicate n 0)
      = ok (pre.length + (l.map Ext.marshalLen).sum,
          pre ++ (l.map encExt).flatten ++ List.replicate (n - (l.map Ext.marshalLen).sum) 0)
  | [], pre, n, _, _ => by simp [Ext.writeAll]
  | e :: l, pre, n, hok, hn => by
    simp only [List.map_cons, List.sum_cons] at hn
    rw [Ext.writeAll, sliceFrom_of_le (by simp), bind_ok, List.drop_left,
      Ext.marshalTo_zero e (hok e List.mem_cons_self) n (by omega), bind_ok, List.take_left]
    have ih := Ext.writeAll_zero l (pre ++ encExt e) (n - e.marshalLen)
      (fun x hx => hok x (List.mem_cons_of_mem _ hx)) (by omega)
    rw [List.length_append, length_encExt, List.append_assoc] at ih
    rw [ih]
    simp only [List.map_cons, List.sum_cons, List.flatten_cons, List.append_assoc, ok.injEq, Prod.mk.injEq]
    refine ⟨by omega, ?_⟩
    rw [Nat.sub_sub]

theorem Ext.parseMultiF_chain : ∀ (l : List Ext) (t : UInt8) (n : Nat) (r : Bytes), chain t l = true →
    (∀ e ∈ l, extOK e = true) → l.length < n →
    Ext.parseMultiF n t ((l.map encExt).flatten ++ r) = ok (l.map padded)
  | [], _, _, _, h, _, _ => by simp [chain] at h
  | e :: l, t, 0, r, h, hok, hn => by simp at hn
  | e :: l, t, n + 1, r, h, hok, hn => by
    have hp := Ext.parse_encExt e (hok e List.mem_cons_self) ((l.map encExt).flatten ++ r)
    have ht : e.typ = t := by
      cases l with
      | nil => simp [chain] at h; exact h.1
      | cons _ _ => simp [chain] at h; exact h.1.1
    rw [List.map_cons, List.flatten_cons, List.append_assoc, Ext.parseMultiF, hp, bind_ok]
    have hpad : ({ (⟨0, e.length, e.content ++ List.replicate (4 * units e - 2 - e.content.length) 0, e.next⟩ : Ext) with typ := t } : Ext) = padded e := by
      simp [padded, ht]
    simp only [hpad]
    rw [sliceFrom_of_le (by rw [marshalLen_padded, ← length_encExt]; simp), bind_ok, marshalLen_padded,
      ← length_encExt, List.drop_left]
    cases l with
    | nil =>
      have : e.next = 0 := by simp [chain] at h; exact h.2
      simp [this]
    | cons e2 l =>
      simp only [chain, Bool.and_eq_true, bne_iff_ne] at h
      have : (e.next == 0) = false := by simpa using h.1.2
      rw [this]
      simp only [Bool.false_eq_true, if_false]
      rw [Ext.parseMultiF_chain (e2 :: l) e.next n r h.2 (fun x hx => hok x (List.mem_cons_of_mem _ hx))
        (by simp only [List.length_cons] at hn ⊢; omega)]
      rfl

theorem length_le_sum (l : List Ext) : l.length ≤ (l.map Ext.marshalLen).sum := by
  induction l with
  | nil => simp
  | cons e l ih =>
    have h1 := one_le_units e
    have h2 := e.marshalLen_eq
    simp only [List.length_cons, List.map_cons, List.sum_cons]; omega

theorem Ext.parseMulti_chain (l : List Ext) (r : Bytes) (t : UInt8) (h : chain t l = true)
    (hok : ∀ e ∈ l, extOK e = true) :
    ∃ e es, l = e :: es ∧
      Ext.parseMulti ((l.map encExt).flatten ++ r) = ok ({ padded e with typ := 0 } :: es.map padded) := by
  cases l with
  | nil => simp [chain] at h
  | cons e es =>
    refine ⟨e, es, rfl, ?_⟩
    have h0 : chain 0 ({ e with typ := 0 } :: es) = true := by
      cases es with
      | nil => simp [chain] at h ⊢; exact h.2
      | cons e2 es => simp [chain] at h ⊢; exact ⟨h.1.2, h.2⟩
    have hok' : ∀ x ∈ ({ e with typ := 0 } : Ext) :: es, extOK x = true := by
      intro x hx
      rcases List.mem_cons.mp hx with rfl | hx
      · exact hok e List.mem_cons_self
      · exact hok x (List.mem_cons_of_mem _ hx)
    have hlen := length_le_sum (e :: es)
    rw [← length_encExts] at hlen
    exact Ext.parseMultiF_chain ({ e with typ := 0 } :: es) 0 _ r h0 hok'
      (by rw [List.length_append]; simp only [List.length_cons] at hlen ⊢; omega)

/-- reading a chain of extension headers returns; on success the octets read are those of the chain -/
theorem Ext.parseMultiF_spec : ∀ (n : Nat) (t : UInt8) (b : Bytes), b.length < n →
    (∃ e, Ext.parseMultiF n t b = err e) ∨
    ∃ l, Ext.parseMultiF n t b = ok l ∧ chain t l = true ∧
      (∀ e ∈ l, extOK e = true ∧ (e.content.length + 2) % 4 = 0) ∧ (l.map encExt).flatten <+: b
  | 0, _, _, h => by omega
  | n + 1, t, b, h => by
    rw [Ext.parseMultiF]
    rcases Ext.parse_spec b with ⟨e, he⟩ | ⟨x, hx, h1, h2, h3, h4, h5, r, h6⟩
    · exact .inl ⟨e, by rw [he]; rfl⟩
    rw [hx, bind_ok]
    have hml : ({ x with typ := t } : Ext).marshalLen = x.marshalLen := rfl
    simp only [hml]
    rw [sliceFrom_of_le h3, bind_ok]
    have hd : b.drop x.marshalLen = r := by
      rw [← h6, ← length_encExt, List.drop_left]
    have hok : extOK { x with typ := t } = true := h4
    have henc : encExt { x with typ := t } = encExt x := rfl
    by_cases h0 : (x.next == 0) = true
    · right
      refine ⟨[{ x with typ := t }], if_pos h0, ?_, ?_, ?_⟩
      · simp [chain]; simpa using h0
      · intro e he; simp only [List.mem_singleton] at he; subst he; exact ⟨hok, h5⟩
      · simp only [List.map_cons, List.map_nil, List.flatten_cons, List.flatten_nil, List.append_nil, henc]
        exact ⟨r, h6⟩
    · rw [if_neg h0, hd]
      have hr : r.length < n := by
        have := congrArg List.length h6
        rw [List.length_append, length_encExt] at this
        omega
      rcases Ext.parseMultiF_spec n x.next r hr with ⟨e, he⟩ | ⟨l, hl, hc, ho, s, hs⟩
      · exact .inl ⟨e, by rw [he]; rfl⟩
      · right
        refine ⟨{ x with typ := t } :: l, by rw [hl]; rfl, ?_, ?_, ?_⟩
        · cases l with
          | nil => simp [chain] at hc
          | cons e2 l =>
            simp only [chain, Bool.and_eq_true, bne_iff_ne, beq_self_eq_true, true_and]
            exact ⟨by simpa using h0, hc⟩
        · intro e he
          rcases List.mem_cons.mp he with rfl | he
          · exact ⟨hok, h5⟩
          · exact ho e he
        · refine ⟨s, ?_⟩
          rw [List.map_cons, List.flatten_cons, henc, List.append_assoc, hs, h6]

theorem length_encOpt (h : Header) :
    (encOpt h).length = if bit h.flags 2 || bit h.flags 1 || bit h.flags 0 then 4 else 0 := by
  unfold encOpt
  cases bit h.flags 2 <;> cases bit h.flags 1 <;> cases bit h.flags 0 <;> rfl

theorem length_encH (h : Header) : (encH h).length = h.marshalLen := by
  have e : (encExts h).length = if bit h.flags 2 then (h.exts.map Ext.marshalLen).sum else 0 := by
    unfold encExts
    cases bit h.flags 2
    · rfl
    · exact length_encExts h.exts
  simp only [encH, List.length_append, List.length_cons, List.length_nil, length_be16, length_be32, e, length_encOpt,
    Header.marshalLen, hasSeq_eq, hasNPDU_eq, hasExt_eq]
  cases bit h.flags 2 <;> cases bit h.flags 1 <;> cases bit h.flags 0 <;> simp <;> omega

/-- the optional fields written into zeroed memory -/
theorem writeOpt (h : Header) (pre : Bytes) (hp : pre.length = 8) (m : Nat) (hm : (encOpt h).length ≤ m) :
    (h.putSeq (pre ++ List.replicate m 0) >>= fun b => h.putNPDU b >>= fun b => h.putNext b)
      = ok (pre ++ encOpt h ++ List.replicate (m - (encOpt h).length) 0) := by
  unfold Header.putSeq Header.putNPDU Header.putNext
  rw [length_encOpt] at hm ⊢
  rw [hasSeq_eq, hasNPDU_eq, hasExt_eq]
  match pre, hp with
  | [p0, p1, p2, p3, p4, p5, p6, p7], _ =>
    unfold encOpt
    by_cases hany : (bit h.flags 2 || bit h.flags 1 || bit h.flags 0) = true
    · rw [if_pos hany] at hm ⊢
      obtain ⟨k, rfl⟩ : ∃ k, m = k + 4 := ⟨m - 4, by omega⟩
      rw [if_pos hany, show List.replicate (k + 4) (0 : UInt8) = 0 :: 0 :: 0 :: 0 :: List.replicate k 0 from rfl]
      cases h2 : bit h.flags 2 <;> cases h1 : bit h.flags 1 <;> cases h0 : bit h.flags 0 <;>
        simp [copyAt, setAt, be16] <;> simp_all
    · have h2 : bit h.flags 2 = false := by revert hany; cases bit h.flags 2 <;> simp
      have h1 : bit h.flags 1 = false := by revert hany; cases bit h.flags 1 <;> simp
      have h0 : bit h.flags 0 = false := by revert hany; cases bit h.flags 0 <;> simp
      simp [h0, h1, h2]

theorem Header.marshal_eq (h : Header) (hok : bit h.flags 2 = true → ∀ e ∈ h.exts, extOK e = true) :
    h.marshal = ok (encH h) := by
  have hlen := length_encH h
  have h8 : 8 ≤ h.marshalLen := by unfold Header.marshalLen; omega
  unfold Header.marshal Header.marshalTo
  rw [if_neg (by simp)]
  generalize hn : h.marshalLen = n at *
  have s1 := setAt_append (pre := []) (b := List.replicate n 0) (x := h.flags) (i := 0) rfl (by simp; omega)
  rw [List.nil_append] at s1
  rw [s1, bind_ok, setAt_append (by simp) (by simp; omega), bind_ok,
      copyAt_append (by simp) (by simp) (by simp; omega), bind_ok,
      copyAt_append (by simp) (by simp) (by simp; omega), bind_ok]
  simp only [List.nil_append, List.drop_replicate, length_be16, length_be32]
  generalize hpre : [h.flags] ++ [h.typ] ++ be16 h.length ++ be32 h.teid = pre
  have hp8 : pre.length = 8 := by rw [← hpre]; simp
  have henc : encH h = pre ++ encOpt h ++ encExts h ++ h.payload := by rw [← hpre]; simp [encH]
  have hsum : 8 + (encOpt h).length + (encExts h).length + h.payload.length = n := by
    rw [← hlen, henc]; simp only [List.length_append]; omega
  have w := writeOpt h pre hp8 (n - 1 - 1 - 2 - 4) (by omega)
  have : ∀ (K : Bytes → Res Bytes), (h.putSeq (pre ++ List.replicate (n - 1 - 1 - 2 - 4) 0) >>= fun b =>
        h.putNPDU b >>= fun b => h.putNext b >>= K)
      = K (pre ++ encOpt h ++ List.replicate (n - 1 - 1 - 2 - 4 - (encOpt h).length) 0) := by
    intro K
    have := congrArg (fun x => x >>= K) w
    simp only [Res.bind_assoc', bind_ok] at this
    exact this
  rw [this]
  have hoff : (if (h.hasSeq || h.hasNPDU || h.hasExt) = true then 12 else 8) = (pre ++ encOpt h).length := by
    rw [List.length_append, hp8, length_encOpt, hasSeq_eq, hasNPDU_eq, hasExt_eq]
    cases bit h.flags 2 <;> cases bit h.flags 1 <;> cases bit h.flags 0 <;> rfl
  rw [hoff]
  unfold Header.putExts
  rw [hasExt_eq]
  have hle := length_encExts h.exts
  have hex : (if bit h.flags 2 = true then
        Ext.writeAll h.exts (pre ++ encOpt h).length (pre ++ encOpt h ++ List.replicate (n - 1 - 1 - 2 - 4 - (encOpt h).length) 0)
      else ok ((pre ++ encOpt h).length, pre ++ encOpt h ++ List.replicate (n - 1 - 1 - 2 - 4 - (encOpt h).length) 0))
      = ok ((pre ++ encOpt h ++ encExts h).length, pre ++ encOpt h ++ encExts h ++ List.replicate h.payload.length 0) := by
    by_cases h2 : bit h.flags 2 = true
    · have e : encExts h = (h.exts.map encExt).flatten := by simp [encExts, h2]
      rw [if_pos h2, Ext.writeAll_zero h.exts _ _ (hok h2) (by rw [e, hle] at hsum; omega)]
      rw [e, hle] at hsum
      rw [e, List.length_append (bs := (h.exts.map encExt).flatten), hle]
      congr 4; omega
    · have e : encExts h = [] := by simp [encExts, h2]
      rw [if_neg h2, e, List.append_nil]
      rw [e, List.length_nil] at hsum
      congr 4; omega
  rw [hex, bind_ok]
  simp only [copyFrom]
  rw [copyAt_append rfl (by simp; omega) (by simp)]
  rw [henc]; simp

/-- closed form of the parser -/
def Header.parseSpec (b : Bytes) : Res Header :=
  match b with
  | f :: t :: l0 :: l1 :: a0 :: a1 :: a2 :: a3 :: r =>
    let n := l0.toNat * 256 + l1.toNat
    let len := UInt16.ofNat n
    let teid := UInt32.ofNat (a0.toNat * 16777216 + a1.toNat * 65536 + a2.toNat * 256 + a3.toNat)
    if r.length < n then err .tooShortParse else
    if bit f 2 || bit f 1 || bit f 0 then
      match r with
      | s0 :: s1 :: p :: x :: r2 =>
        if n < 4 then err .tooShortParse else
        let h : Header := ⟨f, t, len, teid, if bit f 1 then UInt16.ofNat (s0.toNat * 256 + s1.toNat) else 0,
          if bit f 0 then p else 0, if bit f 2 then x else 0, [], []⟩
        if bit f 2 then
          match Ext.parseMulti r2 with
          | .err e => err e
          | .panic => .panic
          | .diverge => diverge
          | .ok [] => .panic
          | .ok (e :: es) =>
            let k := e.marshalLen + (es.map Ext.marshalLen).sum
            if 4 + k > n then err .invalidLength else
            if 65528 ≤ n then .panic else
            ok { h with exts := { e with typ := x } :: es, payload := (r2.drop k).take (n - 4 - k) }
        else if 65528 ≤ n then .panic else ok { h with payload := r2.take (n - 4) }
      | _ => err .tooShortParse
    else if 65528 ≤ n then .panic else ok ⟨f, t, len, teid, 0, 0, 0, [], r.take n⟩
  | _ => err .tooShortParse

theorem Header.parse_eq (b : Bytes) : Header.parse b = Header.parseSpec b := by
  match b with
  | [] | [_] | [_, _] | [_, _, _] | [_, _, _, _] | [_, _, _, _, _] | [_, _, _, _, _, _] | [_, _, _, _, _, _, _] =>
    simp [Header.parse, Header.parseSpec]
  | f :: t :: l0 :: l1 :: a0 :: a1 :: a2 :: a3 :: r =>
    have hl0 := l0.toNat_lt; have hl1 := l1.toNat_lt
    have hN : (UInt16.ofNat (l0.toNat * 256 + l1.toNat)).toNat = l0.toNat * 256 + l1.toNat :=
      toNat_ofNat16 (by omega)
    have hW : (8 + UInt16.ofNat (l0.toNat * 256 + l1.toNat)).toNat = (8 + (l0.toNat * 256 + l1.toNat)) % 65536 := by
      rw [UInt16.toNat_add, hN]; rfl
    unfold Header.parse Header.parseSpec
    rw [if_neg (by simp)]
    simp only [idx_zero, idx_succ, bind_ok]
    rw [slice_of_le (by omega) (by simp), bind_ok, slice_of_le (by omega) (by simp)]
    simp only [List.drop_succ_cons, List.drop_zero, show 4 - 2 = 2 from rfl, show 8 - 4 = 4 from rfl,
      List.take_succ_cons, List.take_zero, rd16, rd32, bind_ok, hN]
    obtain ⟨n, hn⟩ : ∃ n, n = l0.toNat * 256 + l1.toNat := ⟨_, rfl⟩
    simp only [← hn] at hN hW ⊢
    generalize UInt32.ofNat (a0.toNat * 16777216 + a1.toNat * 65536 + a2.toNat * 256 + a3.toNat) = teid
    simp only [List.length_cons]
    by_cases hs : r.length < n
    · rw [if_pos (by omega), if_pos hs]
    rw [if_neg (by omega), if_neg hs]
    have fin : ∀ (K : Bytes → Res Header) (off : Nat), 8 ≤ off → off ≤ n + 8 →
        (if off > n + 8 then err .invalidLength else
          slice (f :: t :: l0 :: l1 :: a0 :: a1 :: a2 :: a3 :: r) off (8 + UInt16.ofNat n).toNat >>= K)
        = if 65528 ≤ n then .panic else K ((r.drop (off - 8)).take (n + 8 - off)) := by
      intro K off h8 hle
      rw [if_neg (by omega), hW]
      by_cases hov : 65528 ≤ n
      · rw [if_pos hov, slice, if_neg (by omega)]; rfl
      · rw [if_neg hov, Nat.mod_eq_of_lt (by omega), slice_of_le (by omega) (by simp only [List.length_cons]; omega),
          bind_ok]
        have e : (f :: t :: l0 :: l1 :: a0 :: a1 :: a2 :: a3 :: r).drop off = r.drop (off - 8) := by
          obtain ⟨k, rfl⟩ : ∃ k, off = k + 8 := ⟨off - 8, by omega⟩
          rfl
        rw [e, show 8 + n - off = n + 8 - off by omega]
    unfold Header.getOpt
    simp only [hasSeq_eq, hasNPDU_eq, hasExt_eq]
    by_cases hany : (bit f 2 || bit f 1 || bit f 0) = true
    · have hany' : (bit f 1 || bit f 0 || bit f 2) = true := by
        revert hany; cases bit f 2 <;> cases bit f 1 <;> cases bit f 0 <;> simp
      rw [if_pos hany']
      simp only [hany, if_true]
      match r with
      | [] | [_] | [_, _] | [_, _, _] => simp at hs; simp [hN, show n < 4 by omega]
      | s0 :: s1 :: p :: x :: r2 =>
        simp only [hN]
        by_cases h4 : n < 4
        · simp [h4]
        simp only [h4, if_false]
        have g1 : ∀ (h : Header), h.getSeq (f :: t :: l0 :: l1 :: a0 :: a1 :: a2 :: a3 :: s0 :: s1 :: p :: x :: r2)
            = ok { h with seq := if bit h.flags 1 then UInt16.ofNat (s0.toNat * 256 + s1.toNat) else h.seq } := by
          intro h
          unfold Header.getSeq
          rw [hasSeq_eq]
          cases bit h.flags 1
          · rfl
          · simp [slice, rd16]
        have g2 : ∀ (h : Header), h.getNPDU (f :: t :: l0 :: l1 :: a0 :: a1 :: a2 :: a3 :: s0 :: s1 :: p :: x :: r2)
            = ok { h with npdu := if bit h.flags 0 then p else h.npdu } := by
          intro h
          unfold Header.getNPDU
          rw [hasNPDU_eq]
          cases bit h.flags 0 <;> rfl
        have g3 : ∀ (h : Header), h.getNext (f :: t :: l0 :: l1 :: a0 :: a1 :: a2 :: a3 :: s0 :: s1 :: p :: x :: r2)
            = ok { h with next := if bit h.flags 2 then x else h.next } := by
          intro h
          unfold Header.getNext
          rw [hasExt_eq]
          cases bit h.flags 2 <;> rfl
        rw [g1, bind_ok, g2, bind_ok, g3, bind_ok, bind_ok]
        unfold Header.getExts
        simp only [hasExt_eq]
        by_cases h2 : bit f 2 = true
        · simp only [h2, if_true]
          rw [sliceFrom_of_le (by simp only [List.length_cons]; omega), bind_ok]
          simp only [List.drop_succ_cons, List.drop_zero]
          cases hm : Ext.parseMulti r2 with
          | err e => rfl
          | panic => rfl
          | diverge => rfl
          | ok l =>
            cases l with
            | nil => rfl
            | cons e es =>
              simp only [bind_ok, List.map_cons, List.sum_cons]
              have hml : ({ e with typ := x } : Ext).marshalLen = e.marshalLen := rfl
              rw [hml]
              generalize e.marshalLen + (es.map Ext.marshalLen).sum = k
              by_cases hk : 4 + k > n
              · rw [if_pos (by omega), if_pos hk]
              · rw [if_neg hk, fin _ (12 + k) (by omega) (by omega)]
                congr 3
                rw [show 12 + k - 8 = k + 4 by omega]
                simp only [List.drop_succ_cons]
                congr 1; omega
        · simp only [h2, Bool.false_eq_true, if_false, bind_ok]
          rw [fin _ 12 (by omega) (by omega)]
          simp only [List.drop_succ_cons, List.drop_zero, show 12 - 8 = 4 from rfl, show n + 8 - 12 = n - 4 by omega]
    · have hany' : ¬ (bit f 1 || bit f 0 || bit f 2) = true := by
        revert hany; cases bit f 2 <;> cases bit f 1 <;> cases bit f 0 <;> simp
      rw [if_neg hany']
      simp only [hany, Bool.false_eq_true, if_false, bind_ok]
      have h2 : bit f 2 = false := by revert hany; cases bit f 2 <;> simp
      unfold Header.getExts
      simp only [hasExt_eq, h2, Bool.false_eq_true, if_false, bind_ok]
      rw [fin _ 8 (by omega) (by omega)]
      simp

theorem Header.parse_encH (h : Header) (hw : Wf h) (r : Bytes) : Header.parse (encH h ++ r) = ok h := by
  rw [Header.parse_eq]
  obtain ⟨hlen, hfits, hseq, hnp, hno, hext⟩ := hw
  have hL := h.length.toNat_lt
  have hel : (encH h).length = 8 + (encOpt h).length + (encExts h).length + h.payload.length := by
    simp only [encH, List.length_append, List.length_cons, List.length_nil, length_be16, length_be32]
  have heo := length_encOpt h
  have e : encH h ++ r = h.flags :: h.typ :: UInt8.ofNat (h.length.toNat / 256) :: UInt8.ofNat h.length.toNat ::
      UInt8.ofNat (h.teid.toNat / 16777216) :: UInt8.ofNat (h.teid.toNat / 65536) :: UInt8.ofNat (h.teid.toNat / 256) ::
      UInt8.ofNat h.teid.toNat :: (encOpt h ++ encExts h ++ h.payload ++ r) := by
    simp [encH, be16, be32]
  rw [e]
  unfold Header.parseSpec
  have e16 := rd16_be16' h.length
  have e32 := rd32_be32' h.teid
  simp only [rd16, be16, rd32, be32, ok.injEq] at e16 e32
  have hn : (UInt8.ofNat (h.length.toNat / 256)).toNat * 256 + (UInt8.ofNat h.length.toNat).toNat = h.length.toNat := by
    simp only [UInt8.toNat_ofNat']; omega
  simp only [e32, hn, UInt16.ofNat_toNat]
  rw [if_neg (by simp only [List.length_append]; omega)]
  by_cases hany : (bit h.flags 2 || bit h.flags 1 || bit h.flags 0) = true
  · simp only [hany, if_true] at heo ⊢
    have eo : encOpt h = (if bit h.flags 1 then be16 h.seq else [0, 0]) ++ [if bit h.flags 0 then h.npdu else 0] ++
        [if bit h.flags 2 then h.next else 0] := by simp only [encOpt, hany, if_true]
    obtain ⟨s0, s1, hss, hsq⟩ : ∃ s0 s1, (if bit h.flags 1 then be16 h.seq else [0, 0]) = [s0, s1] ∧
        (if bit h.flags 1 then UInt16.ofNat (s0.toNat * 256 + s1.toNat) else 0) = h.seq := by
      cases hb : bit h.flags 1
      · exact ⟨0, 0, rfl, by simp [hseq hb]⟩
      · refine ⟨_, _, rfl, ?_⟩
        have := rd16_be16' h.seq
        simp only [rd16, be16, ok.injEq] at this
        simpa using this
    have hpq : (if bit h.flags 0 then (if bit h.flags 0 then h.npdu else 0) else 0) = h.npdu := by
      cases hb : bit h.flags 0
      · simp [hnp hb]
      · rfl
    have hnx : (if bit h.flags 2 then (if bit h.flags 2 then h.next else 0) else 0) = h.next := by
      cases hb : bit h.flags 2
      · simp [(hno hb).1]
      · rfl
    rw [eo, hss]
    simp only [List.cons_append, List.nil_append, hsq, hpq, hnx]
    rw [if_neg (by omega)]
    by_cases h2 : bit h.flags 2 = true
    · simp only [h2, if_true]
      obtain ⟨hc, hok⟩ := hext h2
      have ee : encExts h = (h.exts.map encExt).flatten := by simp [encExts, h2]
      obtain ⟨e, es, hes, hpm⟩ := Ext.parseMulti_chain h.exts (h.payload ++ r) h.next hc (fun e he => (hok e he).1)
      rw [ee, List.append_assoc, hpm]
      simp only []
      have hk : ({ padded e with typ := 0 } : Ext).marshalLen + ((es.map padded).map Ext.marshalLen).sum
          = (encExts h).length := by
        rw [ee, length_encExts, hes, List.map_cons, List.sum_cons, sum_padded]
        congr 1
        exact marshalLen_padded e
      rw [hk, if_neg (by omega), if_neg (by omega)]
      have hpe : ({ padded e with typ := h.next } : Ext) = e := by
        have he : e ∈ h.exts := by rw [hes]; exact List.mem_cons_self
        have ht : e.typ = h.next := by
          rw [hes] at hc
          cases es with
          | nil => simp [chain] at hc; exact hc.1
          | cons _ _ => simp [chain] at hc; exact hc.1.1
        rw [padded_eq e (hok e he).2, ← ht]
      have hps : es.map padded = es := by
        rw [List.map_congr_left (g := id) (fun x hx => padded_eq x (hok x (by rw [hes]; exact List.mem_cons_of_mem _ hx)).2)]
        simp
      have hd : ((h.exts.map encExt).flatten ++ (h.payload ++ r)).drop (encExts h).length = h.payload ++ r := by
        rw [← ee, List.drop_left]
      rw [hd, List.take_left' (by omega)]
      have : ({ padded e with typ := h.next } : Ext) :: es.map padded = h.exts := by rw [hpe, hps, hes]
      simp only [this]
    · simp only [h2, Bool.false_eq_true, if_false]
      rw [if_neg (by omega)]
      have ee : encExts h = [] := by simp [encExts, h2]
      have hx := hno (by simpa using h2)
      rw [ee] at hel ⊢
      simp only [List.nil_append]
      rw [List.take_left' (by simp only [List.length_nil] at hel; omega)]
      simp only [← hx.2]
  · have h2 : bit h.flags 2 = false := by revert hany; cases bit h.flags 2 <;> simp
    have h1 : bit h.flags 1 = false := by revert hany; cases bit h.flags 1 <;> simp
    have h0 : bit h.flags 0 = false := by revert hany; cases bit h.flags 0 <;> simp
    simp only [hany, Bool.false_eq_true, if_false] at heo ⊢
    rw [if_neg (by omega)]
    have eo : encOpt h = [] := by simp only [encOpt, hany, Bool.false_eq_true, if_false]
    have ee : encExts h = [] := by simp [encExts, h2]
    rw [eo, ee] at hel ⊢
    simp only [List.nil_append, List.append_nil, List.length_nil] at hel ⊢
    rw [List.take_left' (by omega)]
    cases h
    simp only [ok.injEq, Header.mk.injEq, true_and, and_true]
    exact ⟨(hseq h1).symm, (hnp h0).symm, (hno h2).1.symm, (hno h2).2.symm⟩

end Verif.V1
