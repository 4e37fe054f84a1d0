import Verif.Spec.V0Msg
import Verif.Proofs.MsgGen
import Verif.Proofs.V1IE
import Verif.Proofs.V2Header
/-
Helper lemmas on GTPv0 headers and messages.
-/
namespace Verif.V0
open Res Msg Spec

theorem length_encH (h : Header) : (encH h).length = h.marshalLen := by
  simp [encH, Header.marshalLen]; omega

theorem be32_sndcp (s : UInt8) : be32 (UInt32.ofNat (s.toNat * 2 ^ 24 + 0xffffff)) = [s, 0xff, 0xff, 0xff] := by
  revert s
  apply forall_byte (p := fun s => be32 (UInt32.ofNat (s.toNat * 2 ^ 24 + 0xffffff)) = [s, 0xff, 0xff, 0xff])
  decide +kernel

theorem be64_cases (n : UInt64) : ∃ a b c d e f g h : UInt8, be64 n = [a, b, c, d, e, f, g, h] ∧
    rd64 [a, b, c, d, e, f, g, h] = ok n :=
  ⟨_, _, _, _, _, _, _, _, rfl, rd64_be64' n⟩

theorem be64_rd64 (a b c d e f g h : UInt8) :
    be64 (UInt64.ofNat (a.toNat * 72057594037927936 + b.toNat * 281474976710656 + c.toNat * 1099511627776
      + d.toNat * 4294967296 + e.toNat * 16777216 + f.toNat * 65536 + g.toNat * 256 + h.toNat)) = [a, b, c, d, e, f, g, h] := by
  have ha := a.toNat_lt; have hb := b.toNat_lt; have hc := c.toNat_lt; have hd := d.toNat_lt
  have he := e.toNat_lt; have hf := f.toNat_lt; have hg := g.toNat_lt; have hh := h.toNat_lt
  simp only [be64, UInt64.toNat_ofNat', List.cons.injEq, and_true]
  refine ⟨?_, ?_, ?_, ?_, ?_, ?_, ?_, ?_⟩ <;> apply UInt8.toNat_inj.mp <;> simp only [UInt8.toNat_ofNat'] <;> omega

theorem cases20 (b : Bytes) (h : 20 ≤ b.length) : ∃ x0 x1 x2 x3 x4 x5 x6 x7 x8 x9 x10 x11 x12 x13 x14 x15 x16 x17 x18 x19 r,
    b = x0 :: x1 :: x2 :: x3 :: x4 :: x5 :: x6 :: x7 :: x8 :: x9 :: x10 :: x11 :: x12 :: x13 :: x14 :: x15 :: x16 :: x17 :: x18 :: x19 :: r := by
  have step : ∀ (b : Bytes) n, n + 1 ≤ b.length → ∃ x r, b = x :: r ∧ n ≤ r.length := by
    intro b n h
    cases b with
    | nil => simp at h
    | cons x r => exact ⟨x, r, rfl, by simp at h; omega⟩
  obtain ⟨x0, b, rfl, h0⟩ := step b 19 h
  obtain ⟨x1, b, rfl, h1⟩ := step b 18 h0
  obtain ⟨x2, b, rfl, h2⟩ := step b 17 h1
  obtain ⟨x3, b, rfl, h3⟩ := step b 16 h2
  obtain ⟨x4, b, rfl, h4⟩ := step b 15 h3
  obtain ⟨x5, b, rfl, h5⟩ := step b 14 h4
  obtain ⟨x6, b, rfl, h6⟩ := step b 13 h5
  obtain ⟨x7, b, rfl, h7⟩ := step b 12 h6
  obtain ⟨x8, b, rfl, h8⟩ := step b 11 h7
  obtain ⟨x9, b, rfl, h9⟩ := step b 10 h8
  obtain ⟨x10, b, rfl, h10⟩ := step b 9 h9
  obtain ⟨x11, b, rfl, h11⟩ := step b 8 h10
  obtain ⟨x12, b, rfl, h12⟩ := step b 7 h11
  obtain ⟨x13, b, rfl, h13⟩ := step b 6 h12
  obtain ⟨x14, b, rfl, h14⟩ := step b 5 h13
  obtain ⟨x15, b, rfl, h15⟩ := step b 4 h14
  obtain ⟨x16, b, rfl, h16⟩ := step b 3 h15
  obtain ⟨x17, b, rfl, h17⟩ := step b 2 h16
  obtain ⟨x18, b, rfl, h18⟩ := step b 1 h17
  obtain ⟨x19, b, rfl, h19⟩ := step b 0 h18
  exact ⟨_, _, _, _, _, _, _, _, _, _, _, _, _, _, _, _, _, _, _, _, _, rfl⟩

theorem Header.marshalTo_eq (h : Header) (b : Bytes) (hb : h.marshalLen ≤ b.length) :
    h.marshalTo b = ok (encH h ++ b.drop h.marshalLen) := by
  unfold Header.marshalTo
  rw [if_neg (by omega)]
  have h20 : 20 ≤ b.length := by unfold Header.marshalLen at hb; omega
  obtain ⟨l0, l1, hl, _⟩ := V2.be16_cases h.length
  obtain ⟨s0, s1, hs, _⟩ := V2.be16_cases h.seq
  obtain ⟨f0, f1, hf, _⟩ := V2.be16_cases h.label
  obtain ⟨t0, t1, t2, t3, t4, t5, t6, t7, ht, _⟩ := be64_cases h.tid
  obtain ⟨x0, x1, x2, x3, x4, x5, x6, x7, x8, x9, x10, x11, x12, x13, x14, x15, x16, x17, x18, x19, r, rfl⟩ := cases20 b h20
  simp only [Header.marshalLen, List.length_cons] at hb
  have hr : h.payload.length ≤ r.length := by omega
  rw [be32_sndcp, hl, hs, hf, ht]
  simp only [encH, hl, hs, hf, ht]
  have e : copyAt ([h.flags, h.typ, l0, l1, s0, s1, f0, f1, h.sndcp, 0xff, 0xff, 0xff, t0, t1, t2, t3, t4, t5, t6, t7] ++ r)
      20 (20 + h.payload.length) h.payload
      = ok ([h.flags, h.typ, l0, l1, s0, s1, f0, f1, h.sndcp, 0xff, 0xff, 0xff, t0, t1, t2, t3, t4, t5, t6, t7] ++ h.payload ++ r.drop h.payload.length) :=
    copyAt_append rfl (by omega) (by omega)
  have e2 : (List.drop (20 + h.payload.length) (x0 :: x1 :: x2 :: x3 :: x4 :: x5 :: x6 :: x7 :: x8 :: x9 :: x10 :: x11 :: x12 :: x13 :: x14 :: x15 :: x16 :: x17 :: x18 :: x19 :: r))
      = r.drop h.payload.length := by
    rw [Nat.add_comm]; rfl
  simp only [Header.marshalLen]
  rw [e2]
  exact e

theorem Header.marshal_eq (h : Header) : h.marshal = ok (encH h) := by
  rw [Header.marshal, Header.marshalTo_eq _ _ (by simp)]
  rw [List.drop_eq_nil_of_le (by simp), List.append_nil]

/-- closed form of the parser on at least 20 octets -/
theorem Header.parse_cons (x0 x1 x2 x3 x4 x5 x6 x7 x8 x9 x10 x11 x12 x13 x14 x15 x16 x17 x18 x19 : UInt8) (r : Bytes) :
    Header.parse (x0 :: x1 :: x2 :: x3 :: x4 :: x5 :: x6 :: x7 :: x8 :: x9 :: x10 :: x11 :: x12 :: x13 :: x14 :: x15 :: x16 :: x17 :: x18 :: x19 :: r)
    = if x2.toNat * 256 + x3.toNat = r.length ∧ 65516 ≤ r.length then .panic else
      (rd64 [x12, x13, x14, x15, x16, x17, x18, x19] >>= fun tid =>
      ok ⟨x0, x1, UInt16.ofNat (x2.toNat * 256 + x3.toNat), UInt16.ofNat (x4.toNat * 256 + x5.toNat), x9,
        UInt16.ofNat (x6.toNat * 256 + x7.toNat), tid, r⟩) := by
  have hx2 := x2.toNat_lt
  have hx3 := x3.toNat_lt
  unfold Header.parse
  rw [if_neg (by simp only [List.length_cons]; omega)]
  obtain ⟨n, hn⟩ : ∃ n, n = UInt16.ofNat (x2.toNat * 256 + x3.toNat) := ⟨_, rfl⟩
  have hnn : n.toNat = x2.toNat * 256 + x3.toNat := by rw [hn, toNat_ofNat16 (by omega)]
  have es : ∀ (a b : Nat) (_ : a ≤ b) (_ : b ≤ 20), slice (x0 :: x1 :: x2 :: x3 :: x4 :: x5 :: x6 :: x7 :: x8 :: x9 :: x10 :: x11 :: x12 :: x13 :: x14 :: x15 :: x16 :: x17 :: x18 :: x19 :: r) a b
      = ok (((x0 :: x1 :: x2 :: x3 :: x4 :: x5 :: x6 :: x7 :: x8 :: x9 :: x10 :: x11 :: x12 :: x13 :: x14 :: x15 :: x16 :: x17 :: x18 :: x19 :: r).drop a).take (b - a)) := by
    intro a b h1 h2
    exact slice_of_le h1 (by simp only [List.length_cons]; omega)
  rw [es 2 4 (by omega) (by omega), es 4 6 (by omega) (by omega), es 6 8 (by omega) (by omega), es 12 20 (by omega) (by omega)]
  simp only [idx, List.getElem?_cons_succ, List.getElem?_cons_zero, bind_ok, List.drop_succ_cons, List.drop_zero, List.take_succ_cons, List.take_zero, Nat.reduceSub, rd16]
  rw [← hn]
  obtain ⟨tid, htid⟩ : ∃ t, rd64 [x12, x13, x14, x15, x16, x17, x18, x19] = ok t := ⟨_, rfl⟩
  rw [htid, bind_ok, bind_ok]
  simp only [List.length_cons]
  by_cases h : n.toNat + 20 = r.length + 1 + 1 + 1 + 1 + 1 + 1 + 1 + 1 + 1 + 1 + 1 + 1 + 1 + 1 + 1 + 1 + 1 + 1 + 1 + 1
  · rw [if_neg (by simp [h])]
    by_cases hbig : 65516 ≤ r.length
    · rw [if_pos ⟨by omega, hbig⟩]
      have : (20 + n).toNat = 20 + n.toNat - 65536 := by
        have := n.toNat_lt
        rw [UInt16.toNat_add]
        simp only [UInt16.reduceToNat, Nat.reducePow]
        omega
      rw [this]
      have hlt := n.toNat_lt
      rw [slice]
      split
      · omega
      · rfl
    · rw [if_neg (by omega)]
      have : (20 + n).toNat = 20 + n.toNat := by
        rw [UInt16.toNat_add]
        simp only [UInt16.reduceToNat, Nat.reducePow]
        omega
      rw [this, slice_of_le (by omega) (by simp only [List.length_cons]; omega)]
      simp only [List.drop_succ_cons, List.drop_zero, bind_ok]
      rw [List.take_of_length_le (by omega)]
  · rw [if_pos h, if_neg (by omega)]
    rfl

theorem Header.parse_short (b : Bytes) (h : b.length < 20) : Header.parse b = err .tooShortParse := by
  unfold Header.parse; rw [if_pos h]

/-- parsing a serialised header: the number after the flow label is replaced by the octet that follows it -/
theorem Header.parse_encH (h : Header) (hfit : h.payload.length ≤ 65515) :
    Header.parse (encH h) = ok { h with sndcp := 0xff } := by
  obtain ⟨l0, l1, hl, hl'⟩ := V2.be16_cases h.length
  obtain ⟨s0, s1, hs, hs'⟩ := V2.be16_cases h.seq
  obtain ⟨f0, f1, hf, hf'⟩ := V2.be16_cases h.label
  obtain ⟨t0, t1, t2, t3, t4, t5, t6, t7, ht, ht'⟩ := be64_cases h.tid
  simp only [encH, hl, hs, hf, ht, List.cons_append, List.nil_append]
  rw [Header.parse_cons, if_neg (by omega), ht', bind_ok]
  rw [hl', hs', hf', UInt16.ofNat_toNat, UInt16.ofNat_toNat, UInt16.ofNat_toNat]

/-- what a parsed header says about the octets -/
theorem Header.parse_faithful (b : Bytes) (h : Header) (hp : Header.parse b = ok h) :
    20 ≤ b.length ∧ h.payload = b.drop 20 ∧ b[0]? = some h.flags ∧ b[1]? = some h.typ ∧
    (b.drop 2).take 2 = be16 h.length ∧ (b.drop 4).take 2 = be16 h.seq ∧ (b.drop 6).take 2 = be16 h.label ∧
    b[9]? = some h.sndcp ∧ (b.drop 12).take 8 = be64 h.tid := by
  by_cases hb : b.length < 20
  · rw [Header.parse_short b hb] at hp; cases hp
  obtain ⟨x0, x1, x2, x3, x4, x5, x6, x7, x8, x9, x10, x11, x12, x13, x14, x15, x16, x17, x18, x19, r, rfl⟩ := cases20 b (by omega)
  rw [Header.parse_cons] at hp
  split at hp
  · cases hp
  rw [bind_eq_ok] at hp
  obtain ⟨tid, ht, hp⟩ := hp
  simp only [ok.injEq] at hp
  subst hp
  simp only [rd64, ok.injEq] at ht
  refine ⟨by omega, rfl, rfl, rfl, (be16_rd16 _ _).symm, (be16_rd16 _ _).symm, (be16_rd16 _ _).symm, rfl, ?_⟩
  rw [← ht]
  exact (be64_rd64 _ _ _ _ _ _ _ _).symm

/-! ### messages -/

abbrev renc : TLV.IE → Bytes := TLV.rawEnc TLV.Spec.v0
/-- an IE that is represented faithfully (TLV/Spec) and carries a value -/
abbrev okIE (x : TLV.IE) : Prop := TLV.Spec.wf TLV.Spec.v0 x = true ∧ TLV.Spec.hasValue x = true

theorem ieLaws : IELaws ieOps renc (TLV.sized TLV.Spec.v0) okIE := TLV.ieLaws TLV.agree_v0

theorem hdrLaws : HdrLaws hdrOps where
  pay _ _ := rfl
  len h p := by simp only [hdrOps, Header.marshalLen]; omega
  setset _ _ _ := rfl
  lenL _ := rfl
  payL _ := rfl
  setL _ _ := rfl
  payLe h := by simp only [hdrOps, Header.marshalLen]; omega

/-- writing an IE into no space -/
theorem mto_nil (x : TLV.IE) : ieOps.mto x [] = err .tooShortMarshal := by
  have h : 1 ≤ x.marshalLen TLV.v0 := by
    unfold TLV.IE.marshalLen
    repeat (first | omega | split)
  show TLV.IE.marshalTo TLV.v0 x [] = _
  unfold TLV.IE.marshalTo
  rw [if_pos (by simp only [List.length_nil]; omega)]

/-- the message object left by a successful Marshal -/
abbrev done (m : Message) : Message := doneM hdrOps renc m

theorem payload_done (m : Message) : (done m).hdr.payload = Msg.body renc m.schema m.fields := rfl

theorem mto_done (h : Header) : hdrOps.mto h (List.replicate (hdrOps.mlen h) 0) = ok (encH h) := Header.marshal_eq h

theorem parse_done (h : Header) (hs : h.sndcp = 0xff) (hp : h.payload.length ≤ 65515) : hdrOps.parse (encH h) = ok h := by
  have := Header.parse_encH h hp
  rw [← hs] at this
  exact this

theorem idx_one_encH (h : Header) : idx (encH h) 1 = ok h.typ := rfl

theorem two_le_encH (h : Header) : 2 ≤ (encH h).length := by
  rw [length_encH]; unfold Header.marshalLen; omega

theorem parseMsg_encH (h : Header) (ht : h.typ ≠ 255) :
    parseMsg (encH h) = (unmarshal hdrOps ieOps (schemaOf h.typ) (encH h) >>= fun m => ok (.msg m)) := by
  have := two_le_encH h
  rw [parseMsg, if_neg (by omega), idx_one_encH, bind_ok, if_neg (by simpa using ht)]

theorem parseMsg_tpdu (h : Header) (ht : h.typ = 255) :
    parseMsg (encH h) = (Header.parse (encH h) >>= fun h => ok (.tpdu h)) := by
  have := two_le_encH h
  rw [parseMsg, if_neg (by omega), idx_one_encH, bind_ok, if_pos (by simpa using ht)]

theorem schemaOf_all : ∀ s ∈ Tab.all, schemaOf s.typ = s := by
  intro s hs
  simp only [Tab.all, List.mem_cons, List.not_mem_nil, or_false] at hs
  rcases hs with rfl|rfl|rfl|rfl|rfl|rfl|rfl|rfl <;> rfl

theorem all_lensOK : ∀ s ∈ Tab.all, s.lensOK = true := by decide +kernel
theorem all_unGood : ∀ s ∈ Tab.all, s.unGood = true := by decide +kernel
theorem all_newSub : ∀ s ∈ Tab.all, s.newSub = true := by decide +kernel
theorem all_advOK : ∀ s ∈ Tab.all, s.advOK = true := by decide +kernel
theorem all_typ : ∀ s ∈ Tab.all, s.typ ≠ 255 := by decide +kernel
theorem all_flags : ∀ s ∈ Tab.all, s.flags = 0x1e := by decide +kernel
theorem dispatch_all : ∀ p ∈ Tab.dispatch, p.2 ∈ Tab.all ∧ p.2.typ = p.1 := by
  intro p hp
  simp only [Tab.dispatch, List.mem_cons, List.not_mem_nil, or_false] at hp
  rcases hp with rfl|rfl|rfl|rfl|rfl|rfl|rfl|rfl <;> exact ⟨by simp [Tab.all], rfl⟩

/-- the struct chosen for a type: one of the table, or Generic for a type not in the table -/
theorem schemaOf_cases (t : UInt8) : (schemaOf t ∈ Tab.all ∧ (schemaOf t).typ = t) ∨
    (schemaOf t = genericSchema t ∧ ∀ s ∈ Tab.all, s.typ ≠ t) := by
  cases hf : Tab.dispatch.find? (fun p => p.1 == t) with
  | some p =>
    left
    have h1 := List.mem_of_find?_eq_some hf
    have h2 := List.find?_some hf
    simp only [beq_iff_eq] at h2
    have h3 := dispatch_all p h1
    simp only [schemaOf, hf]
    exact ⟨h3.1, h3.2.trans h2⟩
  | none =>
    right
    refine ⟨by simp only [schemaOf, hf], ?_⟩
    intro s hs ht
    subst ht
    have : schemaOf s.typ = genericSchema s.typ := by simp only [schemaOf, hf]
    rw [schemaOf_all s hs] at this
    have hfd : s.fields = ["IEs"] := by rw [this]; rfl
    have hne : ∀ s ∈ Tab.all, s.fields ≠ ["IEs"] := by decide +kernel
    exact hne s hs hfd

/-- facts shared by the table and Generic -/
theorem schema_facts (s : Schema) (h : s ∈ Tab.all ∨ ∃ t, s = genericSchema t) :
    s.lensOK = true ∧ s.unGood = true ∧ s.newSub = true ∧ s.advOK = true := by
  rcases h with h | ⟨t, rfl⟩
  · exact ⟨all_lensOK s h, all_unGood s h, all_newSub s h, all_advOK s h⟩
  · exact ⟨rfl, rfl, rfl, rfl⟩

/-- the header of a finished constructed message -/
theorem done_newMessage (s : Schema) (hs : s ∈ Tab.all ∨ ∃ t, s = genericSchema t) (seq label : UInt16) (tid : UInt64)
    (ies : List (Option TLV.IE)) (hw : ∀ x, some x ∈ ies → TLV.sized TLV.Spec.v0 x) :
    (done (newMessage s seq label tid ies)).hdr.marshalLen = 20 + (Msg.body renc s (newFields ieOps s ies)).length ∧
    (Msg.body renc s (newFields ieOps s ies)).length ≤ ((ies.filterMap id).map (TLV.IE.marshalLen TLV.v0)).sum ∧
    Msg.marshalLen hdrOps ieOps (newMessage s seq label tid ies) = ((done (newMessage s seq label tid ies)).hdr.marshalLen : Int) := by
  obtain ⟨hl, hu, _, _⟩ := schema_facts s hs
  refine ⟨rfl, length_newBody ieLaws s hl hu ies hw, ?_⟩
  exact Msg.marshalLen_eq hdrLaws ieLaws _ hl
      (classify_mem ieOps s.newRules s.newDefault _ _ (fun x hx => hw x (by simpa using hx)))

/-- serialising a constructed message -/
theorem marshalMsg_new (s : Schema) (hs : s ∈ Tab.all ∨ ∃ t, s = genericSchema t) (seq label : UInt16) (tid : UInt64)
    (ies : List (Option TLV.IE)) (hw : ∀ x, some x ∈ ies → okIE x) :
    marshalMsg (newMessage s seq label tid ies)
      = ok (done (newMessage s seq label tid ies), encH (done (newMessage s seq label tid ies)).hdr) := by
  obtain ⟨hl, hu, hn, ha⟩ := schema_facts s hs
  have hstab := stable_new ieOps s hu (ies.filterMap id) (fun x _ => newSub_sound ieOps s hn x)
  exact Msg.marshal_eq hdrLaws ieLaws (newMessage s seq label tid ies)
    (encH (done (newMessage s seq label tid ies)).hdr) hl (clobberless_of_advOK s ha _ hstab.scalar)
    (classify_mem ieOps s.newRules s.newDefault _ _ (fun x h => ieLaws.wf_sz x (hw x (by simpa using h)))) (Or.inr rfl)
    (mto_done _)

/-- round trip of constructed messages, table and Generic -/
theorem round_trip (s : Schema) (hs : s ∈ Tab.all ∨ ∃ t, s = genericSchema t) (hty : schemaOf s.typ = s) (h255 : s.typ ≠ 255)
    (seq label : UInt16) (tid : UInt64) (ies : List (Option TLV.IE)) (hw : ∀ x, some x ∈ ies → okIE x)
    (hmax : 20 + ((ies.filterMap id).map (TLV.IE.marshalLen TLV.v0)).sum < 65536) :
    parseMsg (encH (done (newMessage s seq label tid ies)).hdr) = ok (.msg (done (newMessage s seq label tid ies))) := by
  obtain ⟨hl, hu, hn, ha⟩ := schema_facts s hs
  have hsz : ∀ x, some x ∈ ies → TLV.sized TLV.Spec.v0 x := fun x hx => ieLaws.wf_sz x (hw x hx)
  obtain ⟨d1, d2, d3⟩ := done_newMessage s hs seq label tid ies hsz
  have hmem : ∀ x ∈ ies.filterMap id, some x ∈ ies := fun x hx => by simpa using hx
  have hpl : (done (newMessage s seq label tid ies)).hdr.payload.length ≤ 65515 := by
    have : (done (newMessage s seq label tid ies)).hdr.payload = Msg.body renc s (newFields ieOps s ies) := rfl
    rw [this]; omega
  have hsub := newSub_sound ieOps s hn
  have hstab := stable_new ieOps s hu (ies.filterMap id) (fun x _ => hsub x)
  have hcore := round_trip_core hdrLaws ieLaws (newMessage s seq label tid ies) (encH (done (newMessage s seq label tid ies)).hdr)
    hl (clobberless_of_advOK s ha _ hstab.scalar)
    (classify_mem ieOps s.newRules s.newDefault _ _ (fun x hx => hw x (hmem x hx))) (Or.inr rfl)
    (classify_new ieOps s hu _ (fun x _ => hsub x))
    (mto_done _) (parse_done _ rfl hpl)
  rw [parseMsg_encH _ h255]
  have e : schemaOf (done (newMessage s seq label tid ies)).hdr.typ = (newMessage s seq label tid ies).schema := hty
  rw [e, hcore.2, bind_ok]

end Verif.V0
