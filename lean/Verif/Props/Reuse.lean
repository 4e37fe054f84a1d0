import Verif.Model.Reuse
import Verif.Proofs.V1IE
import Verif.Proofs.Order
import Verif.Proofs.V2Msg
import Verif.Proofs.V1Msg
import Verif.Proofs.V0Msg
/-
C93: decoding into a value that has been used before.
-/
theorem Verif.Reuse.bind_congr {α β : Type} {x : Verif.Res α} {f f' : α → Verif.Res β} (h : ∀ a, f a = f' a) :
    (x >>= f) = (x >>= f') := by rw [funext h]

namespace Verif.V2
open Res
variable (g : UInt8 → Bool)

/-- **C93** for GTPv2 headers, exact: the outcome is that of decoding into a fresh header, but for the TEID member when the T flag
is not set. -/
theorem C93_v2_header_partial (old : Header) (b : Bytes) :
    Header.into old b = Header.parse b >>= fun h => ok (if h.hasTEID then h else { h with teid := old.teid }) := by
  unfold Header.into Header.parse
  by_cases h12 : b.length < 12
  · rw [if_pos h12, if_pos h12]; rfl
  rw [if_neg h12, if_neg h12]
  cases idx b 0 <;> try rfl
  rename_i f
  cases idx b 1 <;> try rfl
  rename_i t
  simp only [bind_ok]
  cases slice b 2 4 <;> try rfl
  rename_i s
  simp only [bind_ok]
  cases rd16 s <;> try rfl
  rename_i n
  simp only [bind_ok]
  by_cases h4 : n.toNat < 4
  · rw [if_pos h4, if_pos h4]; rfl
  rw [if_neg h4, if_neg h4]
  obtain ⟨T, hT⟩ : ∃ T, ∀ a b c d e p, Header.hasTEID ⟨f, a, b, c, d, e, p⟩ = T :=
    ⟨Header.hasTEID ⟨f, 0, 0, 0, 0, 0, []⟩, fun _ _ _ _ _ _ => rfl⟩
  simp only [hT]
  cases T
  case true =>
    simp only [if_true]
    by_cases h8 : n.toNat < 8
    · rw [if_pos h8]; rfl
    rw [if_neg h8]
    cases slice b 4 8 <;> try rfl
    rename_i s
    simp only [bind_ok]
    cases rd32 s <;> try rfl
    simp only [bind_ok]
    cases slice b 8 11 <;> try rfl
    simp only [bind_ok]
    cases idx b 11 <;> try rfl
    simp only [bind_ok]
    split
    · cases sliceFrom b 12 <;> simp [bind_ok, hT]
    · split
      · cases slice b 12 (4 + n).toNat <;> simp [bind_ok, hT]
      · rfl
  case false =>
    simp only [Bool.false_eq_true, if_false]
    cases slice b 4 7 <;> try rfl
    simp only [bind_ok]
    cases idx b 7 <;> try rfl
    simp only [bind_ok]
    split
    · cases sliceFrom b 8 <;> simp [bind_ok, hT]
    · split
      · cases slice b 8 (4 + n).toNat <;> simp [bind_ok, hT]
      · rfl

/-- what is left over in a header is not written when it is serialised again -/
theorem C93_v2_header_octets (old h h' : Header) (b : Bytes) (h1 : Header.into old b = ok h') (h2 : Header.parse b = ok h) :
    h'.marshal = h.marshal ∧ h'.marshalLen = h.marshalLen := by
  rw [C93_v2_header_partial, h2] at h1
  simp only [bind_ok, ok.injEq] at h1
  split at h1
  · subst h1; exact ⟨rfl, rfl⟩
  · rename_i hT
    subst h1
    have hT' : h.hasTEID = false := by simpa using hT
    have e : ({ h with teid := old.teid } : Header).hasTEID = false := hT'
    have el : ({ h with teid := old.teid } : Header).marshalLen = h.marshalLen := rfl
    refine ⟨?_, rfl⟩
    unfold Header.marshal Header.marshalTo
    simp only [e, hT', el, Bool.false_eq_true, if_false]

/-- **C93** fails for GTPv2 headers: without T flag the TEID of the message decoded before is left in the header. -/
theorem C93_v2_teid_stale (old h : Header) (b : Bytes) (hp : Header.parse b = ok h) (hT : h.hasTEID = false)
    (ho : old.teid ≠ h.teid) : ∃ h', Header.into old b = ok h' ∧ h'.teid = old.teid ∧ h' ≠ h := by
  refine ⟨{ h with teid := old.teid }, ?_, rfl, ?_⟩
  · rw [C93_v2_header_partial, hp, bind_ok, hT]; rfl
  · intro e; have := congrArg Header.teid e; exact ho this

/-- a message with TEID 9, then one without -/
example : (Header.parse [0x48, 34, 0, 8, 0, 0, 0, 9, 0, 0, 1, 0] >>= fun h => Header.into h [0x40, 1, 0, 8, 0, 0, 2, 0, 3, 0, 0, 0])
    = ok ⟨0x40, 1, 8, 9, 2, 0, [3, 0, 0, 0]⟩ := by decide

/-- **C93** for GTPv2 elements, exact: the outcome is that of decoding into a fresh element, but for ChildIEs when the type is not a
grouped one. -/
theorem C93_v2_ie_partial (old : IE) (b : Bytes) :
    IE.into g old b = parse g b >>= fun x =>
      ok (if g x.typ then x else .mk x.typ x.len x.rawInst x.payload old.children) := by
  unfold IE.into parse parseF
  split
  · rfl
  cases idx b 0 <;> try rfl
  rename_i t
  simp only [bind_ok]
  cases slice b 1 3 <;> try rfl
  rename_i s
  simp only [bind_ok]
  cases rd16 s <;> try rfl
  rename_i n
  simp only [bind_ok]
  split
  · rfl
  cases idx b 3 <;> try rfl
  simp only [bind_ok]
  cases slice b 4 (4 + n.toNat) <;> try rfl
  rename_i p
  simp only [bind_ok]
  by_cases hg : g t = true
  · rw [if_pos hg, if_pos hg]
    cases parseMultiF g b.length p <;> simp [bind_ok, IE.typ, hg]
  · rw [if_neg hg, if_neg hg]
    simp [IE.typ, hg, IE.len, IE.rawInst, IE.payload]

/-- children left over are not written when the element is serialised again -/
theorem C93_v2_ie_octets (old x x' : IE) (b : Bytes) (h1 : IE.into g old b = ok x') (h2 : parse g b = ok x) :
    x'.marshal g = x.marshal g ∧ x'.marshalLen g = x.marshalLen g ∧ x'.typ = x.typ ∧ x'.len = x.len ∧
    x'.instance' = x.instance' ∧ x'.payload = x.payload := by
  rw [C93_v2_ie_partial, h2] at h1
  simp only [bind_ok, ok.injEq] at h1
  obtain ⟨t, n, i, p, cs⟩ := x
  split at h1
  · subst h1; exact ⟨rfl, rfl, rfl, rfl, rfl, rfl⟩
  · rename_i hg
    simp only [IE.typ] at hg
    subst h1
    simp only [IE.typ, IE.len, IE.rawInst, IE.payload, IE.marshal, IE.marshalTo, IE.marshalLen, IE.instance', hg,
      if_false, and_self, Bool.false_eq_true]

/-- **C93** fails for GTPv2 elements: the children of the grouped element decoded before stay. -/
theorem C93_v2_children_stale (old x : IE) (b : Bytes) (hp : parse g b = ok x) (hg : g x.typ = false)
    (ho : old.children ≠ x.children) : ∃ x', IE.into g old b = ok x' ∧ x'.children = old.children ∧ x' ≠ x := by
  refine ⟨.mk x.typ x.len x.rawInst x.payload old.children, ?_, ?_, ?_⟩
  · rw [C93_v2_ie_partial, hp, bind_ok, hg]; rfl
  · rfl
  · intro e; have := congrArg IE.children e; exact ho this

/-- a Bearer Context with an EPS Bearer ID in it, then a Recovery -/
example : (parse defaultGrouped [93, 0, 5, 0, 73, 0, 1, 0, 5] >>= fun x => IE.into defaultGrouped x [3, 0, 1, 0, 7])
    = ok (.mk 3 1 0 [7] [.mk 73 1 0 [5] []]) := by decide +kernel

end Verif.V2

namespace Verif.V1
open Res

/-- **C93** for GTPv1 extension headers, exact: UnmarshalBinary does not set Type (it is not among the octets). -/
theorem C93_v1_ext_partial (old : Ext) (b : Bytes) :
    Ext.into old b = Ext.parse b >>= fun e => ok { e with typ := old.typ } := by
  unfold Ext.into Ext.parse
  split
  · rfl
  cases idx b 0 <;> try rfl
  rename_i n
  simp only [bind_ok]
  split
  · rfl
  split
  · rfl
  cases slice b 1 (n.toNat * 4 - 1) <;> try rfl
  simp only [bind_ok]
  cases idx b (n.toNat * 4 - 1) <;> rfl

/-- the members of a header that are assigned only when their flag is set -/
def Header.left (old h : Header) : Header :=
  { h with seq := if h.hasSeq then h.seq else old.seq, npdu := if h.hasNPDU then h.npdu else old.npdu
           next := if h.hasExt then h.next else old.next, exts := if h.hasExt then h.exts else old.exts }

/-- **C93** for GTPv1 headers, exact: the outcome is that of decoding into a fresh header, but for sequence number, N-PDU number,
next type and extension headers whose flag is not set. -/
theorem C93_v1_header_partial (old : Header) (b : Bytes) :
    Header.into old b = Header.parse b >>= fun h => ok (Header.left old h) := by
  unfold Header.into Header.parse
  split
  · rfl
  cases idx b 0 <;> try rfl
  rename_i f
  simp only [bind_ok]
  cases idx b 1 <;> try rfl
  rename_i t
  simp only [bind_ok]
  cases slice b 2 4 <;> try rfl
  rename_i s
  simp only [bind_ok]
  cases rd16 s <;> try rfl
  rename_i n
  simp only [bind_ok]
  cases slice b 4 8 <;> try rfl
  rename_i s
  simp only [bind_ok]
  cases rd32 s <;> try rfl
  rename_i teid
  simp only [bind_ok]
  split
  · rfl
  obtain ⟨S, hS⟩ : ∃ S, ∀ a b c d e x y p, Header.hasSeq ⟨f, a, b, c, d, e, x, y, p⟩ = S :=
    ⟨Header.hasSeq ⟨f, 0, 0, 0, 0, 0, 0, [], []⟩, fun _ _ _ _ _ _ _ _ => rfl⟩
  obtain ⟨N, hN⟩ : ∃ N, ∀ a b c d e x y p, Header.hasNPDU ⟨f, a, b, c, d, e, x, y, p⟩ = N :=
    ⟨Header.hasNPDU ⟨f, 0, 0, 0, 0, 0, 0, [], []⟩, fun _ _ _ _ _ _ _ _ => rfl⟩
  obtain ⟨E, hE⟩ : ∃ E, ∀ a b c d e x y p, Header.hasExt ⟨f, a, b, c, d, e, x, y, p⟩ = E :=
    ⟨Header.hasExt ⟨f, 0, 0, 0, 0, 0, 0, [], []⟩, fun _ _ _ _ _ _ _ _ => rfl⟩
  simp only [Header.getOpt, Header.getSeq, Header.getNPDU, Header.getNext, Header.getExts, hS, hN, hE, Header.left]
  cases E <;> cases S <;> cases N <;> simp only [Bool.or_true, Bool.or_false, if_true, if_false, Bool.false_eq_true, bind_ok]
  all_goals repeat' first
    | rfl
    | (simp only [bind_assoc', bind_ok, hS, hN, hE, if_true, if_false, Bool.false_eq_true]; done)
    | (apply Reuse.bind_congr; intro _)
    | simp only [bind_assoc', bind_ok, hN, hE, if_true, if_false, Bool.false_eq_true]
    | split

/-- what is left over in a header is not written when it is serialised again -/
theorem C93_v1_header_octets (old h h' : Header) (b : Bytes) (h1 : Header.into old b = ok h') (h2 : Header.parse b = ok h) :
    h'.marshal = h.marshal ∧ h'.marshalLen = h.marshalLen := by
  rw [C93_v1_header_partial, h2, bind_ok, ok.injEq] at h1
  subst h1
  have eS : (Header.left old h).hasSeq = h.hasSeq := rfl
  have eN : (Header.left old h).hasNPDU = h.hasNPDU := rfl
  have eE : (Header.left old h).hasExt = h.hasExt := rfl
  have el : (Header.left old h).marshalLen = h.marshalLen := by
    unfold Header.marshalLen
    rw [eS, eN, eE]
    show _ + 8 + _ + (if _ then (((if h.hasExt then h.exts else old.exts).map Ext.marshalLen).sum) else 0) = _
    cases h.hasExt <;> rfl
  refine ⟨?_, el⟩
  unfold Header.marshal Header.marshalTo
  rw [el]
  have e1 : (Header.left old h).putSeq = h.putSeq := by
    funext b; unfold Header.putSeq; rw [eS]
    show (if _ then copyAt b 8 10 (be16 (if h.hasSeq then h.seq else old.seq)) else _) = _
    cases h.hasSeq <;> rfl
  have e2 : (Header.left old h).putNPDU = h.putNPDU := by
    funext b; unfold Header.putNPDU; rw [eN]
    show (if _ then setAt b 10 (if h.hasNPDU then h.npdu else old.npdu) else _) = _
    cases h.hasNPDU <;> rfl
  have e3 : (Header.left old h).putNext = h.putNext := by
    funext b; unfold Header.putNext; rw [eE]
    show (if _ then setAt b 11 (if h.hasExt then h.next else old.next) else _) = _
    cases h.hasExt <;> rfl
  have e4 : (Header.left old h).putExts = h.putExts := by
    funext o b; unfold Header.putExts; rw [eE]
    show (if _ then Ext.writeAll (if h.hasExt then h.exts else old.exts) o b else _) = _
    cases h.hasExt <;> rfl
  rw [e1, e2, e3, e4, eS, eN, eE]
  rfl

/-- **C93** fails for GTPv1 headers: without E flag the extension headers of the message decoded before are left, without S flag
its sequence number. -/
theorem C93_v1_header_stale (old h : Header) (b : Bytes) (hp : Header.parse b = ok h) :
    (h.hasExt = false → old.exts ≠ h.exts → ∃ h', Header.into old b = ok h' ∧ h'.exts = old.exts ∧ h' ≠ h) ∧
    (h.hasSeq = false → old.seq ≠ h.seq → ∃ h', Header.into old b = ok h' ∧ h'.sequence = old.seq ∧ h' ≠ h) := by
  constructor
  · intro hE ho
    have hx : (Header.left old h).exts = old.exts := by
      show (if h.hasExt then h.exts else old.exts) = _
      rw [hE]; rfl
    refine ⟨Header.left old h, by rw [C93_v1_header_partial, hp]; rfl, hx, ?_⟩
    intro e; rw [← hx, e] at ho; exact ho rfl
  · intro hS ho
    have hx : (Header.left old h).seq = old.seq := by
      show (if h.hasSeq then h.seq else old.seq) = _
      rw [hS]; rfl
    refine ⟨Header.left old h, by rw [C93_v1_header_partial, hp]; rfl, hx, ?_⟩
    intro e; rw [← hx, e] at ho; exact ho rfl

/-- an Echo Request with sequence number 7, then a G-PDU without -/
example : (Header.parse [0x32, 1, 0, 4, 0, 0, 0, 0, 0, 7, 0, 0] >>= fun h => Header.into h [0x30, 255, 0, 1, 0, 0, 0, 5, 0xaa])
    = ok ⟨0x30, 255, 1, 5, 7, 0, 0, [], [0xaa]⟩ := by decide

end Verif.V1

namespace Verif.V0
open Res

/-- **C93** for GTPv0 headers: all members are assigned. -/
theorem C93_v0_header (old : Header) (b : Bytes) : Header.into old b = Header.parse b := rfl

example : Header.into ⟨0x1e, 16, 1, 2, 3, 4, 5, [6]⟩ (List.replicate 20 0) = ok ⟨0, 0, 0, 0, 0, 0, 0, []⟩ := by decide

end Verif.V0

namespace Verif.TLV
open Res
variable (c : Cfg)

/-- **C93** for GTPv1 and GTPv0 elements, the case in which it holds: the element had no payload, or the type of the new one has a
length of its own, fixed by the type or given in the datagram in two octets.  Partial: the other types are below. -/
theorem C93_tlv_partial (old : IE) (b : Bytes)
    (h : old.payload = [] ∨ ∀ t, b[0]? = some t → c.tvLen t ≠ none ∨ (isTV t = false ∧ c.isEhtl t = false)) :
    IE.into c old b = parse c b := by
  unfold IE.into parse
  by_cases h2 : b.length < 2
  · rw [if_pos h2, if_pos h2]
  rw [if_neg h2, if_neg h2]
  obtain ⟨t, u, b', rfl⟩ : ∃ t u b', b = t :: u :: b' := by
    match b, h2 with
    | [], h2 => exact absurd (by simp) h2
    | [_], h2 => exact absurd (by simp) h2
    | t :: u :: b', _ => exact ⟨t, u, b', rfl⟩
  have i0 : idx (t :: u :: b') 0 = ok t := rfl
  rw [i0, bind_ok, bind_ok]
  have hm : (c.isEhtl t = true ∨ isTV t = true) →
      ∀ n, ({ old with typ := t, length := n } : IE).marshalLen c = (⟨t, 0, []⟩ : IE).marshalLen c := by
    intro hc n
    rcases h with h | h
    · unfold IE.marshalLen; dsimp only; rw [h]
    · rcases h t rfl with h | ⟨h, h'⟩
      · unfold IE.marshalLen; dsimp only
        cases hl : c.tvLen t with
        | none => exact absurd hl h
        | some l => rfl
      · rw [h, h'] at hc; rcases hc with hc | hc <;> cases hc
  by_cases he : c.isEhtl t = true
  · rw [if_pos he, if_pos he]
    unfold intoEHTL decodeEHTL
    dsimp only
    rw [hm (Or.inl he)]
  · rw [if_neg he, if_neg he]
    by_cases hv : isTV t = true
    · rw [if_pos hv, if_pos hv]
      unfold intoTV decodeTV
      dsimp only
      rw [hm (Or.inr hv), hm (Or.inr hv)]
    · rw [if_neg hv, if_neg hv]
      rfl

/-- **C93** fails for elements of an unknown type below 128: as many octets are taken as the element decoded before had, where a
fresh element takes none. -/
theorem C93_tlv_unknown_wrong (old : IE) (t : UInt8) (b : Bytes) (ht : isTV t = true) (hl : c.tvLen t = none) (hb : b ≠ []) :
    parse c (t :: b) = ok ⟨t, 0, []⟩ ∧
    (old.payload.length ≤ b.length → IE.into c old (t :: b) = ok ⟨t, 0, b.take old.payload.length⟩) ∧
    (b.length < old.payload.length → IE.into c old (t :: b) = err .invalidLength) := by
  have ht' : t.toNat < 128 := by simpa [isTV] using ht
  have he : c.isEhtl t = false := by
    unfold Cfg.isEhtl
    cases c.ehtl
    · rfl
    · simp only [Bool.true_and, beq_eq_false_iff_ne]
      intro e; subst e; revert ht'; decide
  obtain ⟨u, b', rfl⟩ : ∃ u b', b = u :: b' := by
    cases b with
    | nil => exact absurd rfl hb
    | cons u b' => exact ⟨u, b', rfl⟩
  have i0 : idx (t :: u :: b') 0 = ok t := rfl
  have h2 : ¬ (t :: u :: b').length < 2 := by simp
  have hml : ∀ n p, (⟨t, n, p⟩ : IE).marshalLen c = 1 + p.length := by
    intro n p; unfold IE.marshalLen; dsimp only; rw [hl]; dsimp only; rw [if_pos ht']
  refine ⟨?_, ?_, ?_⟩
  · unfold parse decodeTV
    rw [if_neg h2, i0, bind_ok, he, ht, if_neg h2]
    simp [hml, slice, bind_ok]
  · intro hle
    unfold IE.into intoTV
    rw [if_neg h2, i0, bind_ok, he]
    dsimp only
    rw [ht, if_neg h2, hml, hml]
    have : ¬ 1 + old.payload.length > (t :: u :: b').length := by simp only [List.length_cons] at hle ⊢; omega
    rw [if_neg (by decide), if_pos rfl, if_neg this, slice_of_le (by omega) (by omega), bind_ok]
    simp [Nat.add_comm 1]
  · intro hlt
    unfold IE.into intoTV
    rw [if_neg h2, i0, bind_ok, he]
    dsimp only
    rw [ht, if_neg h2, hml, hml]
    have : 1 + old.payload.length > (t :: u :: b').length := by simp only [List.length_cons] at hlt ⊢; omega
    rw [if_neg (by decide), if_pos rfl, if_pos this]

/-- **C93** fails for an Extension Header Type List: whatever the datagram, it is refused when the element decoded before was
longer than the datagram. -/
theorem C93_ehtl_wrong (old : IE) (b : Bytes) (hb : b ≠ []) (ho : b.length < 1 + old.payload.length) :
    IE.into v1 old (141 :: b) = err .invalidLength := by
  obtain ⟨u, b', rfl⟩ : ∃ u b', b = u :: b' := by
    cases b with
    | nil => exact absurd rfl hb
    | cons u b' => exact ⟨u, b', rfl⟩
  have i0 : idx (141 :: u :: b') 0 = ok 141 := rfl
  have h2 : ¬ (141 :: u :: b').length < 2 := by simp
  have he : v1.isEhtl 141 = true := by decide
  unfold IE.into intoEHTL
  rw [if_neg h2, i0, bind_ok, he]
  dsimp only
  rw [if_neg h2]
  have hm : ({ old with typ := 141 } : IE).marshalLen v1 = 2 + old.payload.length := by
    unfold IE.marshalLen
    have : v1.tvLen 141 = none := by decide
    dsimp only
    rw [this, he]
    rfl
  rw [if_pos rfl, hm, if_pos]
  simp only [List.length_cons] at ho ⊢; omega

/-- an IMSI after an APN; a type without meaning after the same APN; a list of one type after it -/
example : IE.into v1 ⟨131, 3, [1, 2, 3]⟩ [2, 0, 1, 2, 3, 4, 5, 6, 7, 99] = ok ⟨2, 0, [0, 1, 2, 3, 4, 5, 6, 7]⟩ := by decide
example : IE.into v1 ⟨131, 3, [1, 2, 3]⟩ [30, 7, 8, 9, 10] = ok ⟨30, 0, [7, 8, 9]⟩ ∧ parse v1 [30, 7, 8, 9, 10] = ok ⟨30, 0, []⟩ := by
  decide
example : IE.into v1 ⟨131, 3, [1, 2, 3]⟩ [141, 1, 0xc0] = err .invalidLength ∧
    parse v1 [141, 1, 0xc0] = ok ⟨141, 1, [0xc0]⟩ := by decide

end Verif.TLV

namespace Verif.Msg
open Res
variable {η ι : Type} (ho : HdrOps η) (io : IEOps ι)

/-- **C93** for messages of all three versions, the case in which it holds: the message has no elements. -/
theorem C93_message_fresh (s : Schema) (h0 : η) (b : Bytes) :
    into ho io ⟨s, h0, Fields.empty⟩ b = unmarshal ho io s b := rfl

/-- **C93** whether the octets are refused, with which error, and the header do not depend on what the message held.  Partial:
the elements do, see below. -/
theorem C93_message_partial (old : Message η ι) (b : Bytes) :
    (into ho io old b >>= fun m => ok (m.schema, m.hdr)) = (unmarshal ho io old.schema b >>= fun m => ok (m.schema, m.hdr)) := by
  unfold into unmarshal
  cases ho.parse b <;> try rfl
  rename_i h
  simp only [bind_ok]
  split
  · rfl
  · cases io.parseMulti (ho.payload h) <;> rfl

/-- **C93** fails for messages: decoding `b₂` into the message decoded from `b₁` gives the header of `b₂` and the elements a message
with those of `b₁` followed by those of `b₂` would give. -/
theorem C93_message_both_wrong (s : Schema) (b₁ b₂ : Bytes) (h₁ h₂ : η) (xs₁ xs₂ : List ι)
    (p₁ : ho.parse b₁ = ok h₁) (p₂ : ho.parse b₂ = ok h₂) (e₁ : ¬ (ho.payload h₁).length < 2) (e₂ : ¬ (ho.payload h₂).length < 2)
    (x₁ : io.parseMulti (ho.payload h₁) = ok xs₁) (x₂ : io.parseMulti (ho.payload h₂) = ok xs₂) :
    (unmarshal ho io s b₁ >>= fun m => into ho io m b₂) = ok ⟨s, h₂, classify io s.unRules s.unDefault (xs₁ ++ xs₂)⟩ := by
  unfold unmarshal into
  simp [p₁, p₂, x₁, x₂, e₁, e₂, bind_ok, classify, List.foldl_append]

/-- **C93** fails for messages: a field for which the datagram has no element keeps the element of the message decoded before,
where a fresh message has none. -/
theorem C93_message_stale (old m : Message η ι) (b : Bytes) (h : η) (xs : List ι) (f : Nat) (hp : ho.parse b = ok h)
    (hx : io.parseMulti (ho.payload h) = ok xs) (hf : ∀ x ∈ xs, f ∉ (sel old.schema.unRules old.schema.unDefault (io.typ x).toNat
      (io.inst x).toNat).touches) (hm : unmarshal ho io old.schema b = ok m) :
    m.fields f = [] ∧ ∃ m', into ho io old b = ok m' ∧ m'.fields f = old.fields f := by
  have keep : ∀ F : Fields ι, xs.foldl (fun F x =>
      (sel old.schema.unRules old.schema.unDefault (io.typ x).toNat (io.inst x).toNat).apply F x) F f = F f := by
    clear hx hm
    induction xs with
    | nil => intro F; rfl
    | cons x xs ih =>
      intro F
      rw [List.foldl_cons, ih (fun y hy => hf y (List.mem_cons_of_mem _ hy))]
      exact Order.apply_out _ _ _ _ (hf x List.mem_cons_self)
  unfold unmarshal at hm
  unfold into
  rw [hp, bind_ok] at hm ⊢
  split at hm
  · rename_i hs
    rw [if_pos hs]
    cases hm
    exact ⟨rfl, _, rfl, rfl⟩
  · rename_i hs
    rw [if_neg hs, hx, bind_ok]
    rw [hx, bind_ok] at hm
    cases hm
    exact ⟨keep _, _, rfl, keep _⟩

/-- **C93** fails for messages: elements for which the message has no field are added to those of the message decoded before. -/
theorem C93_message_additional_wrong (old : Message η ι) (b : Bytes) (h : η) (xs : List ι) (dd : Nat) (hp : ho.parse b = ok h)
    (h2 : ¬ (ho.payload h).length < 2) (hx : io.parseMulti (ho.payload h) = ok xs)
    (hf : ∀ x ∈ xs, sel old.schema.unRules old.schema.unDefault (io.typ x).toNat (io.inst x).toNat = .app dd) :
    ∃ m', into ho io old b = ok m' ∧ m'.fields dd = old.fields dd ++ xs := by
  refine ⟨_, by unfold into; rw [hp, bind_ok, if_neg (by simp [h2]), hx, bind_ok], ?_⟩
  dsimp only
  generalize old.fields = F
  clear hx
  induction xs generalizing F with
  | nil => simp
  | cons x xs ih =>
    rw [List.foldl_cons, ih (fun y hy => hf y (List.mem_cons_of_mem _ hy)), hf x List.mem_cons_self]
    simp [Act.apply, upd]

/-- **C93** messages of unknown types: the list of elements is replaced; partial: kept when the new message has no elements. -/
theorem C93_generic_partial (old : Message η ι) (b : Bytes) (h : η) (hp : ho.parse b = ok h) :
    (¬ (ho.payload h).length < 2 → (intoGeneric ho io old b >>= fun m => ok (m.fields 0)) = io.parseMulti (ho.payload h)) ∧
    ((ho.payload h).length < 2 → intoGeneric ho io old b = ok ⟨old.schema, h, old.fields⟩) := by
  unfold intoGeneric
  rw [hp, bind_ok]
  constructor
  · intro h2
    rw [if_neg h2]
    cases io.parseMulti (ho.payload h) <;> rfl
  · intro h2
    rw [if_pos h2]

end Verif.Msg

namespace Verif.V2
open Res Msg

/-- a GTPv2 Echo Response with Recovery 7 and a Private Extension, then one with Recovery 8 only: the Private Extension is still
there and is sent when the message is serialised again -/
example : ((unmarshal hdrOps (ieOps defaultGrouped) Tab.echoResponse
      [0x40, 2, 0, 17, 0, 0, 1, 0, 3, 0, 1, 0, 7, 255, 0, 4, 0, 0, 1, 2, 3]) >>= fun m =>
    into hdrOps (ieOps defaultGrouped) m [0x40, 2, 0, 9, 0, 0, 2, 0, 3, 0, 1, 0, 8]) >>= (fun m =>
    Msg.marshal hdrOps (ieOps defaultGrouped) m) >>= (fun r => ok r.2)
    = ok [0x40, 2, 0, 17, 0, 0, 2, 0, 3, 0, 1, 0, 8, 255, 0, 4, 0, 0, 1, 2, 3] := by decide +kernel

end Verif.V2

/-! ### cases that meet the hypotheses -/

namespace Verif.V2
open Res
example := C93_v2_header_octets ⟨0x48, 34, 8, 9, 1, 0, []⟩ _ _ [0x40, 1, 0, 8, 0, 0, 2, 0, 3, 0, 0, 0] rfl rfl
example := C93_v2_teid_stale ⟨0x48, 34, 8, 9, 1, 0, []⟩ _ [0x40, 1, 0, 8, 0, 0, 2, 0, 3, 0, 0, 0] rfl (by decide) (by decide)
example := C93_v2_ie_octets (g := defaultGrouped) (.mk 93 5 0 [] [.mk 73 1 0 [5] []]) (.mk 3 1 0 [7] []) (.mk 3 1 0 [7] [.mk 73 1 0 [5] []]) [3, 0, 1, 0, 7]
  (by decide +kernel) (by decide +kernel)
example := C93_v2_children_stale (g := defaultGrouped) (.mk 93 5 0 [] [.mk 73 1 0 [5] []]) (.mk 3 1 0 [7] []) [3, 0, 1, 0, 7] (by decide +kernel) (by decide)
  (by decide)
end Verif.V2
namespace Verif.V1
open Res
example := C93_v1_header_octets ⟨0x32, 1, 4, 0, 7, 0, 0, [], []⟩ _ _ [0x30, 255, 0, 1, 0, 0, 0, 5, 0xaa] rfl rfl
example := C93_v1_header_stale ⟨0x32, 1, 4, 0, 7, 0, 0, [], []⟩ _ [0x30, 255, 0, 1, 0, 0, 0, 5, 0xaa] rfl
end Verif.V1
namespace Verif.TLV
open Res
example := C93_tlv_partial (c := v1) ⟨131, 3, [1, 2, 3]⟩ [2, 0, 1, 2, 3, 4, 5, 6, 7, 99] (.inr (by intro t h; cases h; decide))
example := C93_tlv_unknown_wrong (c := v1) ⟨131, 3, [1, 2, 3]⟩ 30 [7, 8, 9, 10] (by decide) (by decide) (by decide)
example := C93_ehtl_wrong ⟨131, 3, [1, 2, 3]⟩ [1, 0xc0] (by decide) (by decide)
end Verif.TLV
namespace Verif.V2
open Res Msg
def exB1 : Bytes := [0x40, 2, 0, 17, 0, 0, 1, 0, 3, 0, 1, 0, 7, 255, 0, 4, 0, 0, 1, 2, 3]
def exB2 : Bytes := [0x40, 2, 0, 9, 0, 0, 2, 0, 3, 0, 1, 0, 8]
def exB3 : Bytes := [0x40, 2, 0, 9, 0, 0, 2, 0, 72, 0, 1, 0, 8]
def exOld : Message := ⟨Tab.echoResponse, ⟨0x40, 2, 17, 0, 1, 0, []⟩, fun f => if f = 1 then [.mk 255 4 0 [0, 1, 2, 3] []] else []⟩
example := C93_message_both_wrong hdrOps (ieOps defaultGrouped) Tab.echoResponse exB1 exB2 _ _ _ _ rfl rfl (by decide) (by decide) rfl rfl
example := C93_message_stale hdrOps (ieOps defaultGrouped) exOld _ exB2 _ _ 1 rfl rfl (by decide +kernel) rfl
example := C93_message_additional_wrong hdrOps (ieOps defaultGrouped) exOld exB3 _ _ 3 rfl (by decide) rfl (by decide +kernel)
example := C93_generic_partial hdrOps (ieOps defaultGrouped) exOld exB2 _ rfl
end Verif.V2
