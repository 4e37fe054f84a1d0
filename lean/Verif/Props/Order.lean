import Verif.Proofs.Order
import Verif.Props.V2Msg
import Verif.Props.V1Msg
import Verif.Props.V0Msg
/-
Property theorems C90 (the order in which a message gives elements of different types does not matter) and C91 (which of
several elements of one type counts), for GTPv2, GTPv1 and GTPv0, for constructors and for the parser.
-/
namespace Verif.Msg.Order
open Res Msg

variable {ι : Type}

/-- two lists have the same elements of each type, in the same order -/
def SameByType (io : IEOps ι) (xs ys : List ι) : Prop :=
  ∀ t : UInt8, xs.filter (fun x => io.typ x == t) = ys.filter (fun x => io.typ x == t)

/-- the place of the field AdditionalIEs, which takes what has no field of its own -/
def additional (s : Schema) : Nat := s.fields.idxOf "AdditionalIEs"

/-- two lists have the same elements that can come to AdditionalIEs when given to the constructor, in the same order;
an element can come there if it does when it is given four times over -/
def SameSpareNew (io : IEOps ι) (s : Schema) (xs ys : List ι) : Prop :=
  xs.filter (counts io s.newRules s.newDefault (additional s)) = ys.filter (counts io s.newRules s.newDefault (additional s))

/-- the same for the parser -/
def SameSpareParse (io : IEOps ι) (s : Schema) (xs ys : List ι) : Prop :=
  xs.filter (counts io s.unRules s.unDefault (additional s)) = ys.filter (counts io s.unRules s.unDefault (additional s))

/-- table facts, constructor and parser -/
def tableOK (s : Schema) : Bool :=
  apart s.newRules s.newDefault (additional s) && apart s.unRules s.unDefault (additional s) &&
  shallow s.newRules s.newDefault (additional s) && shallow s.unRules s.unDefault (additional s)

theorem v2_tables : ∀ s ∈ V2.Tab.all, tableOK s = true := by decide +kernel
theorem v1_tables : ∀ s ∈ V1.Tab.all, tableOK s = true := by decide +kernel
theorem v0_tables : ∀ s ∈ V0.Tab.all, tableOK s = true := by decide +kernel

theorem tableOK_iff {s : Schema} (h : tableOK s = true) :
    (Apart s.newRules s.newDefault (additional s) ∧ Apart s.unRules s.unDefault (additional s)) ∧
    shallow s.newRules s.newDefault (additional s) = true ∧ shallow s.unRules s.unDefault (additional s) = true := by
  simp only [tableOK, Bool.and_eq_true] at h
  exact ⟨⟨apart_iff h.1.1.1, apart_iff h.1.1.2⟩, h.1.2, h.2⟩

end Verif.Msg.Order

namespace Verif.V2
open Res Spec Msg Msg.Order

variable (g : UInt8 → Bool)

/-! ### C90, GTPv2 -/

/-- **C90** two argument lists of a GTPv2 constructor with the same elements of each type in the same order give the same
fields, AdditionalIEs aside. -/
theorem C90_v2_new_named (s : Schema) (hs : s ∈ Tab.all) (teid seq : UInt32) (xs ys : List (Option IE))
    (hxy : SameByType (ieOps g) (xs.filterMap id) (ys.filterMap id)) (f : Nat) (hf : f ≠ additional s) :
    (newMessage g s teid seq xs).fields f = (newMessage g s teid seq ys).fields f :=
  classify_regroup (ieOps g) (tableOK_iff (v2_tables s hs)).1.1 _ _ hxy f hf

/-- **C90** … and the same message altogether, so the same octets, when those that can come to AdditionalIEs are in the
same order too. -/
theorem C90_v2_new (s : Schema) (hs : s ∈ Tab.all) (teid seq : UInt32) (xs ys : List (Option IE))
    (hxy : SameByType (ieOps g) (xs.filterMap id) (ys.filterMap id))
    (hr : SameSpareNew (ieOps g) s (xs.filterMap id) (ys.filterMap id)) :
    newMessage g s teid seq xs = newMessage g s teid seq ys := by
  have h := tableOK_iff (v2_tables s hs)
  have : newFields (ieOps g) s xs = newFields (ieOps g) s ys := classify_eq (ieOps g) h.1.1 h.2.1 _ _ hxy hr
  unfold newMessage
  rw [this]

theorem encs_perm_length {xs ys : List IE} (h : xs.Perm ys) : (encs g xs).length = (encs g ys).length := by
  induction h with
  | nil => rfl
  | cons x _ ih => simp only [encs, List.length_append, ih]
  | swap x y l => simp only [encs, List.length_append]; omega
  | trans _ _ ih1 ih2 => exact ih1.trans ih2

/-- a datagram with a header and elements, as it is parsed -/
theorem parsed (s : Schema) (hs : s ∈ Tab.all) (h : Header) (ht : h.typ = s.typ) (xs : List IE)
    (hw : ({ h with payload := encs g xs } : Header).Wf) (h12 : 12 ≤ ({ h with payload := encs g xs } : Header).marshalLen)
    (hx : ∀ x ∈ xs, wf g x = true) :
    parseMsg g (encH { h with payload := encs g xs }) =
      ok ⟨s, { h with payload := encs g xs }, classify (ieOps g) s.unRules s.unDefault xs⟩ := by
  have hp := Header.parse_encH _ [] hw (by simpa using h12)
  rw [List.append_nil] at hp
  rw [parseMsg_encH g _ (by rw [length_encH]; omega)]
  have e : schemaOf ({ h with payload := encs g xs } : Header).typ = s := by
    show schemaOf h.typ = s
    rw [ht, schemaOf_all s hs]
  rw [e]
  exact unmarshal_body (ieLaws g) s _ _ xs hp (flatMap_rawEnc g xs hx).symm hx

/-- **C90** two GTPv2 datagrams with the same header whose elements are the same of each type, in the same order: both are
parsed, to the same header and the same fields; AdditionalIEs are the same when the elements that can come there are in
the same order. -/
theorem C90_v2_parse (s : Schema) (hs : s ∈ Tab.all) (h : Header) (ht : h.typ = s.typ) (xs ys : List IE)
    (hw : ({ h with payload := encs g xs } : Header).Wf) (h12 : 12 ≤ ({ h with payload := encs g xs } : Header).marshalLen)
    (hx : ∀ x ∈ xs, wf g x = true) (hxy : SameByType (ieOps g) xs ys) :
    ∃ m m', parseMsg g (encH { h with payload := encs g xs }) = ok m ∧
      parseMsg g (encH { h with payload := encs g ys }) = ok m' ∧ m'.schema = m.schema ∧
      m'.hdr = { m.hdr with payload := m'.hdr.payload } ∧ (∀ f, f ≠ additional s → m'.fields f = m.fields f) ∧
      (SameSpareParse (ieOps g) s xs ys → m'.fields = m.fields) := by
  have hp : xs.Perm ys := regroup_perm _ _ _ hxy
  have hl : ({ h with payload := encs g ys } : Header).marshalLen = ({ h with payload := encs g xs } : Header).marshalLen := by
    show 8 + (encs g ys).length + _ = 8 + (encs g xs).length + _
    rw [encs_perm_length g hp]
    rfl
  have htab := tableOK_iff (v2_tables s hs)
  have hw' : ({ h with payload := encs g ys } : Header).Wf := by
    obtain ⟨a, b, c, d⟩ := hw
    exact ⟨a, b, by rw [hl]; exact c, by rw [hl]; exact d⟩
  refine ⟨_, _, parsed g s hs h ht xs hw h12 hx,
    parsed g s hs h ht ys hw' (by rw [hl]; exact h12) (fun x hm => hx x (hp.mem_iff.mpr hm)), rfl, rfl, ?_, ?_⟩
  · intro f hf
    exact (classify_regroup (ieOps g) htab.1.2 _ _ hxy f hf).symm
  · intro hr
    exact (classify_eq (ieOps g) htab.1.2 htab.2.2 _ _ hxy hr).symm

/-! ### C91, GTPv2 -/

/-- list fields take elements by appending, the others by setting -/
def kindOK (rules : List Rule) (s : Schema) : Bool :=
  rules.all (fun r => r.act.plain.touches.all (fun f => f == additional s ||
    r.act.plain == (if f ∈ s.multi then .app f else .set f)))

theorem v2_kinds : ∀ s ∈ Tab.all, kindOK s.newRules s = true ∧ kindOK s.unRules s = true := by decide +kernel

theorem kept {s : Schema} {rules : List Rule} {d : Act} (ha : Apart rules d (additional s))
    (hs : shallow rules d (additional s) = true) (hk : kindOK rules s = true) (f : Nat) (hf : f ≠ additional s)
    (xs : List IE) :
    classify (ieOps g) rules d xs f = (if f ∈ s.multi then xs.filter (counts (ieOps g) rules d f) else
      (xs.filter (counts (ieOps g) rules d f)).getLast?.toList) := by
  rcases classify_counts (ieOps g) ha hs f hf xs with ⟨r, hr, hm, e⟩ | ⟨_, e, e'⟩
  · rw [e]
    simp only [kindOK, List.all_eq_true, Bool.or_eq_true, beq_iff_eq] at hk
    rcases hk r hr f hm with c | c
    · exact absurd c hf
    · rw [c]
      split <;> simp [pick]
  · rw [e, e']; simp

/-- **C91** of the elements given to a GTPv2 constructor that count for a field, a list field keeps all, in their order,
and a field that holds one element keeps the last. -/
theorem C91_v2_new (s : Schema) (hs : s ∈ Tab.all) (teid seq : UInt32) (xs : List (Option IE)) (f : Nat)
    (hf : f ≠ additional s) :
    (newMessage g s teid seq xs).fields f =
      (if f ∈ s.multi then (xs.filterMap id).filter (counts (ieOps g) s.newRules s.newDefault f) else
        ((xs.filterMap id).filter (counts (ieOps g) s.newRules s.newDefault f)).getLast?.toList) :=
  kept g (tableOK_iff (v2_tables s hs)).1.1 (tableOK_iff (v2_tables s hs)).2.1 (v2_kinds s hs).1 f hf _

/-- **C91** … and so does a parsed message with the elements of the datagram.  Partial: of elements that may occur once the
first is to count (3GPP TS 29.274 7.7.10), and the last does. -/
theorem C91_v2_parse_partial (s : Schema) (hs : s ∈ Tab.all) (h : Header) (ht : h.typ = s.typ) (xs : List IE)
    (hw : ({ h with payload := encs g xs } : Header).Wf) (h12 : 12 ≤ ({ h with payload := encs g xs } : Header).marshalLen)
    (hx : ∀ x ∈ xs, wf g x = true) :
    ∃ m, parseMsg g (encH { h with payload := encs g xs }) = ok m ∧ ∀ f, f ≠ additional s →
      m.fields f = (if f ∈ s.multi then xs.filter (counts (ieOps g) s.unRules s.unDefault f) else
        (xs.filter (counts (ieOps g) s.unRules s.unDefault f)).getLast?.toList) :=
  ⟨_, parsed g s hs h ht xs hw h12 hx, fun f hf =>
    kept g (tableOK_iff (v2_tables s hs)).1.2 (tableOK_iff (v2_tables s hs)).2.2 (v2_kinds s hs).2 f hf xs⟩

/-- **C91** the first does not count: whatever comes before, an element that counts for a field of one element and comes
last in the datagram is the one kept. -/
theorem C91_v2_last_wins (s : Schema) (hs : s ∈ Tab.all) (h : Header) (ht : h.typ = s.typ) (xs : List IE) (y : IE)
    (hw : ({ h with payload := encs g (xs ++ [y]) } : Header).Wf)
    (h12 : 12 ≤ ({ h with payload := encs g (xs ++ [y]) } : Header).marshalLen)
    (hx : ∀ x ∈ xs ++ [y], wf g x = true) (f : Nat) (hf : f ≠ additional s) (h1 : f ∉ s.multi)
    (hy : counts (ieOps g) s.unRules s.unDefault f y = true) :
    ∃ m, parseMsg g (encH { h with payload := encs g (xs ++ [y]) }) = ok m ∧ m.fields f = [y] := by
  obtain ⟨m, hm, hk⟩ := C91_v2_parse_partial g s hs h ht (xs ++ [y]) hw h12 hx
  refine ⟨m, hm, ?_⟩
  rw [hk f hf, if_neg h1, List.filter_append]
  simp [hy]

/-- an Echo Request with two Recovery elements, parsed -/
example : (match parseMsg defaultGrouped [0x40, 1, 0, 14, 0, 0, 1, 0, 3, 0, 1, 0, 7, 3, 0, 1, 0, 8] with
    | ok m => ((m.fields 0).map IE.payload)
    | _ => []) = [[8]] := by decide +kernel

/-- elements of different types in either order: IMSI and MSISDN of a Create Session Request; field 0 and 1 -/
example : let a : IE := .mk 1 2 0 [0x21, 0x43] []; let b : IE := .mk 76 1 0 [0x65] []
    SameByType (ieOps defaultGrouped) [a, b] [b, a] ∧ SameSpareNew (ieOps defaultGrouped) Tab.createSessionRequest [a, b] [b, a] ∧
    bytesOf defaultGrouped (newMessage defaultGrouped Tab.createSessionRequest 1 2 [some a, some b]) =
      bytesOf defaultGrouped (newMessage defaultGrouped Tab.createSessionRequest 1 2 [some b, some a]) ∧
    bytesOf defaultGrouped (newMessage defaultGrouped Tab.createSessionRequest 1 2 [some b, some a]) =
      ok [0x48, 32, 0, 19, 0, 0, 0, 1, 0, 0, 2, 0, 1, 0, 2, 0, 0x21, 0x43, 76, 0, 1, 0, 0x65] := by
  refine ⟨?_, ?_, ?_⟩
  · intro t
    by_cases h1 : t = 1
    · subst h1; rfl
    · by_cases h2 : t = 76
      · subst h2; rfl
      · have h1' : ((1 : UInt8) == t) = false := by simpa using Ne.symm h1
        have h2' : ((76 : UInt8) == t) = false := by simpa using Ne.symm h2
        simp [ieOps, IE.typ, h1', h2']
  · unfold SameSpareNew; decide +kernel
  · decide +kernel

end Verif.V2

namespace Verif.Msg.Order
open Res Msg

variable {ι : Type}

/-- a place among several for elements of one type: message, field, how many elements go before it, and whether it keeps
the last of those left (or the first) -/
structure Seat where
  msg : String
  field : Nat
  before : Nat
  last : Bool
  deriving DecidableEq

/-- what a field keeps of the elements that count for it: the one its seat says, or the last -/
def keeps (seats : List Seat) (msg : String) (f : Nat) (l : List ι) : List ι :=
  match seats.find? (fun p => p.msg == msg && p.field == f) with
  | some p => if p.last then (l.drop p.before).getLast?.toList else (l.drop p.before).take 1
  | none => l.getLast?.toList

/-- the seat of a field in an action without lists -/
def seatOf : Act → Nat → Option (Nat × Bool)
  | .drop, _ => none
  | .set g, f => if f = g then some (0, true) else none
  | .app _, _ => none
  | .free g r, f => if f = g then some (0, false) else (seatOf r f).map (fun p => (p.1 + 1, p.2))
  | .ifset _ r, f => seatOf r f

theorem pick_seat (a : Act) (f : Nat) : ∀ (p : Nat × Bool) (l : List ι), seatOf a f = some p →
    pick a f l = if p.2 then (l.drop p.1).getLast?.toList else (l.drop p.1).take 1 := by
  induction a with
  | drop => intro p l h; simp [seatOf] at h
  | set g =>
    intro p l h
    by_cases e : f = g
    · simp only [seatOf, e, if_true, Option.some.injEq] at h
      subst h
      simp [pick, e]
    · simp [seatOf, e] at h
  | app g => intro p l h; simp [seatOf] at h
  | free g r ih =>
    intro p l h
    by_cases e : f = g
    · simp only [seatOf, e, if_true, Option.some.injEq] at h
      subst h
      simp [pick, e]
    · simp only [seatOf, e, if_false, Option.map_eq_some_iff] at h
      obtain ⟨q, hq, rfl⟩ := h
      simp only [pick, e, if_false]
      rw [ih q _ hq]
      simp only [List.drop_drop, Nat.add_comm]
  | ifset g r ih => intro p l h; exact ih p l h

/-- the seats of a table are those listed -/
def seatsOK (seats : List Seat) (rules : List Rule) (s : Schema) : Bool :=
  rules.all (fun r => r.act.plain.touches.all (fun f => f == additional s ||
    seatOf r.act.plain f == (match seats.find? (fun p => p.msg == s.name && p.field == f) with
      | some p => some (p.before, p.last)
      | none => some (0, true))))

theorem kept_seat (io : IEOps ι) {s : Schema} {rules : List Rule} {d : Act} (seats : List Seat) (ha : Apart rules d (additional s))
    (hs : shallow rules d (additional s) = true) (hk : seatsOK seats rules s = true) (f : Nat) (hf : f ≠ additional s)
    (xs : List ι) :
    classify io rules d xs f = keeps seats s.name f (xs.filter (counts io rules d f)) := by
  rcases classify_counts io ha hs f hf xs with ⟨r, hr, hm, e⟩ | ⟨_, e, e'⟩
  · rw [e]
    simp only [seatsOK, List.all_eq_true, Bool.or_eq_true, beq_iff_eq] at hk
    rcases hk r hr f hm with c | c
    · exact absurd c hf
    · unfold keeps
      cases hq : seats.find? (fun p => p.msg == s.name && p.field == f) with
      | none =>
        rw [hq] at c
        rw [pick_seat _ _ _ _ c]
        simp
      | some p =>
        rw [hq] at c
        rw [pick_seat _ _ _ _ c]
  · rw [e, e']
    unfold keeps
    cases seats.find? (fun p => p.msg == s.name && p.field == f) with
    | none => rfl
    | some p => simp

end Verif.Msg.Order

namespace Verif.V1
open Res Spec Msg Msg.Order

/-! ### C90 and C91, GTPv1 -/

/-- **C90** GTPv1 constructors: the fields but AdditionalIEs. -/
theorem C90_v1_new_named (s : Schema) (hs : s ∈ Tab.all) (teid : UInt32) (seq : UInt16) (xs ys : List (Option TLV.IE))
    (hxy : SameByType ieOps (xs.filterMap id) (ys.filterMap id)) (f : Nat) (hf : f ≠ additional s) :
    (newMessage s teid seq xs).fields f = (newMessage s teid seq ys).fields f :=
  classify_regroup ieOps (tableOK_iff (v1_tables s hs)).1.1 _ _ hxy f hf

/-- **C90** GTPv1 constructors: the whole message. -/
theorem C90_v1_new (s : Schema) (hs : s ∈ Tab.all) (teid : UInt32) (seq : UInt16) (xs ys : List (Option TLV.IE))
    (hxy : SameByType ieOps (xs.filterMap id) (ys.filterMap id))
    (hr : SameSpareNew ieOps s (xs.filterMap id) (ys.filterMap id)) :
    newMessage s teid seq xs = newMessage s teid seq ys := by
  have h := tableOK_iff (v1_tables s hs)
  have : newFields ieOps s xs = newFields ieOps s ys := classify_eq ieOps h.1.1 h.2.1 _ _ hxy hr
  unfold newMessage
  rw [this]

theorem encs_perm_length (p : TLV.Spec.Proto) {xs ys : List TLV.IE} (h : xs.Perm ys) :
    (TLV.Spec.encs p xs).length = (TLV.Spec.encs p ys).length := by
  induction h with
  | nil => rfl
  | cons x _ ih => simp only [TLV.Spec.encs, List.map_cons, List.flatten_cons, List.length_append] at ih ⊢; omega
  | swap x y l => simp only [TLV.Spec.encs, List.map_cons, List.flatten_cons, List.length_append]; omega
  | trans _ _ ih1 ih2 => exact ih1.trans ih2

theorem parsed (s : Schema) (hs : s ∈ Tab.all) (h : Header) (ht : h.typ = s.typ) (xs : List TLV.IE)
    (hw : Wf { h with payload := TLV.Spec.encs TLV.Spec.v1 xs }) (hx : ∀ x ∈ xs, okIE x) :
    parseMsg (encH { h with payload := TLV.Spec.encs TLV.Spec.v1 xs }) =
      ok (.msg ⟨s, { h with payload := TLV.Spec.encs TLV.Spec.v1 xs }, classify ieOps s.unRules s.unDefault xs⟩) := by
  have hp := Header.parse_encH _ hw []
  rw [List.append_nil] at hp
  have e : schemaOf ({ h with payload := TLV.Spec.encs TLV.Spec.v1 xs } : Header).typ = s := by
    show schemaOf h.typ = s
    rw [ht, schemaOf_all s hs]
  rw [parseMsg_encH _ (by show h.typ ≠ 255; rw [ht]; exact all_typ s hs), e,
    unmarshal_body ieLaws s _ _ xs hp (TLV.flatMap_rawEnc xs (fun x hm => (hx x hm).1)).symm hx]
  rfl

/-- **C90** GTPv1 datagrams. -/
theorem C90_v1_parse (s : Schema) (hs : s ∈ Tab.all) (h : Header) (ht : h.typ = s.typ) (xs ys : List TLV.IE)
    (hw : Wf { h with payload := TLV.Spec.encs TLV.Spec.v1 xs }) (hx : ∀ x ∈ xs, okIE x) (hxy : SameByType ieOps xs ys) :
    ∃ m m', parseMsg (encH { h with payload := TLV.Spec.encs TLV.Spec.v1 xs }) = ok (.msg m) ∧
      parseMsg (encH { h with payload := TLV.Spec.encs TLV.Spec.v1 ys }) = ok (.msg m') ∧ m'.schema = m.schema ∧
      m'.hdr = { m.hdr with payload := m'.hdr.payload } ∧ (∀ f, f ≠ additional s → m'.fields f = m.fields f) ∧
      (SameSpareParse ieOps s xs ys → m'.fields = m.fields) := by
  have hp : xs.Perm ys := regroup_perm _ _ _ hxy
  have hl : (encH { h with payload := TLV.Spec.encs TLV.Spec.v1 ys }).length =
      (encH { h with payload := TLV.Spec.encs TLV.Spec.v1 xs }).length := by
    simp only [encH, encOpt, encExts, List.length_append, encs_perm_length TLV.Spec.v1 hp]
  have htab := tableOK_iff (v1_tables s hs)
  have hw' : Wf { h with payload := TLV.Spec.encs TLV.Spec.v1 ys } := by
    obtain ⟨a, b, c, d, e, f⟩ := hw
    exact ⟨by rw [hl]; exact a, by rw [hl]; exact b, c, d, e, f⟩
  refine ⟨_, _, parsed s hs h ht xs hw hx,
    parsed s hs h ht ys hw' (fun x hm => hx x (hp.mem_iff.mpr hm)), rfl, rfl, ?_, ?_⟩
  · intro f hf
    exact (classify_regroup ieOps htab.1.2 _ _ hxy f hf).symm
  · intro hr
    exact (classify_eq ieOps htab.1.2 htab.2.2 _ _ hxy hr).symm

/-- NSAPI and Linked NSAPI, the addresses of the nodes and of their alternatives, and the charging gateways, in the order
of the fields; the constructors -/
def seatsNew : List Seat :=
  [⟨"CreatePDPContextRequest", 6, 0, false⟩, ⟨"CreatePDPContextRequest", 7, 1, false⟩,
   ⟨"CreatePDPContextRequest", 14, 0, false⟩, ⟨"CreatePDPContextRequest", 15, 1, false⟩,
   ⟨"CreatePDPContextResponse", 9, 0, false⟩, ⟨"CreatePDPContextResponse", 10, 1, false⟩,
   ⟨"CreatePDPContextResponse", 11, 2, false⟩, ⟨"CreatePDPContextResponse", 12, 3, true⟩,
   ⟨"CreatePDPContextResponse", 14, 0, false⟩, ⟨"CreatePDPContextResponse", 15, 1, false⟩,
   ⟨"UpdatePDPContextRequest", 9, 0, false⟩, ⟨"UpdatePDPContextRequest", 10, 1, false⟩,
   ⟨"UpdatePDPContextRequest", 11, 2, false⟩, ⟨"UpdatePDPContextRequest", 12, 3, true⟩,
   ⟨"UpdatePDPContextResponse", 6, 0, false⟩, ⟨"UpdatePDPContextResponse", 7, 1, false⟩,
   ⟨"UpdatePDPContextResponse", 8, 2, false⟩, ⟨"UpdatePDPContextResponse", 9, 3, true⟩,
   ⟨"UpdatePDPContextResponse", 11, 0, false⟩, ⟨"UpdatePDPContextResponse", 12, 1, false⟩]

/-- the parser: as the constructors, but the alternative charging gateway of a Create PDP Context Response is the last of
those behind the first -/
def seatsParse : List Seat :=
  ⟨"CreatePDPContextResponse", 15, 1, true⟩ :: seatsNew

theorem seats_ok : ∀ s ∈ Tab.all, seatsOK seatsNew s.newRules s = true ∧ seatsOK seatsParse s.unRules s = true := by
  decide +kernel

/-- **C91** GTPv1 constructors: where the message has several places for elements of one type, the places are filled in the
order of the elements; a field that is the only place for a type keeps the last. -/
theorem C91_v1_new (s : Schema) (hs : s ∈ Tab.all) (teid : UInt32) (seq : UInt16) (xs : List (Option TLV.IE)) (f : Nat)
    (hf : f ≠ additional s) :
    (newMessage s teid seq xs).fields f =
      keeps seatsNew s.name f ((xs.filterMap id).filter (counts ieOps s.newRules s.newDefault f)) :=
  kept_seat ieOps seatsNew (tableOK_iff (v1_tables s hs)).1.1 (tableOK_iff (v1_tables s hs)).2.1 (seats_ok s hs).1 f hf _

/-- **C91** GTPv1 datagrams.  Partial: of elements that may occur once the first is to count (3GPP TS 29.060 11.1.8), and
the last does. -/
theorem C91_v1_parse_partial (s : Schema) (hs : s ∈ Tab.all) (h : Header) (ht : h.typ = s.typ) (xs : List TLV.IE)
    (hw : Wf { h with payload := TLV.Spec.encs TLV.Spec.v1 xs }) (hx : ∀ x ∈ xs, okIE x) :
    ∃ m, parseMsg (encH { h with payload := TLV.Spec.encs TLV.Spec.v1 xs }) = ok (.msg m) ∧ ∀ f, f ≠ additional s →
      m.fields f = keeps seatsParse s.name f (xs.filter (counts ieOps s.unRules s.unDefault f)) :=
  ⟨_, parsed s hs h ht xs hw hx, fun f hf =>
    kept_seat ieOps seatsParse (tableOK_iff (v1_tables s hs)).1.2 (tableOK_iff (v1_tables s hs)).2.2 (seats_ok s hs).2 f hf xs⟩

/-- three GSN addresses in a Create PDP Context Request: the first two take the places for them, the third comes to
AdditionalIEs; two causes in an Update PDP Context Response: the second is kept -/
example : let a (n : UInt8) : TLV.IE := ⟨133, 4, [10, 0, 0, n]⟩
    ((newMessage Tab.createPDPContextRequest 0 0 [some (a 1), none, some (a 2), some (a 3)]).fields 14,
     (newMessage Tab.createPDPContextRequest 0 0 [some (a 1), none, some (a 2), some (a 3)]).fields 15,
     (newMessage Tab.createPDPContextRequest 0 0 [some (a 1), none, some (a 2), some (a 3)]).fields 39)
      = ([a 1], [a 2], [a 3]) ∧
    (newMessage Tab.updatePDPContextResponse 0 0 [some ⟨1, 1, [128]⟩, some ⟨1, 1, [192]⟩]).fields 0 = [⟨1, 1, [192]⟩] := by
  decide +kernel

end Verif.V1

namespace Verif.V0
open Res Spec Msg Msg.Order

/-! ### C90 and C91, GTPv0 -/

/-- **C90** GTPv0 constructors: the fields but AdditionalIEs. -/
theorem C90_v0_new_named (s : Schema) (hs : s ∈ Tab.all) (seq label : UInt16) (tid : UInt64) (xs ys : List (Option TLV.IE))
    (hxy : SameByType ieOps (xs.filterMap id) (ys.filterMap id)) (f : Nat) (hf : f ≠ additional s) :
    (newMessage s seq label tid xs).fields f = (newMessage s seq label tid ys).fields f :=
  classify_regroup ieOps (tableOK_iff (v0_tables s hs)).1.1 _ _ hxy f hf

/-- **C90** GTPv0 constructors: the whole message. -/
theorem C90_v0_new (s : Schema) (hs : s ∈ Tab.all) (seq label : UInt16) (tid : UInt64) (xs ys : List (Option TLV.IE))
    (hxy : SameByType ieOps (xs.filterMap id) (ys.filterMap id))
    (hr : SameSpareNew ieOps s (xs.filterMap id) (ys.filterMap id)) :
    newMessage s seq label tid xs = newMessage s seq label tid ys := by
  have h := tableOK_iff (v0_tables s hs)
  have : newFields ieOps s xs = newFields ieOps s ys := classify_eq ieOps h.1.1 h.2.1 _ _ hxy hr
  unfold newMessage
  rw [this]

theorem parsed (s : Schema) (hs : s ∈ Tab.all) (h : Header) (ht : h.typ = s.typ) (xs : List TLV.IE)
    (hl : (TLV.Spec.encs TLV.Spec.v0 xs).length ≤ 65515) (hx : ∀ x ∈ xs, okIE x) :
    parseMsg (encH { h with payload := TLV.Spec.encs TLV.Spec.v0 xs }) =
      ok (.msg ⟨s, { h with payload := TLV.Spec.encs TLV.Spec.v0 xs, sndcp := 0xff },
        classify ieOps s.unRules s.unDefault xs⟩) := by
  have hp := Header.parse_encH { h with payload := TLV.Spec.encs TLV.Spec.v0 xs } hl
  have e : schemaOf ({ h with payload := TLV.Spec.encs TLV.Spec.v0 xs } : Header).typ = s := by
    show schemaOf h.typ = s
    rw [ht, schemaOf_all s hs]
  rw [parseMsg_encH _ (by show h.typ ≠ 255; rw [ht]; exact all_typ s hs), e,
    unmarshal_body ieLaws s _ _ xs hp (TLV.flatMap_rawEnc xs (fun x hm => (hx x hm).1)).symm hx]
  rfl

/-- **C90** GTPv0 datagrams. -/
theorem C90_v0_parse (s : Schema) (hs : s ∈ Tab.all) (h : Header) (ht : h.typ = s.typ) (xs ys : List TLV.IE)
    (hl : (TLV.Spec.encs TLV.Spec.v0 xs).length ≤ 65515) (hx : ∀ x ∈ xs, okIE x) (hxy : SameByType ieOps xs ys) :
    ∃ m m', parseMsg (encH { h with payload := TLV.Spec.encs TLV.Spec.v0 xs }) = ok (.msg m) ∧
      parseMsg (encH { h with payload := TLV.Spec.encs TLV.Spec.v0 ys }) = ok (.msg m') ∧ m'.schema = m.schema ∧
      m'.hdr = { m.hdr with payload := m'.hdr.payload } ∧ (∀ f, f ≠ additional s → m'.fields f = m.fields f) ∧
      (SameSpareParse ieOps s xs ys → m'.fields = m.fields) := by
  have hp : xs.Perm ys := regroup_perm _ _ _ hxy
  have htab := tableOK_iff (v0_tables s hs)
  refine ⟨_, _, parsed s hs h ht xs hl hx,
    parsed s hs h ht ys (by rw [← V1.encs_perm_length TLV.Spec.v0 hp]; exact hl) (fun x hm => hx x (hp.mem_iff.mpr hm)),
    rfl, rfl, ?_, ?_⟩
  · intro f hf
    exact (classify_regroup ieOps htab.1.2 _ _ hxy f hf).symm
  · intro hr
    exact (classify_eq ieOps htab.1.2 htab.2.2 _ _ hxy hr).symm

/-- the addresses of the nodes for signalling and for user traffic -/
def seats : List Seat :=
  [⟨"CreatePDPContextRequest", 9, 0, false⟩, ⟨"CreatePDPContextRequest", 10, 1, true⟩,
   ⟨"CreatePDPContextResponse", 9, 0, false⟩, ⟨"CreatePDPContextResponse", 10, 1, true⟩,
   ⟨"UpdatePDPContextRequest", 6, 0, false⟩, ⟨"UpdatePDPContextRequest", 7, 1, true⟩,
   ⟨"UpdatePDPContextResponse", 7, 0, false⟩, ⟨"UpdatePDPContextResponse", 8, 1, true⟩]

theorem seats_ok : ∀ s ∈ Tab.all, seatsOK seats s.newRules s = true ∧ seatsOK seats s.unRules s = true := by
  decide +kernel

/-- **C91** GTPv0 constructors. -/
theorem C91_v0_new (s : Schema) (hs : s ∈ Tab.all) (seq label : UInt16) (tid : UInt64) (xs : List (Option TLV.IE)) (f : Nat)
    (hf : f ≠ additional s) :
    (newMessage s seq label tid xs).fields f =
      keeps seats s.name f ((xs.filterMap id).filter (counts ieOps s.newRules s.newDefault f)) :=
  kept_seat ieOps seats (tableOK_iff (v0_tables s hs)).1.1 (tableOK_iff (v0_tables s hs)).2.1 (seats_ok s hs).1 f hf _

/-- **C91** GTPv0 datagrams.  Partial as for GTPv1. -/
theorem C91_v0_parse_partial (s : Schema) (hs : s ∈ Tab.all) (h : Header) (ht : h.typ = s.typ) (xs : List TLV.IE)
    (hl : (TLV.Spec.encs TLV.Spec.v0 xs).length ≤ 65515) (hx : ∀ x ∈ xs, okIE x) :
    ∃ m, parseMsg (encH { h with payload := TLV.Spec.encs TLV.Spec.v0 xs }) = ok (.msg m) ∧ ∀ f, f ≠ additional s →
      m.fields f = keeps seats s.name f (xs.filter (counts ieOps s.unRules s.unDefault f)) :=
  ⟨_, parsed s hs h ht xs hl hx, fun f hf =>
    kept_seat ieOps seats (tableOK_iff (v0_tables s hs)).1.2 (tableOK_iff (v0_tables s hs)).2.2 (seats_ok s hs).2 f hf xs⟩

/-- two GSN addresses in a GTPv0 Create PDP Context Response, a cause before, between or behind them -/
example : let a (n : UInt8) : TLV.IE := ⟨133, 4, [10, 0, 0, n]⟩; let c : TLV.IE := ⟨1, 1, [128]⟩
    let m l := newMessage Tab.createPDPContextResponse 1 2 3 (l.map some)
    (m [c, a 1, a 2]).fields 9 = [a 1] ∧ (m [c, a 1, a 2]).fields 10 = [a 2] ∧ (m [c, a 1, a 2]).fields 0 = [c] ∧
    (m [a 1, c, a 2]).fields 9 = [a 1] ∧ (m [a 1, c, a 2]).fields 10 = [a 2] ∧ (m [a 1, c, a 2]).fields 0 = [c] ∧
    (m [a 1, a 2, c]).fields 9 = [a 1] ∧ (m [a 1, a 2, c]).fields 10 = [a 2] ∧ (m [a 1, a 2, c]).fields 0 = [c] := by
  decide +kernel

end Verif.V0

/-! ### cases that meet the hypotheses -/
namespace Verif.Msg.Order
open Msg
theorem same_swap {ι : Type} (io : IEOps ι) (a b : ι) (h : io.typ a ≠ io.typ b) : SameByType io [a, b] [b, a] := by
  intro t
  by_cases ha : io.typ a = t <;> by_cases hb : io.typ b = t <;> simp [ha, hb]
  exact absurd (ha.trans hb.symm) h
end Verif.Msg.Order

namespace Verif.V2
open Res Spec Msg Msg.Order
def ordA : IE := .mk 1 2 0 [0x21, 0x43] []
def ordB : IE := .mk 76 1 0 [0x65] []
theorem ord_same : SameByType (ieOps defaultGrouped) [ordA, ordB] [ordB, ordA] := same_swap _ _ _ (by decide)

example := C90_v2_new_named (g := defaultGrouped) Tab.createSessionRequest (by simp [Tab.all]) 1 2 [some ordA, none, some ordB] [some ordB, some ordA]
  ord_same 1 (by decide +kernel)
example := C90_v2_new (g := defaultGrouped) Tab.createSessionRequest (by simp [Tab.all]) 1 2 [some ordA, none, some ordB] [some ordB, some ordA]
  ord_same (by unfold SameSpareNew; decide +kernel)
example := C90_v2_parse (g := defaultGrouped) Tab.createSessionRequest (by simp [Tab.all]) ⟨0x48, 32, 19, 1, 2, 0, []⟩ rfl [ordA, ordB] [ordB, ordA]
  ⟨by decide, by decide, by decide, by decide⟩ (by decide) (by decide) ord_same
example := C91_v2_new (g := defaultGrouped) Tab.createSessionRequest (by simp [Tab.all]) 1 2 [some ordA, none, some ordB, some ordA] 0 (by decide +kernel)
example := C91_v2_parse_partial (g := defaultGrouped) Tab.createSessionRequest (by simp [Tab.all]) ⟨0x48, 32, 19, 1, 2, 0, []⟩ rfl [ordA, ordB]
  ⟨by decide, by decide, by decide, by decide⟩ (by decide) (by decide)
example := C91_v2_last_wins (g := defaultGrouped) Tab.createSessionRequest (by simp [Tab.all]) ⟨0x48, 32, 25, 1, 2, 0, []⟩ rfl [ordA, ordB] ordA
  ⟨by decide, by decide, by decide, by decide⟩ (by decide) (by decide) 0 (by decide +kernel) (by decide) (by decide +kernel)
end Verif.V2

namespace Verif.V1
open Res Spec Msg Msg.Order
def ordA : TLV.IE := ⟨1, 0, [128]⟩
def ordB : TLV.IE := ⟨133, 4, [10, 0, 0, 1]⟩
theorem ord_same : SameByType ieOps [ordA, ordB] [ordB, ordA] := same_swap _ _ _ (by decide)
example := C90_v1_new_named Tab.createPDPContextResponse (by simp [Tab.all]) 1 2 [some ordA, none, some ordB] [some ordB, some ordA]
  ord_same 0 (by decide +kernel)
example := C90_v1_new Tab.createPDPContextResponse (by simp [Tab.all]) 1 2 [some ordA, none, some ordB] [some ordB, some ordA]
  ord_same (by unfold SameSpareNew; decide +kernel)
example := C90_v1_parse Tab.createPDPContextResponse (by simp [Tab.all]) ⟨0x32, 17, 13, 1, 2, 0, 0, [], []⟩ rfl [ordA, ordB] [ordB, ordA]
  ⟨by decide, by decide, by decide, by decide, by decide, by decide⟩ (by decide) ord_same
example := C91_v1_new Tab.createPDPContextResponse (by simp [Tab.all]) 1 2 [some ordB, none, some ordA, some ordB] 9 (by decide +kernel)
example := C91_v1_parse_partial Tab.createPDPContextResponse (by simp [Tab.all]) ⟨0x32, 17, 13, 1, 2, 0, 0, [], []⟩ rfl [ordA, ordB]
  ⟨by decide, by decide, by decide, by decide, by decide, by decide⟩ (by decide)
end Verif.V1

namespace Verif.V0
open Res Spec Msg Msg.Order
def ordA : TLV.IE := ⟨1, 0, [128]⟩
def ordB : TLV.IE := ⟨133, 4, [10, 0, 0, 1]⟩
theorem ord_same : SameByType ieOps [ordA, ordB] [ordB, ordA] := same_swap _ _ _ (by decide)
example := C90_v0_new_named Tab.createPDPContextResponse (by simp [Tab.all]) 1 2 3 [some ordA, none, some ordB] [some ordB, some ordA]
  ord_same 0 (by decide +kernel)
example := C90_v0_new Tab.createPDPContextResponse (by simp [Tab.all]) 1 2 3 [some ordA, none, some ordB] [some ordB, some ordA]
  ord_same (by unfold SameSpareNew; decide +kernel)
example := C90_v0_parse Tab.createPDPContextResponse (by simp [Tab.all]) ⟨0x1e, 17, 9, 1, 0xff, 2, 3, []⟩ rfl [ordA, ordB] [ordB, ordA]
  (by decide) (by decide) ord_same
example := C91_v0_new Tab.createPDPContextResponse (by simp [Tab.all]) 1 2 3 [some ordB, none, some ordA, some ordB] 9 (by decide +kernel)
example := C91_v0_parse_partial Tab.createPDPContextResponse (by simp [Tab.all]) ⟨0x1e, 17, 9, 1, 0xff, 2, 3, []⟩ rfl [ordA, ordB]
  (by decide) (by decide)
end Verif.V0
