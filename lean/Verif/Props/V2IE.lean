import Verif.Proofs.V2Grouped
/-
Property theorems C05-C08 (GTPv2 information elements).
`g` is an arbitrary "is grouped" predicate.
-/
namespace Verif.V2
open Res Spec

variable (g : UInt8 → Bool)

/-- A bearer context (93) holding an EBI (73) and a nested bearer context: the concrete non-trivial case used below. -/
def exTree : IE :=
  .mk 93 14 0 [73, 0, 1, 0, 5, 93, 0, 5, 1, 73, 0, 1, 0, 6]
    [.mk 73 1 0 [5] [], .mk 93 5 1 [73, 0, 1, 0, 6] [.mk 73 1 0 [6] []]]

/-- C05: every well-formed element, of any nesting depth, is recovered by parsing its serialisation, whatever follows it. -/
theorem C05_ie_round_trip (x : IE) (rest : Bytes) (h : wf g x = true) :
    x.marshal g = ok (enc g x) ∧ parse g (enc g x ++ rest) = ok x := by
  refine ⟨?_, parse_enc g x rest h⟩
  rw [marshal_eq, rawEnc_wf g x h]

/-- C05 for sequences. -/
theorem C05_ies_round_trip (xs : List IE) (h : ∀ x ∈ xs, wf g x = true) :
    parseMulti g (encs g xs) = ok xs :=
  parseMulti_encs g xs ((wfs_iff g xs).mpr h)

example : wf defaultGrouped exTree = true := by decide
example : parse defaultGrouped (enc defaultGrouped exTree ++ [1, 2, 3]) = ok exTree := by decide

/-- Elements made with `New` are well-formed when the payload fits and the type is not grouped. -/
theorem C05_new_wf (t ins : UInt8) (data : Bytes) (h : data.length < 65536) (hg : g t = false) :
    wf g (newIE t ins data) = true := by
  simp [newIE, IE.setLength, wf, hg]; omega

example : wf defaultGrouped (newIE 1 0 [0x21, 0x43]) = true := by decide

/-- C06: parsing a sequence returns for every input, and what it accepts re-serialises to the very same bytes
(each element serialises, and the concatenation is the input). -/
theorem C06_parse_total_lossless (b : Bytes) :
    Returns (parse g b) ∧ Returns (parseMulti g b) ∧
    ∀ xs, parseMulti g b = ok xs →
      ∃ parts : List Bytes, xs.map (fun x => x.marshal g) = parts.map ok ∧ parts.flatten = b := by
  refine ⟨?_, ?_, ?_⟩
  · rcases parse_total g b with ⟨e, h⟩ | ⟨x, r, h, _⟩ <;> rw [h] <;> simp
  · rcases parseMulti_total g b with ⟨e, h⟩ | ⟨x, h, _⟩ <;> rw [h] <;> simp
  · intro xs h
    obtain ⟨hw, rfl⟩ := (parseMulti_ok_iff g b xs).mp h
    refine ⟨xs.map (enc g), ?_, ?_⟩
    · rw [List.map_map]
      apply List.map_congr_left
      intro x hx
      simp only [Function.comp]
      rw [marshal_eq, rawEnc_wf g x ((wfs_iff g xs).mp hw x hx)]
    · clear hw h
      induction xs with
      | nil => rfl
      | cons x xs ih => simp [encs, ih]

/-- C06: exact characterisation of the accepted byte strings. -/
theorem C06_accepts_iff (b : Bytes) (xs : List IE) :
    parseMulti g b = ok xs ↔ (∀ x ∈ xs, wf g x = true) ∧ b = encs g xs := by
  rw [parseMulti_ok_iff, wfs_iff]

/-- C06: a single element that parses is a prefix of the input and serialises back to that prefix. -/
theorem C06_parse_prefix (b : Bytes) (x : IE) (h : parse g b = ok x) :
    wf g x = true ∧ ∃ rest, b = enc g x ++ rest ∧ x.marshal g = ok (enc g x) := by
  rcases parse_total g b with ⟨e, he⟩ | ⟨y, r, hy, hw, hb⟩
  · rw [he] at h; simp at h
  · rw [hy] at h; simp at h; subst h
    exact ⟨hw, r, hb, by rw [marshal_eq, rawEnc_wf g y hw]⟩

example : parseMulti defaultGrouped (enc defaultGrouped exTree ++ [1, 0, 1, 0, 9]) =
    ok [exTree, .mk 1 1 0 [9] []] := by decide
-- a child that overruns its group is an error, not a panic
example : parse defaultGrouped [93, 0, 4, 0, 73, 0, 1, 0] = err .invalidLength := by decide

/-- C07: serialising any element (well-formed or not) into any sufficiently large buffer succeeds, replaces exactly
the first `MarshalLen` octets, by octets that do not depend on the buffer, and leaves the rest unchanged. -/
theorem C07_marshalTo_exact (x : IE) : ∃ out : Bytes, out.length = x.marshalLen g ∧
    ∀ b : Bytes, x.marshalLen g ≤ b.length → x.marshalTo g b = ok (out ++ b.drop (x.marshalLen g)) :=
  ⟨rawEnc g x, length_rawEnc g x, fun b hb => marshalTo_eq g x b hb⟩

/-- C07: the announced length is the true size of the wire format. -/
theorem C07_marshalLen_exact (x : IE) : x.marshalLen g = (enc g x).length := marshalLen_enc g x

example : exTree.marshalTo defaultGrouped (List.replicate 20 7) =
    ok (enc defaultGrouped exTree ++ [7, 7]) := by decide

/-! ### C08 editing grouped elements -/

/-- editing calls -/
inductive EditOp where
  | add (ies : List (Option IE))
  | remove (typ ins : UInt8)

def EditOp.run (x : IE) : EditOp → Res IE
  | .add ies => x.add g ies
  | .remove t i => x.remove g t i

/-- abstract effect on the list of children -/
def EditOp.spec (cs : List IE) : EditOp → List IE
  | .add ies => cs ++ ies.filterMap id
  | .remove t i => cs.filter (fun c => ¬ (c.typ = t ∧ c.instance' = i))

def runAll (x : IE) : List EditOp → Res IE
  | [] => ok x
  | o :: os => do let x' ← o.run g x; runAll x' os

theorem runAll_eq (t : UInt8) (hg : g t = true) (ops : List EditOp) : ∀ (n : UInt16) (cs : List IE),
    n = UInt16.ofNat (rawEncs g cs).length →
    runAll g (.mk t n 0 (rawEncs g cs) cs) ops =
      ok (let cs' := ops.foldl EditOp.spec cs
          .mk t (UInt16.ofNat (rawEncs g cs').length) 0 (rawEncs g cs') cs') := by
  induction ops with
  | nil => intro n cs hn; subst hn; simp [runAll]
  | cons o os ih =>
    intro n cs hn
    cases o with
    | add ies =>
      rw [runAll, EditOp.run, add_eq g hg]
      simp only [bind_ok, List.foldl_cons, EditOp.spec]
      rw [← rawEncs_append]
      exact ih _ _ rfl
    | remove ty ins =>
      rw [runAll, EditOp.run, remove_eq g hg]
      simp only [bind_ok, List.foldl_cons, EditOp.spec]
      have : keep ty ins cs = cs.filter (fun c => decide ¬ (c.typ = ty ∧ c.instance' = ins)) := by
        apply List.filter_congr; intro x _; rw [Bool.eq_iff_iff]; simp
      rw [← this]
      exact ih _ _ rfl

/-- build a grouped element, then edit it -/
def editFrom (t : UInt8) (init : List (Option IE)) (ops : List EditOp) : Res IE := do
  match ← newGrouped g t init with
  | some y => runAll g y ops
  | none => .panic

theorem editFrom_eq (t : UInt8) (hg : g t = true) (init : List (Option IE)) (ops : List EditOp) :
    editFrom g t init ops = ok (.mk t (UInt16.ofNat (rawEncs g (ops.foldl EditOp.spec (init.filterMap id))).length) 0
      (rawEncs g (ops.foldl EditOp.spec (init.filterMap id))) (ops.foldl EditOp.spec (init.filterMap id))) := by
  rw [editFrom, newGrouped_eq]; exact runAll_eq g t hg ops _ _ rfl

/-- C08: build a grouped element from any arguments, then apply any sequence of Add/Remove calls.  The calls succeed,
the children are those of the abstract list, the payload is the concatenation of the children's serialisations,
and the length is its size while it fits 16 bits. -/
theorem C08_edit_history (t : UInt8) (hg : g t = true) (init : List (Option IE)) (ops : List EditOp) :
    ∃ x : IE, editFrom g t init ops = ok x ∧
      x.typ = t ∧
      x.children = ops.foldl EditOp.spec (init.filterMap id) ∧
      (∃ parts : List Bytes, x.children.map (fun c => c.marshal g) = parts.map ok ∧ x.payload = parts.flatten) ∧
      (x.payload.length < 65536 → x.len.toNat = x.payload.length) := by
  refine ⟨_, editFrom_eq g t hg init ops, ?_, ?_, ?_, ?_⟩
  · rfl
  · rfl
  · refine ⟨(ops.foldl EditOp.spec (init.filterMap id)).map (rawEnc g), ?_, ?_⟩
    · simp [IE.children, marshal_eq]
    · simp only [IE.payload]
      generalize ops.foldl EditOp.spec (init.filterMap id) = l
      induction l with
      | nil => rfl
      | cons x xs ih => simp [rawEncs, ih]
  · intro h; simp only [IE.payload, IE.len] at *; exact toNat_ofNat16 h

/-- C08: if the children are well-formed and the total fits, the edited element is itself well-formed, hence round trips. -/
theorem C08_edit_wf (t : UInt8) (hg : g t = true) (init : List (Option IE)) (ops : List EditOp)
    (hcs : ∀ c ∈ ops.foldl EditOp.spec (init.filterMap id), wf g c = true)
    (hlen : (encs g (ops.foldl EditOp.spec (init.filterMap id))).length < 65536) :
    ∃ x : IE, editFrom g t init ops = ok x ∧ wf g x = true := by
  refine ⟨_, editFrom_eq g t hg init ops, ?_⟩
  · have hw := (wfs_iff g _).mpr hcs
    rw [rawEncs_wf g _ hw, wf_grouped g hg]
    exact ⟨toNat_ofNat16 hlen, rfl, hw⟩

/-- C08: Find returns the first child with that type and instance, and an error iff there is none. -/
theorem C08_find (x : IE) (hg : g x.typ = true) (typ ins : UInt8) :
    (∀ c, x.findByType g typ ins = ok c ↔
      ∃ pre post, x.children = pre ++ c :: post ∧ c.typ = typ ∧ c.instance' = ins ∧
        ∀ d ∈ pre, ¬ (d.typ = typ ∧ d.instance' = ins)) ∧
    (x.findByType g typ ins = err .notFound ↔ ∀ c ∈ x.children, ¬ (c.typ = typ ∧ c.instance' = ins)) := by
  cases x with
  | mk t n i p cs =>
    have hg' : g t = true := hg
    constructor
    · intro c
      rw [IE.findByType, if_pos hg']
      constructor
      · intro h
        split at h <;> rename_i heq
        · simp only [ok.injEq] at h; subst h
          obtain ⟨h1, pre, post, h2, h3⟩ := List.find?_eq_some_iff_append.mp heq
          refine ⟨pre, post, h2, ?_, ?_, ?_⟩
          · simpa using (by simpa using h1 : _ ∧ _).1
          · simpa using (by simpa using h1 : _ ∧ _).2
          · intro d hd hh; have := h3 d hd; simp [hh.1, hh.2] at this
        · simp at h
      · rintro ⟨pre, post, h2, h3, h4, h5⟩
        have : cs.find? (fun c => c.typ == typ && c.instance' == ins) = some c := by
          rw [List.find?_eq_some_iff_append]
          refine ⟨by simp [h3, h4], pre, post, h2, ?_⟩
          intro d hd; have := h5 d hd; simp; exact Decidable.not_and_iff_or_not.mp this
        rw [this]
    · rw [IE.findByType, if_pos hg']
      simp only [IE.children]
      cases hf : cs.find? (fun c => c.typ == typ && c.instance' == ins) with
      | none => simpa using hf
      | some c =>
        simp only [reduceCtorEq, false_iff]
        have := List.find?_some hf
        have hm := List.mem_of_find?_eq_some hf
        intro h
        exact h c hm (by simpa using this)

/-- C08: after Remove nothing with that type and instance is found. -/
theorem C08_remove_gone (t n i p cs) (hg : g t = true) (typ ins : UInt8) (x : IE)
    (h : (IE.mk t n i p cs).remove g typ ins = ok x) : x.findByType g typ ins = err .notFound := by
  rw [remove_eq g hg] at h
  simp only [ok.injEq] at h; subst h
  refine (C08_find g (.mk _ _ _ _ _) hg typ ins).2.mpr ?_
  intro c hc hh
  simp only [IE.children, keep, List.mem_filter] at hc
  simp [hh.1, hh.2] at hc

/-- C08: non-grouped elements are left alone by Add and Remove. -/
theorem C08_not_grouped (x : IE) (hg : g x.typ = false) (ies : List (Option IE)) (ty ins : UInt8) :
    x.add g ies = ok x ∧ x.remove g ty ins = ok x := by
  cases x with
  | mk t n i p cs =>
    have hg' : g t = false := hg
    simp [IE.add, IE.remove, hg']

example : editFrom defaultGrouped 93 [some (newIE 73 0 [5]), none, some (newIE 87 2 [1, 2])]
      [.remove 73 0, .add [some (newIE 80 0 [9])]]
    = ok (.mk 93 11 0 [87, 0, 2, 2, 1, 2, 80, 0, 1, 0, 9] [newIE 87 2 [1, 2], newIE 80 0 [9]]) := by decide

end Verif.V2

namespace Verif.V2
open Res Spec
/-! ### cases that meet the hypotheses -/

example := C05_ie_round_trip (g := defaultGrouped) exTree [1, 2, 3] (by decide)
example := C05_ies_round_trip (g := defaultGrouped) [exTree, newIE 1 0 [0x21, 0x43], exTree] (by decide)
example := C05_new_wf (g := defaultGrouped) 1 0 (List.replicate 65535 7) (by rw [List.length_replicate]; decide) (by decide)
example := C06_parse_prefix (g := defaultGrouped) [93, 0, 5, 1, 73, 0, 1, 0, 6, 9, 9] _ rfl
example := C08_edit_history (g := defaultGrouped) 93 (by decide) [some (newIE 73 0 [5]), none, some (newIE 87 2 [1, 2])]
  [.remove 73 0, .add [some (newIE 80 0 [9]), none]]
example := C08_edit_wf (g := defaultGrouped) 93 (by decide) [some (newIE 73 0 [5]), none, some (newIE 87 2 [1, 2])]
  [.remove 73 0, .add [some (newIE 80 0 [9]), none]] (by decide) (by decide)
example := C08_find (g := defaultGrouped) exTree (by decide) 93 1
example := C08_remove_gone (g := defaultGrouped) 93 14 0 [73, 0, 1, 0, 5, 93, 0, 5, 1, 73, 0, 1, 0, 6]
  [.mk 73 1 0 [5] [], .mk 93 5 1 [73, 0, 1, 0, 6] [.mk 73 1 0 [6] []]] (by decide) 73 0 _ rfl
example := C08_not_grouped (g := defaultGrouped) (newIE 1 0 [0x21, 0x43]) (by decide) [some (newIE 73 0 [5])] 73 0
end Verif.V2
