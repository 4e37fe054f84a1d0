import Verif.Proofs.Declare
/-
C108: declaring element types as grouped.  A program may tell the library, while it runs, that further types contain elements
(AddGroupedIEType) or replace the question by a function of its own (SetIsGroupedFun).  Model: Model/Declare.lean for the declarations;
the readers and writers of Model/V2IE.lean take the answer `g` as an argument, so that the same octets can be read before (`g`) and after
(`g'`) a declaration.
-/
namespace Verif.V2.Declare
open Verif.V2

/-- **C108** without declarations the eight types of the library are grouped -/
theorem C108_before : init.grouped = defaultGrouped := by
  have h : ∀ n : Fin 256, init.grouped (UInt8.ofNat n.val) = defaultGrouped (UInt8.ofNat n.val) := by decide +kernel
  funext t
  have := h ⟨t.toNat, t.toNat_lt⟩
  simpa using this

theorem fold_map (ls : List (List UInt8)) (v : Vars) (t : UInt8) :
    (((ls.map Call.add).foldl Vars.call v).fn = v.fn) ∧
    (t ∈ ((ls.map Call.add).foldl Vars.call v).map ↔ t ∈ v.map ∨ ∃ l ∈ ls, t ∈ l) := by
  induction ls generalizing v with
  | nil => simp
  | cons l ls ih =>
    simp only [List.map_cons, List.foldl_cons]
    obtain ⟨a, b⟩ := ih (v.call (.add l))
    refine ⟨by rw [a]; rfl, ?_⟩
    rw [b]
    simp only [Vars.call, List.mem_append, List.mem_cons, exists_eq_or_imp]
    constructor
    · rintro ((h | h) | h)
      · exact .inr (.inl h)
      · exact .inl h
      · exact .inr (.inr h)
    · rintro (h | h | h)
      · exact .inl (.inr h)
      · exact .inl (.inl h)
      · exact .inr h

/-- **C108** after any calls of AddGroupedIEType the grouped types are those of the library and those given to one of the calls -/
theorem C108_add (ls : List (List UInt8)) (t : UInt8) :
    ((ls.map Call.add).foldl Vars.call init).grouped t = true ↔ defaultGrouped t = true ∨ ∃ l ∈ ls, t ∈ l := by
  obtain ⟨a, b⟩ := fold_map ls init t
  have e : ((ls.map Call.add).foldl Vars.call init).grouped t = ((ls.map Call.add).foldl Vars.call init).map.contains t := by
    unfold Vars.grouped; rw [a]; rfl
  rw [e, ← C108_before, List.contains_iff_mem, b]
  show _ ↔ init.map.contains t = true ∨ _
  rw [List.contains_iff_mem]

/-- **C108** SetIsGroupedFun decides alone: whatever was declared before it and is added after it has no effect -/
theorem C108_set (v : Vars) (f : UInt8 → Bool) (ls : List (List UInt8)) :
    ((ls.map Call.add).foldl Vars.call (v.call (.set f))).grouped = f := by
  funext t
  obtain ⟨a, _⟩ := fold_map ls (v.call (.set f)) t
  unfold Vars.grouped
  rw [a]; rfl

/-- **C108** AddGroupedIEType never takes a type away, whatever was called before; this is the premise `hle` of the theorems below -/
theorem C108_grows (v : Vars) (ls : List (List UInt8)) (t : UInt8) (h : v.grouped t = true) :
    ((ls.map Call.add).foldl Vars.call v).grouped t = true := by
  obtain ⟨a, b⟩ := fold_map ls v t
  unfold Vars.grouped at h ⊢
  rw [a]
  cases hf : v.fn with
  | none =>
    rw [hf] at h
    simp only [List.contains_iff_mem] at h ⊢
    exact b.2 (.inl h)
  | some f => rw [hf] at h; exact h

/-- two calls, four types -/
example : ((init.call (.add [200, 201])).call (.add [202])).grouped 201 = true ∧ init.grouped 201 = false ∧
    ((init.call (.set fun t => t == 7)).call (.add [200])).grouped 200 = false := by decide +kernel

end Verif.V2.Declare

namespace Verif.V2
open Res Spec Msg
variable {g g' : UInt8 → Bool}

/-- **C108** what can be read after a declaration could be read before it, and the only difference is the children of the elements of the
declared types: type, length, instance and payload are the same (`forget` only removes children) -/
theorem C108_read (hle : ∀ t, g t = true → g' t = true) {b : Bytes} {x : IE} (h : parse g' b = ok x) : parse g b = ok (forget g x) := by
  rcases parse_total g' b with ⟨e, he⟩ | ⟨y, r, hy, hw, rfl⟩
  · rw [he] at h; cases h
  · rw [hy] at h; cases h
    obtain ⟨e1, e2⟩ := enc_forget hle x hw
    rw [← e1]; exact parse_enc g _ r e2

/-- **C108** the same for a sequence of elements -/
theorem C108_reads (hle : ∀ t, g t = true → g' t = true) {b : Bytes} {xs : List IE} (h : parseMulti g' b = ok xs) :
    parseMulti g b = ok (xs.map (forget g)) := by
  obtain ⟨h1, rfl⟩ := (parseMulti_ok_iff g' _ _).1 h
  obtain ⟨e1, e2⟩ := encs_forget hle xs h1
  rw [← forgets_map, ← e1]; exact parseMulti_encs g _ e2

/-- **C108** and the converse holds exactly if the payload of every element of a declared type, at any depth, is a sequence of elements:
otherwise the declaration makes the reader refuse the whole element -/
theorem C108_read_iff (hle : ∀ t, g t = true → g' t = true) {b : Bytes} {x : IE} (h : parse g b = ok x) :
    (∃ x', parse g' b = ok x') ↔
      ∀ y, Inside y x → g y.typ = false → g' y.typ = true → ∃ l, parseMulti g' y.payload = ok l := by
  constructor
  · rintro ⟨x', hx'⟩ y hy _ ht'
    have e := C108_read hle hx'
    rw [h] at e; cases e
    rcases parse_total g' b with ⟨e, he⟩ | ⟨z, r, hz, hw, -⟩
    · rw [he] at hx'; cases hx'
    · rw [hz] at hx'; cases hx'
      obtain ⟨⟨t, n, i, p, cs⟩, w, rfl⟩ := inside_forget hle hy x' hw rfl
      rw [typ_forget] at ht'
      rw [payload_forget]
      obtain ⟨_, w2, w3⟩ := (wf_grouped g' ht').1 w
      exact ⟨cs, (parseMulti_ok_iff g' _ _).2 ⟨w3, w2⟩⟩
  · intro hr
    rcases parse_total g b with ⟨e, he⟩ | ⟨z, r, hz, hw, rfl⟩
    · rw [he] at h; cases h
    · rw [hz] at h; cases h
      obtain ⟨x', w, rfl⟩ := remember hle x hw hr
      rw [(enc_forget hle x' w).1]
      exact ⟨x', parse_enc g' _ r w⟩

/-- **C108** sequences -/
theorem C108_reads_iff (hle : ∀ t, g t = true → g' t = true) {b : Bytes} {xs : List IE} (h : parseMulti g b = ok xs) :
    (∃ xs', parseMulti g' b = ok xs') ↔
      ∀ x ∈ xs, ∀ y, Inside y x → g y.typ = false → g' y.typ = true → ∃ l, parseMulti g' y.payload = ok l := by
  obtain ⟨h1, hb⟩ := (parseMulti_ok_iff g _ _).1 h
  constructor
  · rintro ⟨xs', hx'⟩ x hx y hy _ ht'
    obtain ⟨w, -⟩ := (parseMulti_ok_iff g' _ _).1 hx'
    have e := C108_reads hle hx'
    rw [h] at e; cases e
    obtain ⟨z, hz, rfl⟩ := List.mem_map.1 hx
    obtain ⟨⟨t, n, i, p, cs⟩, w, rfl⟩ := inside_forget hle hy z (wfs_mem w hz) rfl
    rw [typ_forget] at ht'
    rw [payload_forget]
    obtain ⟨_, w2, w3⟩ := (wf_grouped g' ht').1 w
    exact ⟨cs, (parseMulti_ok_iff g' _ _).2 ⟨w3, w2⟩⟩
  · intro hr
    obtain ⟨xs', w, rfl⟩ := remembers hle xs h1 fun y c hc hy => hr c hc y hy
    rw [hb, (encs_forget hle xs' w).1]
    exact ⟨xs', parseMulti_encs g' _ w⟩

/-- **C108** an element that has none of the types the two opinions differ on is read alike (also for SetIsGroupedFun) -/
theorem C108_others {b : Bytes} {x : IE} (h : parse g b = ok x) (ha : ∀ y, Inside y x → g y.typ = g' y.typ) : parse g' b = ok x := by
  rcases parse_total g b with ⟨e, he⟩ | ⟨z, r, hz, hw, rfl⟩
  · rw [he] at h; cases h
  · rw [hz] at h; cases h
    obtain ⟨e1, e2⟩ := agree x hw ha
    rw [← e1]; exact parse_enc g' _ r e2

/-- **C108** an element read after the declaration is written back with the same octets as the element read before it -/
theorem C108_written (hle : ∀ t, g t = true → g' t = true) {b : Bytes} {x : IE} (h : parse g' b = ok x) :
    x.marshal g' = (forget g x).marshal g := by
  rcases parse_total g' b with ⟨e, he⟩ | ⟨y, r, hy, hw, rfl⟩
  · rw [he] at h; cases h
  · rw [hy] at h; cases h
    obtain ⟨e1, e2⟩ := enc_forget hle x hw
    rw [marshal_eq, marshal_eq, rawEnc_wf g' _ hw, rawEnc_wf g _ e2, e1]

/-- **C108** whole messages: the same struct, header and fields, up to the children of elements of the declared types -/
theorem C108_message (hle : ∀ t, g t = true → g' t = true) {d : Bytes} {m : Message} (h : parseMsg g' d = ok m) :
    parseMsg g d = ok { m with fields := fun f => (m.fields f).map (forget g) } := by
  unfold parseMsg at h ⊢
  by_cases hd : d.length < 2
  · rw [if_pos hd] at h; cases h
  · rw [if_neg hd] at h ⊢
    cases ht : idx d 1 with
    | err e => rw [ht] at h; cases h
    | panic => rw [ht] at h; cases h
    | diverge => rw [ht] at h; cases h
    | ok t =>
      rw [ht] at h
      simp only [Res.bind_ok, Msg.unmarshal] at h ⊢
      cases hp : hdrOps.parse d with
      | err e => rw [hp] at h; cases h
      | panic => rw [hp] at h; cases h
      | diverge => rw [hp] at h; cases h
      | ok hd =>
        rw [hp] at h
        simp only [Res.bind_ok] at h ⊢
        split at h
        · rename_i hc
          rw [if_pos hc]; cases h; rfl
        · rename_i hc
          rw [if_neg hc]
          cases hm : (ieOps g').parseMulti (hdrOps.payload hd) with
          | err e => rw [hm] at h; cases h
          | panic => rw [hm] at h; cases h
          | diverge => rw [hm] at h; cases h
          | ok xs =>
            rw [hm] at h
            have e : (ieOps g).parseMulti (hdrOps.payload hd) = ok (xs.map (forget g)) := C108_reads hle hm
            rw [e]
            simp only [Res.bind_ok] at h ⊢
            cases h
            rw [classify_map (ieOps g') (ieOps g) (forget g) (typ_forget g) (inst_forget g)]

/-- **C108** departure: an element built with data (New and every constructor with a value) has no children, and is written as its header
alone once its type is grouped: the length still announces the data, so the octets cannot be read back, by any receiver -/
theorem C108_built_wrong (t ins : UInt8) (data : Bytes) (ht : g' t = true) (h0 : 0 < data.length) (h1 : data.length < 65536) :
    (newIE t ins data).marshal g' = ok (t :: be16 (UInt16.ofNat data.length) ++ [ins &&& 0x0f]) ∧
    ∀ f : UInt8 → Bool, parse f (t :: be16 (UInt16.ofNat data.length) ++ [ins &&& 0x0f]) = err .invalidLength := by
  refine ⟨by rw [marshal_eq]; simp [newIE, IE.setLength, rawEnc, rawEncs, ht], fun f => ?_⟩
  have hn : (UInt16.ofNat data.length).toNat = data.length := by rw [UInt16.toNat_ofNat_of_lt' (by simpa using h1)]
  have hr : rd16 (be16 (UInt16.ofNat data.length)) = ok (UInt16.ofNat data.length) := by
    simp
  simp only [parse, parseF]
  have hl : (t :: be16 (UInt16.ofNat data.length) ++ [ins &&& 0x0f]).length = 4 := by simp [be16]
  rw [if_neg (by omega)]
  have hs : slice (t :: be16 (UInt16.ofNat data.length) ++ [ins &&& 0x0f]) 1 3 = ok (be16 (UInt16.ofNat data.length)) := by
    simp [slice, be16]
  have hi : idx (t :: be16 (UInt16.ofNat data.length) ++ [ins &&& 0x0f]) 0 = ok t := rfl
  rw [hi, hs]
  simp only [Res.bind_ok, hr, hn, hl]
  rw [if_pos (by omega)]

/-! ### Examples -/

/-- a Bearer Context with an EBI and an element of type 200 that holds an EBI -/
def nested : Bytes := [93, 0, 14, 0, 73, 0, 1, 0, 5, 200, 0, 5, 0, 73, 0, 1, 0, 6]
def also200 (t : UInt8) : Bool := defaultGrouped t || t == 200

/-- before: type 200 is a leaf; after: it has a child, and forgetting gives the first -/
example : parse defaultGrouped nested = ok (.mk 93 14 0 (nested.drop 4) [.mk 73 1 0 [5] [], .mk 200 5 0 [73, 0, 1, 0, 6] []]) ∧
    parse also200 nested = ok (.mk 93 14 0 (nested.drop 4) [.mk 73 1 0 [5] [], .mk 200 5 0 [73, 0, 1, 0, 6] [.mk 73 1 0 [6] []]]) := by
  decide +kernel
example : (∀ t, defaultGrouped t = true → also200 t = true) := fun t h => by simp [also200, h]
/-- a payload that is no sequence of elements is refused after the declaration -/
example : parse defaultGrouped [200, 0, 1, 0, 7] = ok (.mk 200 1 0 [7] []) ∧ parse also200 [200, 0, 1, 0, 7] = err .eof := by decide +kernel
/-- New of a Bearer Context with data: four octets, refused -/
example : (newIE 93 0 [1, 2, 3]).marshal defaultGrouped = ok [93, 0, 3, 0] ∧ parse defaultGrouped [93, 0, 3, 0] = err .invalidLength := by
  decide +kernel

end Verif.V2

namespace Verif.V2.Declare
open Verif.V2
/-! ### cases that meet the hypotheses -/

example := C108_grows (init.call (.add [200])) [[201, 202], [7]] 200 (by decide +kernel)
end Verif.V2.Declare

namespace Verif.V2
open Res Spec Msg

theorem also200_le (t : UInt8) (h : defaultGrouped t = true) : also200 t = true := by simp [also200, h]
example := C108_read also200_le (b := nested) rfl
example := C108_reads also200_le (b := nested ++ nested) rfl
example := C108_read_iff also200_le (b := nested) rfl
example := C108_reads_iff also200_le (b := nested ++ nested) rfl
example := C108_others (g := defaultGrouped) (g' := also200) (b := [73, 0, 1, 0, 5]) rfl (by
  intro y hy
  cases hy with
  | here => decide
  | deeper x c h _ => simp [IE.children] at h)
example := C108_written also200_le (b := nested) rfl
example := C108_message also200_le (d := [0x48, 34, 0, 26, 0, 0, 0, 9, 0, 0, 1, 0] ++ nested) rfl
example := C108_built_wrong (g' := also200) 200 0 [1, 2, 3] (by decide) (by decide) (by decide)
end Verif.V2
