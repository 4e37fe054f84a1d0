import Verif.Model.Typed.Convenience
import Verif.Props.Typed.Plain
import Verif.Props.Typed.TFT
/-
Property theorems C75: constructors of Bearer Contexts for one message and of templates for one operation.
-/
namespace Verif.V2
open Res Spec

variable (g : UInt8 → Bool)

/-! ### the slice of pointers -/

theorem setPtrs_eq : ∀ (xs pre rest : Ptrs), xs.length ≤ rest.length →
    setPtrs (pre ++ rest) pre.length xs = ok (pre ++ xs ++ rest.drop xs.length)
  | [], pre, rest, _ => by simp [setPtrs]
  | x :: xs, pre, r :: rest, h => by
    have h' : xs.length ≤ rest.length := by simpa using h
    have := setPtrs_eq xs (pre ++ [x]) rest h'
    simp only [List.append_assoc, List.cons_append, List.nil_append, List.length_append, List.length_cons, List.length_nil] at this
    simp [setPtrs, setPtr, this]
  | x :: xs, pre, [], h => by simp at h

theorem within_eq (fixed fTEIDs : Ptrs) : within g fixed.length fixed fTEIDs = newGrouped g 93 (fixed ++ fTEIDs) := by
  have h := setPtrs_eq fixed [] (List.replicate (fixed.length + fTEIDs.length) none) (by simp)
  simp only [List.nil_append, List.length_nil, List.drop_replicate, Nat.add_sub_cancel_left] at h
  simp [within, h, copyPtrs, newBearerContext]

/-! ### Bearer Contexts -/

/-- what a constructor of Bearer Contexts shall return for arguments in the order of its parameters, F-TEIDs last: an element
with exactly the arguments given as children (nil ones are left out), in this order, which gives them back when read, with any
instance; and it survives the wire when it fits -/
def Builds (r : Res (Option IE)) (args : List (Option IE)) : Prop :=
  (∀ x ∈ args.filterMap id, wf g x = true) → args.filterMap id ≠ [] → ∃ i, r = ok (some i) ∧ ∀ n,
    (i.withInstance n).typ = 93 ∧ (i.withInstance n).children = args.filterMap id ∧
    (i.withInstance n).bearerContext g = ok (args.filterMap id) ∧
    (g 93 = true → (encs g (args.filterMap id)).length < 65536 → ∀ rest,
      ∃ b, (i.withInstance n).marshal g = ok b ∧ parse g (b ++ rest) = ok (i.withInstance n))

theorem newGrouped_builds (args : List (Option IE)) : Builds g (newGrouped g 93 args) args := by
  intro hw hne
  obtain ⟨j, hj, _⟩ := bearerContext_new g hw hne 0
  have e : newGrouped g 93 args = newGrouped g 93 ((args.filterMap id).map some) := by
    rw [newGrouped_eq, newGrouped_eq]
    have : ((args.filterMap id).map some).filterMap id = args.filterMap id := by
      induction args.filterMap id <;> simp_all
    rw [this]
  refine ⟨j, e.trans hj, fun n => ?_⟩
  obtain ⟨i, hi, h1, h2⟩ := bearerContext_new g hw hne n
  rw [hj] at hi; cases hi
  rw [← e, newGrouped_eq, rawEncs_wf g _ ((wfs_iff g _).mpr hw)] at hj
  injection hj with hj; injection hj with hj
  subst hj
  refine ⟨h1, rfl, h2, fun hg hl rest => ?_⟩
  have hwf : wf g ((IE.mk 93 (UInt16.ofNat (encs g (args.filterMap id)).length) 0 (encs g (args.filterMap id))
      (args.filterMap id)).withInstance n) = true := by
    have h3 := (wfs_iff g _).mpr hw
    simp only [IE.withInstance, wf, hg, h3]
    simp; omega
  obtain ⟨ha, hb⟩ := C05_ie_round_trip g _ rest hwf
  exact ⟨_, ha, hb⟩

theorem within_builds (fixed fTEIDs : List (Option IE)) : Builds g (within g fixed.length fixed fTEIDs) (fixed ++ fTEIDs) := by
  rw [within_eq]; exact newGrouped_builds g _

/-- C75 for Bearer Contexts: each of the fourteen constructors for one message, for all arguments (nil or not) and any number of
F-TEIDs -/
theorem C75_bearer_contexts (a b c d e f h k : Option IE) (fs : List (Option IE)) :
    Builds g (bcCreateBearerRequest g a b c d e f h k fs) ([a, b, c, d, e, f, h, k] ++ fs) ∧
    Builds g (bcCreateBearerResponse g a b c d e fs) ([a, b, c, d, e] ++ fs) ∧
    Builds g (bcDeleteBearerRequest g a b) [a, b] ∧
    Builds g (bcDeleteBearerResponse g a b c d e) [a, b, c, d, e] ∧
    Builds g (bcModifyBearerCommand g a b) [a, b] ∧
    Builds g (bcUpdateBearerRequest g a b c d e f h k) [a, b, c, d, e, f, h, k] ∧
    Builds g (bcUpdateBearerResponse g a b c d e fs) ([a, b, c, d, e] ++ fs) ∧
    Builds g (bcDeleteBearerCommand g a b c) [a, b, c] ∧
    Builds g (bcDeleteBearerFailure g a b) [a, b] ∧
    Builds g (bcIndirectRequest g a fs) ([a] ++ fs) ∧
    Builds g (bcIndirectResponse g a b fs) ([a, b] ++ fs) ∧
    Builds g (bcForwardRelocation g a b c d e f fs) ([a, b, c, d, e, f] ++ fs) ∧
    Builds g (bcContextResponse g a b c d e fs) ([a, b, c, d, e] ++ fs) ∧
    Builds g (bcContextAcknowledge g a b) [a, b] := by
  refine ⟨within_builds g _ fs, within_builds g _ fs, newGrouped_builds g _, newGrouped_builds g _, newGrouped_builds g _,
    newGrouped_builds g _, within_builds g _ fs, newGrouped_builds g _, newGrouped_builds g _, within_builds g _ fs,
    within_builds g _ fs, within_builds g _ fs, within_builds g _ fs, ?_⟩
  have : bcContextAcknowledge g a b = newGrouped g 93 [a, b] := by
    simp [bcContextAcknowledge, setPtrs, setPtr, newBearerContext]
  rw [this]; exact newGrouped_builds g _

/-- nothing to put in: the element is returned, but reading it is an error -/
theorem C75_empty_wrong : ∃ i, bcDeleteBearerRequest g none none = ok (some i) ∧ i.bearerContext g = err .eof := by
  refine ⟨_, newGrouped_eq g 93 _, ?_⟩
  simp [IE.bearerContext, IE.typ, IE.payload, rawEncs]

example : bcCreateBearerResponse defaultGrouped (some (newEBI 5)) none none none none [none, some (newEBI 6), some (newEBI 7)] =
    ok (some (.mk 93 15 0 [73, 0, 1, 0, 5, 73, 0, 1, 0, 6, 73, 0, 1, 0, 7] [newEBI 5, newEBI 6, newEBI 7])) := by decide
example : Builds defaultGrouped (bcContextAcknowledge defaultGrouped (some (newEBI 5)) none) [some (newEBI 5), none] ∧
    (∀ x ∈ [some (newEBI 5), none].filterMap id, wf defaultGrouped x = true) :=
  ⟨(C75_bearer_contexts defaultGrouped (some (newEBI 5)) none none none none none none none []).2.2.2.2.2.2.2.2.2.2.2.2.2, by decide⟩

/-! ### templates -/

/-- what a constructor of a template for one operation shall return: the 3GPP encoding of the template with this operation,
which survives the wire and is read back, with any instance -/
def Template (r : Res (Option IE)) (f : TFT) : Prop :=
  ∀ n, ∃ i, r = ok (some i) ∧ (i.withInstance n).payload = encTFT f ∧ Carried g (i.withInstance n) ∧
    (i.withInstance n).tft g = ok f

/-- C75 for templates in a Bearer TFT (84) or a Traffic Aggregate Description (85), with no parameter or an odd number of them
(for an even number see `C75_params_lost`): create 1, delete 2, add 3, replace 4, delete filters 5, no operation 6. -/
theorem C75_templates_partial {t : UInt8} (ht : t = 84 ∨ t = 85) (hg : g t = false) {fs : List Filter} {ids : Bytes}
    {ps : List Param} (hf : ∀ p ∈ fs, FilterOK p) (hfn : fs.length < 16) (hi : ids.length < 16) (hp : ∀ p ∈ ps, ParamOK p)
    (hodd : ps = [] ∨ ps.length % 2 = 1) (hl : (encFilters fs).length + ids.length + (encParams ps).length < 65535) :
    Template g (tftCreateNew t (fs.map some) (ps.map some)) ⟨1, fs, [], ps⟩ ∧
    Template g (tftDeleteExisting t (ps.map some)) ⟨2, [], [], ps⟩ ∧
    Template g (tftAdd t (fs.map some) (ps.map some)) ⟨3, fs, [], ps⟩ ∧
    Template g (tftReplace t (fs.map some) (ps.map some)) ⟨4, fs, [], ps⟩ ∧
    Template g (tftDeleteFilters t ids (ps.map some)) ⟨5, [], ids, ps⟩ ∧
    Template g (tftNoOperation t (ps.map some)) ⟨6, [], [], ps⟩ := by
  have key : ∀ f : TFT, TFTOK f → (f.filters = fs ∨ f.filters = []) → (f.ids = ids ∨ f.ids = []) → f.params = ps →
      Template g (newBearerTFT t f.op (f.filters.map some) f.ids (f.params.map some)) f := by
    intro f hok h1 h2 h3 n
    refine C46_tft_partial g hok (h3 ▸ hodd) ?_ ht hg n
    rcases h1 with h1 | h1 <;> rcases h2 with h2 | h2 <;> simp [encTFT, h1, h2, h3, encFilters] <;>
      simp [encFilters] at hl <;> omega
  refine ⟨key ⟨1, fs, [], ps⟩ ⟨?_, ?_, ?_, ?_, ?_, ?_⟩ ?_ ?_ ?_, key ⟨2, [], [], ps⟩ ⟨?_, ?_, ?_, ?_, ?_, ?_⟩ ?_ ?_ ?_,
    key ⟨3, fs, [], ps⟩ ⟨?_, ?_, ?_, ?_, ?_, ?_⟩ ?_ ?_ ?_, key ⟨4, fs, [], ps⟩ ⟨?_, ?_, ?_, ?_, ?_, ?_⟩ ?_ ?_ ?_,
    key ⟨5, [], ids, ps⟩ ⟨?_, ?_, ?_, ?_, ?_, ?_⟩ ?_ ?_ ?_, key ⟨6, [], [], ps⟩ ⟨?_, ?_, ?_, ?_, ?_, ?_⟩ ?_ ?_ ?_⟩ <;>
    first | decide | assumption | simp [hi]

/-- the receiver of what `r` returns reads f -/
def ReadAs (r : Res (Option IE)) (f : TFT) : Prop := ∃ i, r = ok (some i) ∧ i.tft g = ok f

/-- C75, what the code gets wrong: two parameters (any even number) given to these constructors are not seen by the receiver -/
theorem C75_params_lost {t : UInt8} (ht : t = 84 ∨ t = 85) {fs : List Filter} {ids : Bytes} {ps : List Param}
    (hf : ∀ p ∈ fs, FilterOK p) (hfn : fs.length < 16) (hi : ids.length < 16) (hp : ∀ p ∈ ps, ParamOK p)
    (he : ps.length % 2 = 0) :
    ReadAs g (tftCreateNew t (fs.map some) (ps.map some)) ⟨1, fs, [], []⟩ ∧
    ReadAs g (tftDeleteExisting t (ps.map some)) ⟨2, [], [], []⟩ ∧
    ReadAs g (tftAdd t (fs.map some) (ps.map some)) ⟨3, fs, [], []⟩ ∧
    ReadAs g (tftReplace t (fs.map some) (ps.map some)) ⟨4, fs, [], []⟩ ∧
    ReadAs g (tftDeleteFilters t ids (ps.map some)) ⟨5, [], ids, []⟩ ∧
    ReadAs g (tftNoOperation t (ps.map some)) ⟨6, [], [], []⟩ := by
  refine ⟨C46_params_lost g (f := ⟨1, fs, [], ps⟩) ⟨?_, hf, hp, ?_, ?_, ?_⟩ he ht,
    C46_params_lost g (f := ⟨2, [], [], ps⟩) ⟨?_, ?_, hp, ?_, ?_, ?_⟩ he ht,
    C46_params_lost g (f := ⟨3, fs, [], ps⟩) ⟨?_, hf, hp, ?_, ?_, ?_⟩ he ht,
    C46_params_lost g (f := ⟨4, fs, [], ps⟩) ⟨?_, hf, hp, ?_, ?_, ?_⟩ he ht,
    C46_params_lost g (f := ⟨5, [], ids, ps⟩) ⟨?_, ?_, hp, ?_, ?_, ?_⟩ he ht,
    C46_params_lost g (f := ⟨6, [], [], ps⟩) ⟨?_, ?_, hp, ?_, ?_, ?_⟩ he ht⟩ <;>
    first | decide | assumption | (simp; try omega)

example : tftDeleteFilters 85 [1, 2] [some (newParam 1 [0xaa])] = ok (some (newIE 85 0 [0xb2, 1, 2, 1, 1, 0xaa])) := by decide
example : tftAdd 84 [some (newFilter 3 5 200 [compU8 0x30 17])] [] = ok (some (newIE 84 0 [0x61, 0x35, 200, 2, 0x30, 17])) := by
  decide

end Verif.V2

/-! ### cases that meet the hypotheses -/

namespace Verif.V2
open Res Spec
def exFilter : Filter := newFilter 3 5 200 [compU8 0x30 17]
theorem exFilterOK : ∀ p ∈ [exFilter], FilterOK p := by
  intro p hp
  obtain rfl := List.mem_singleton.1 hp
  refine ⟨?_, ?_, ?_, ?_⟩ <;> first | decide | (intro c hc; obtain rfl := List.mem_singleton.1 hc; unfold CompOK; decide)
example := C75_templates_partial (g := defaultGrouped) (t := 84) (.inl rfl) (by decide) (ids := [1, 2]) (ps := [newParam 1 [0xaa]]) exFilterOK (by decide) (by decide)
  (by intro p hp; obtain rfl := List.mem_singleton.1 hp; unfold ParamOK; decide) (.inr (by decide)) (by decide)
example := C75_params_lost (g := defaultGrouped) (t := 84) (.inl rfl) (ids := [1, 2]) (ps := [newParam 1 [0xaa], newParam 1 [0xbb]]) exFilterOK (by decide)
  (by decide) (by intro p hp; simp only [List.mem_cons, List.not_mem_nil, or_false] at hp; rcases hp with rfl | rfl <;> (unfold ParamOK; decide)) (by decide)
end Verif.V2
