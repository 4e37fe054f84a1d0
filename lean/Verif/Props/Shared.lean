import Verif.Model.Shared
import Verif.Props.Given
/-
C112: what an accessor has returned and the element do not depend on each other any more.
-/
namespace Verif
open Res NetIP

theorem Span.of_eq {p : Bytes} {lo hi : Nat} (f : Span → Res Bytes) (hf : ∀ s, f s = ok (s.of p)) : (cut p lo hi >>= f) = slice p lo hi := by
  unfold cut slice
  split
  · exact hf _
  · rfl

theorem cut_le {p : Bytes} {lo hi : Nat} {s : Span} (h : cut p lo hi = ok s) : s.off + s.len ≤ p.length := by
  unfold cut at h
  split at h
  · obtain rfl := ok.inj h
    rename_i hc
    have : lo + (hi - lo) ≤ p.length := by omega
    exact this
  · exact absurd h (by simp)

theorem Part.read_within {m : Arrays} {pay : Part} {s : Span} (h : s.off + s.len ≤ pay.len) :
    (s.within pay).read m = s.of (pay.read m) := by
  simp only [Span.within, Part.read, Span.of, List.drop_take, List.drop_drop, List.take_take]
  rw [Nat.min_eq_left (by omega)]

/-- other slices are not changed by a write -/
theorem Part.read_write_other {m : Arrays} {s t : Part} {w : Bytes} (hs : s.Within m) (hw : w.length = s.len)
    (h : t.arr ≠ s.arr ∨ t.off + t.len ≤ s.off ∨ s.off + s.len ≤ t.off) : t.read (s.write m w) = t.read m := by
  by_cases ha : t.arr = s.arr
  · simp only [Part.read, Part.write, List.getD_eq_getElem?_getD, ha, List.getElem?_modify_eq]
    unfold Part.Within at hs
    rw [List.getD_eq_getElem?_getD] at hs
    cases hm : m[s.arr]? with
    | none => simp
    | some b =>
      rw [hm] at hs
      simp only [Option.getD_some] at hs
      simp only [Option.map_some, Option.map_eq_map, Option.getD_some]
      apply List.ext_getElem?
      intro k
      by_cases hk : k < t.len
      · simp only [List.getElem?_take, hk, if_true, List.getElem?_drop]
        rcases h with h | h | h
        · exact absurd ha h
        · rw [List.append_assoc, List.getElem?_append_left (by simp; omega), List.getElem?_take, if_pos (by omega)]
        · rw [List.getElem?_append_right (by simp; omega)]
          simp only [List.getElem?_drop, List.length_append, List.length_take, hw]
          congr 1
          omega
      · simp [List.getElem?_take, hk]
  · have hne : ¬ s.arr = t.arr := fun e => ha e.symm
    simp [Part.read, Part.write, List.getD_eq_getElem?_getD, hne]

/-- what a write to a part of a payload makes of the payload -/
theorem Part.read_write {m : Arrays} {pay : Part} {s : Span} {w : Bytes} (hp : pay.Within m) (hs : s.off + s.len ≤ pay.len)
    (hw : w.length = s.len) :
    pay.read ((s.within pay).write m w) = (pay.read m).take s.off ++ w ++ (pay.read m).drop (s.off + s.len) := by
  unfold Part.Within at hp
  simp only [Part.read, Part.write, Span.within, List.getD_eq_getElem?_getD, List.getElem?_modify_eq] at hp ⊢
  cases hm : m[pay.arr]? with
  | none =>
    rw [hm] at hp
    simp only [Option.getD_none, List.length_nil] at hp
    have : w = [] := List.length_eq_zero_iff.1 (by omega)
    subst this
    simp
  | some b =>
    rw [hm] at hp
    simp only [Option.getD_some] at hp
    simp only [Option.map_some, Option.map_eq_map, Option.getD_some]
    apply List.ext_getElem?
    intro k
    rw [List.take_of_length_le (l := w) (by omega)]
    simp only [List.getElem?_append, List.getElem?_take, List.getElem?_drop, List.length_append, List.length_take, List.length_drop, hw,
      Nat.min_self]
    repeat' split
    all_goals first
      | omega
      | (congr 1; omega)
      | rfl
      | (symm; apply List.getElem?_eq_none; omega)
      | (apply List.getElem?_eq_none; omega)

/-- the part lies in the payload -/
def SpanIn (p : Bytes) (r : Res Span) : Prop := ∀ s, r = ok s → s.off + s.len ≤ p.length
/-- the octets of the part are those returned; errors and panics are alike -/
def SpanEq (p : Bytes) (x : Res Span) (y : Res Bytes) : Prop := (x >>= fun s => ok (s.of p)) = y

namespace SpanIn
variable {p : Bytes}
theorem cut {lo hi : Nat} : SpanIn p (cut p lo hi) := fun _ h => cut_le h
theorem err {e : Err} : SpanIn p (err e) := fun _ h => absurd h (by simp)
theorem whole : SpanIn p (ok ⟨0, p.length⟩) := by
  intro s h
  obtain rfl := ok.inj h
  exact Nat.le_of_eq (Nat.zero_add _)
theorem empty : SpanIn p (ok ⟨0, 0⟩) := by
  intro s h
  obtain rfl := ok.inj h
  exact Nat.zero_le _
theorem ite {c : Prop} [Decidable c] {x y : Res Span} (hx : SpanIn p x) (hy : SpanIn p y) : SpanIn p (if c then x else y) := by
  split
  · exact hx
  · exact hy
theorem bind {α : Type} {r : Res α} {f : α → Res Span} (h : ∀ v, SpanIn p (f v)) : SpanIn p (r >>= f) := by
  intro s hs
  cases r with
  | ok v => exact h v s hs
  | err e => exact absurd hs (by rw [show (Res.err e >>= f : Res Span) = Res.err e from rfl]; simp)
  | panic => exact absurd hs (by rw [show (Res.panic >>= f : Res Span) = Res.panic from rfl]; simp)
  | diverge => exact absurd hs (by rw [show (Res.diverge >>= f : Res Span) = Res.diverge from rfl]; simp)
end SpanIn

namespace SpanEq
variable {p : Bytes}
theorem cut {lo hi : Nat} : SpanEq p (cut p lo hi) (slice p lo hi) := Span.of_eq _ (fun _ => rfl)
theorem from_ {lo : Nat} : SpanEq p (Verif.cut p lo p.length) (sliceFrom p lo) := by
  unfold SpanEq Verif.cut sliceFrom
  by_cases h : lo ≤ p.length
  · rw [if_pos ⟨h, Nat.le_refl _⟩, if_pos h]
    show ok (Span.of p ⟨lo, p.length - lo⟩) = _
    simp only [Span.of]
    rw [List.take_of_length_le (by simp)]
  · rw [if_neg (fun c => h c.1), if_neg h]; rfl
theorem err {e : Err} : SpanEq p (err e) (err e) := rfl
theorem whole : SpanEq p (ok ⟨0, p.length⟩) (ok p) := by
  show ok (Span.of p ⟨0, p.length⟩) = _
  simp [Span.of]
theorem empty : SpanEq p (ok ⟨0, 0⟩) (ok []) := by
  show ok (Span.of p ⟨0, 0⟩) = _
  simp [Span.of]
theorem ite {c : Prop} [Decidable c] {x y : Res Span} {x' y' : Res Bytes} (hx : c → SpanEq p x x') (hy : ¬c → SpanEq p y y') :
    SpanEq p (if c then x else y) (if c then x' else y') := by
  split
  · rename_i h; exact hx h
  · rename_i h; exact hy h
theorem bind {α : Type} {r : Res α} {f : α → Res Span} {f' : α → Res Bytes} (h : ∀ v, SpanEq p (f v) (f' v)) :
    SpanEq p (r >>= f) (r >>= f') := by
  cases r with
  | ok v => exact h v
  | err e => rfl
  | panic => rfl
  | diverge => rfl
end SpanEq

namespace V2
open Res NetIP

theorem ipSpan_in (i : IE) : SpanIn i.payload (ipSpan i) := by
  dsimp only [ipSpan, paaSpan, addrSpan, fteidSpan]
  repeat (first | exact SpanIn.cut | exact SpanIn.err | exact SpanIn.whole | apply SpanIn.ite | refine SpanIn.bind fun _ => ?_)

theorem Span.length_of {p : Bytes} {s : Span} (h : s.off + s.len ≤ p.length) : (s.of p).length = s.len := by
  simp only [Span.of, List.length_take, List.length_drop]
  omega

theorem Acc.span_le {i : IE} {a : Acc} : ∀ {s : Span}, a.span i = ok s → s.off + s.len ≤ i.payload.length := by
  show SpanIn i.payload (a.span i)
  cases a with
  | ip => exact ipSpan_in i
  | ipv4 =>
    intro s hs
    have hi := ipSpan_in i
    simp only [Acc.span, ipv4Span] at hs
    cases e : ipSpan i with
    | ok x =>
      have hx := hi x e
      rw [e] at hs
      simp only [Res.bind_ok] at hs
      split at hs
      · obtain rfl := ok.inj hs; exact hx
      split at hs
      · obtain rfl := ok.inj hs
        rename_i h16
        have := h16.1
        show x.off + 12 + 4 ≤ _
        omega
      · exact absurd hs (by simp)
    | err e' => rw [e] at hs; exact absurd hs (by simp)
    | panic => rw [e] at hs; exact absurd hs (by simp)
    | diverge => rw [e] at hs; exact absurd hs (by simp)
  | _ =>
    dsimp only [Acc.span]
    repeat (first | exact SpanIn.cut | exact SpanIn.err | exact SpanIn.whole | apply SpanIn.ite | refine SpanIn.bind fun _ => ?_)

theorem idx_some {p : Bytes} {k : Nat} (h : k < p.length) : ∃ x, idx p k = ok x := by
  refine ⟨p[k], ?_⟩
  simp [idx, List.getElem?_eq_getElem h]

theorem slice_some {p : Bytes} {lo hi : Nat} (h1 : lo ≤ hi) (h2 : hi ≤ p.length) : slice p lo hi = ok ((p.drop lo).take (hi - lo)) :=
  if_pos ⟨h1, h2⟩

theorem cut_some {p : Bytes} {lo hi : Nat} (h1 : lo ≤ hi) (h2 : hi ≤ p.length) : cut p lo hi = ok ⟨lo, hi - lo⟩ := if_pos ⟨h1, h2⟩

theorem paa_agree {p : Bytes} (h5 : ¬ p.length < 5) : SpanEq p (paaSpan p) (do
    let f ← parsePAA p
    if f.pdnType = 1 ∨ f.pdnType = 3 then ok f.v4
    else if f.pdnType = 2 then ok f.v6
    else err .notFound) := by
  obtain ⟨b0, e0⟩ := idx_some (p := p) (k := 0) (by omega)
  obtain ⟨b1, e1⟩ := idx_some (p := p) (k := 1) (by omega)
  unfold paaSpan parsePAA
  rw [if_neg (show ¬ p.length < 1 by omega)]
  simp only [e0, e1, Res.bind_ok]
  generalize b0 &&& 0x07 = t
  by_cases h1 : t = 1
  · subst h1
    simp only [if_true, h5, if_false, slice_some (p := p) (lo := 1) (hi := 5) (by omega) (by omega), Res.bind_ok, true_or,
      cut_some (p := p) (lo := 1) (hi := 5) (by omega) (by omega)]
    rfl
  by_cases h2 : t = 2
  · subst h2
    rw [if_neg h1, if_neg h1, if_pos rfl, if_pos rfl]
    by_cases hl : p.length < 18
    · rw [if_pos hl, if_pos hl]; rfl
    · rw [if_neg hl, if_neg hl, slice_some (by omega) (by omega), cut_some (by omega) (by omega)]
      rfl
  rw [if_neg h1, if_neg h1, if_neg h2, if_neg h2]
  by_cases h3 : t = 3
  · subst h3
    rw [if_pos rfl, if_pos rfl]
    by_cases hl : p.length < 22
    · rw [if_pos hl, if_pos hl]; rfl
    · rw [if_neg hl, if_neg hl, slice_some (by omega) (by omega), slice_some (by omega) (by omega), cut_some (by omega) (by omega)]
      rfl
  · rw [if_neg h3, if_neg h3]
    simp only [Res.bind_ok, h1, h2, h3, or_self, if_false]
    rfl

theorem to4_four {a : Bytes} (h : a.length = 4) : to4 a = some a := by simp [to4, h]
theorem to16_sixteen {a : Bytes} (h : a.length = 16) : to16 a = some a := by simp [to16, h]

theorem fteid_agree (i : IE) (ht : i.typ = 87) : SpanEq i.payload (fteidSpan i.payload) (do
    let f ← parseFTEID i.payload
    let h4 ← i.hasIPv4
    let h6 ← i.hasIPv6
    if h4 then ok (ofOpt f.v4)
    else if h6 then ok (ofOpt f.v6)
    else err .notFound) := by
  unfold fteidSpan parseFTEID IE.hasIPv4 IE.hasIPv6
  rw [if_pos ht, if_pos ht]
  generalize i.payload = p
  by_cases h5 : p.length < 5
  · rw [if_pos h5, if_pos h5]; rfl
  rw [if_neg h5, if_neg h5, if_neg (show ¬ p.length < 1 by omega), if_neg (show ¬ p.length < 1 by omega)]
  obtain ⟨b0, e0⟩ := idx_some (p := p) (k := 0) (by omega)
  have m8 : has8thBit (b0 &&& 0xc0) = has8thBit b0 := by simp only [has8thBit, UInt8.and_assoc]; rfl
  have m7 : has7thBit (b0 &&& 0xc0) = has7thBit b0 := by simp only [has7thBit, UInt8.and_assoc]; rfl
  have hs : slice p 1 5 = ok ((p.drop 1).take 4) := slice_some (by omega) (by omega)
  have hr : ∃ x, rd32 ((p.drop 1).take 4) = ok x := by
    match p, h5 with
    | _ :: _ :: _ :: _ :: _ :: _, _ => exact ⟨_, rfl⟩
    | [], h | [_], h | [_, _], h | [_, _, _], h | [_, _, _, _], h => simp at h
  obtain ⟨x, hr⟩ := hr
  simp only [e0, hs, hr, Res.bind_ok, FTEID.getV4, FTEID.getV6, m8]
  cases h8 : has8thBit b0 <;> cases h7 : has7thBit b0 <;>
    simp only [h7, m7, if_true, if_false, Bool.false_eq_true, Res.bind_ok, true_and, false_and, Nat.reduceAdd]
  · rfl
  · by_cases hl : p.length < 21
    · rw [if_pos hl, if_pos hl]; rfl
    · rw [if_neg hl, if_neg hl, slice_some (by omega) (by omega), cut_some (by omega) (by omega)]
      simp only [Res.bind_ok]
      rw [to16_sixteen (by simp; omega)]
      rfl
  · by_cases hl : p.length < 9
    · rw [if_pos hl, if_pos hl]; rfl
    · rw [if_neg hl, if_neg hl, slice_some (by omega) (by omega), cut_some (by omega) (by omega)]
      simp only [Res.bind_ok]
      rw [to4_four (by simp; omega)]
      simp only [Res.bind_ok, m7, h7, Bool.false_eq_true, if_false]
      rfl
  · by_cases hl : p.length < 9
    · rw [if_pos hl, if_pos hl]; rfl
    · rw [if_neg hl, if_neg hl, slice_some (by omega) (by omega)]
      simp only [Res.bind_ok]
      rw [to4_four (by simp; omega)]
      simp only [Res.bind_ok, m7, h7, if_true, Nat.reduceAdd]
      by_cases hm : p.length < 25
      · rw [if_pos hm, if_pos hm]; rfl
      · rw [if_neg hm, if_neg hm, slice_some (by omega) (by omega), cut_some (by omega) (by omega)]
        simp only [Res.bind_ok]
        rw [to16_sixteen (by simp; omega)]
        rfl

theorem ip_agree (i : IE) : SpanEq i.payload (ipSpan i) i.ip := by
  dsimp only [ipSpan, addrSpan, IE.ip, addrAt]
  repeat (first | exact SpanEq.cut | exact SpanEq.err | exact SpanEq.whole | exact paa_agree (by assumption) | exact fteid_agree i (by assumption) | refine SpanEq.ite (fun _ => ?_) (fun _ => ?_) | refine SpanEq.bind fun _ => ?_)

/-- the model agrees with that of the octets: the accessor returns the octets of the part -/
theorem C112_value (i : IE) (a : Acc) : (a.span i >>= fun s => ok (s.of i.payload)) = a.get i := by
  show SpanEq i.payload (a.span i) (a.get i)
  cases a with
  | ip => exact ip_agree i
  | ipv4 =>
    have hi := ip_agree i
    have hn := ipSpan_in i
    unfold SpanEq at hi ⊢
    simp only [Acc.span, Acc.get, IE.ipv4, ipv4Span, ← hi]
    cases e : ipSpan i with
    | ok x =>
      have hl := Span.length_of (hn x e)
      simp only [Res.bind_ok, to4, hl]
      by_cases h4 : x.len = 4
      · simp [h4, orNotFound]
      · by_cases h16 : x.len = 16 ∧ (x.of i.payload).take 12 = v4Prefix
        · simp only [h4, if_false, if_pos h16, orNotFound, Res.bind_ok]
          simp only [Span.of, h16.1, List.drop_take, List.drop_drop]
        · simp only [h4, if_false, if_neg h16, orNotFound]
          rfl
    | err e' => rfl
    | panic => rfl
    | diverge => rfl
  | _ =>
    dsimp only [Acc.span, Acc.get, IE.nodeID, IE.privateExtension]
    repeat (first | exact SpanEq.cut | exact SpanEq.from_ | exact SpanEq.err | exact SpanEq.whole | refine SpanEq.ite (fun _ => ?_) (fun _ => ?_) | refine SpanEq.bind fun _ => ?_)

/-! ### IPv6 -/

theorem to16_agree {p : Bytes} {s : Span} (h : s.off + s.len ≤ p.length) :
    (to16Got p s >>= fun x => ok (x.of p)) = orNotFound (to16 (s.of p)) := by
  have hl := Span.length_of h
  unfold to16Got to16
  rw [hl]
  split
  · rfl
  split
  · rfl
  · rfl

theorem got_cut {p : Bytes} {lo hi : Nat} (h1 : lo ≤ hi) (h2 : hi ≤ p.length) :
    ((cut p lo hi >>= to16Got p) >>= fun x => ok (x.of p)) = orNotFound (to16 ((p.drop lo).take (hi - lo))) := by
  rw [cut_some h1 h2]
  exact to16_agree (p := p) (s := ⟨lo, hi - lo⟩) (by show lo + (hi - lo) ≤ _; omega)

theorem paa6_agree {p : Bytes} (h4 : ¬ p.length < 4) : (paaGot p >>= fun x => ok (x.of p)) = (do
    let f ← parsePAA p
    orNotFound (to16 f.v6)) := by
  obtain ⟨b0, e0⟩ := idx_some (p := p) (k := 0) (by omega)
  obtain ⟨b1, e1⟩ := idx_some (p := p) (k := 1) (by omega)
  unfold paaGot parsePAA
  rw [if_neg (show ¬ p.length < 1 by omega), if_neg (show ¬ p.length < 1 by omega)]
  simp only [e0, e1, Res.bind_ok]
  generalize b0 &&& 0x07 = t
  by_cases h1 : t = 1
  · rw [if_pos h1, if_pos h1]
    by_cases hl : p.length < 5
    · rw [if_pos hl, if_pos hl]; rfl
    · rw [if_neg hl, if_neg hl, slice_some (by omega) (by omega)]; rfl
  rw [if_neg h1, if_neg h1]
  by_cases h2 : t = 2
  · rw [if_pos h2, if_pos h2]
    by_cases hl : p.length < 18
    · rw [if_pos hl, if_pos hl]; rfl
    · rw [if_neg hl, if_neg hl, got_cut (by omega) (by omega), slice_some (by omega) (by omega)]; rfl
  rw [if_neg h2, if_neg h2]
  by_cases h3 : t = 3
  · rw [if_pos h3, if_pos h3]
    by_cases hl : p.length < 22
    · rw [if_pos hl, if_pos hl]; rfl
    · rw [if_neg hl, if_neg hl, got_cut (by omega) (by omega), slice_some (by omega) (by omega), slice_some (by omega) (by omega)]; rfl
  · rw [if_neg h3, if_neg h3]; rfl

theorem fteid6_agree (i : IE) (ht : i.typ = 87) : (fteidGot i.payload >>= fun x => ok (x.of i.payload)) = (do
    let f ← parseFTEID i.payload
    let h6 ← i.hasIPv6
    if h6 then orNotFound (to16 (ofOpt f.v6)) else err .notFound) := by
  unfold fteidGot parseFTEID IE.hasIPv6
  rw [if_pos ht]
  generalize i.payload = p
  by_cases h5 : p.length < 5
  · rw [if_pos h5, if_pos h5]; rfl
  rw [if_neg h5, if_neg h5, if_neg (show ¬ p.length < 1 by omega)]
  obtain ⟨b0, e0⟩ := idx_some (p := p) (k := 0) (by omega)
  have m8 : has8thBit (b0 &&& 0xc0) = has8thBit b0 := by simp only [has8thBit, UInt8.and_assoc]; rfl
  have m7 : has7thBit (b0 &&& 0xc0) = has7thBit b0 := by simp only [has7thBit, UInt8.and_assoc]; rfl
  have hs : slice p 1 5 = ok ((p.drop 1).take 4) := slice_some (by omega) (by omega)
  have hr : ∃ x, rd32 ((p.drop 1).take 4) = ok x := by
    match p, h5 with
    | _ :: _ :: _ :: _ :: _ :: _, _ => exact ⟨_, rfl⟩
    | [], h | [_], h | [_, _], h | [_, _, _], h | [_, _, _, _], h => simp at h
  obtain ⟨x, hr⟩ := hr
  simp only [e0, hs, hr, Res.bind_ok, FTEID.getV4, FTEID.getV6, m8]
  cases h8 : has8thBit b0 <;> cases h7 : has7thBit b0 <;>
    simp only [h7, m7, if_true, if_false, Bool.false_eq_true, Res.bind_ok, Nat.reduceAdd]
  · rfl
  · by_cases hl : p.length < 21
    · rw [if_pos hl, if_pos hl]; rfl
    · rw [if_neg hl, if_neg hl, got_cut (by omega) (by omega), slice_some (by omega) (by omega)]
      simp only [Res.bind_ok]
      rw [to16_sixteen (by simp; omega)]
      simp only [Res.bind_ok, ofOpt, Option.getD_some]
      rw [to16_sixteen (by simp; omega)]
  · by_cases hl : p.length < 9
    · rw [if_pos hl, if_pos hl]; rfl
    · rw [if_neg hl, if_neg hl, slice_some (by omega) (by omega)]
      simp only [Res.bind_ok]
      rw [to4_four (by simp; omega)]
      simp only [Res.bind_ok, m7, h7, Bool.false_eq_true, if_false]
      rfl
  · by_cases hl : p.length < 9
    · rw [if_pos hl, if_pos hl]; rfl
    · rw [if_neg hl, if_neg hl, slice_some (by omega) (by omega)]
      simp only [Res.bind_ok]
      rw [to4_four (by simp; omega)]
      simp only [Res.bind_ok, m7, h7, if_true, Nat.reduceAdd]
      by_cases hm : p.length < 25
      · rw [if_pos hm, if_pos hm]; rfl
      · rw [if_neg hm, if_neg hm, got_cut (by omega) (by omega), slice_some (by omega) (by omega)]
        simp only [Res.bind_ok]
        rw [to16_sixteen (by simp; omega)]
        simp only [Res.bind_ok, ofOpt, Option.getD_some]
        rw [to16_sixteen (by simp; omega)]

/-- the model agrees with that of the octets -/
theorem C112_ipv6_value (i : IE) : (ipv6Got i >>= fun x => ok (x.of i.payload)) = i.ipv6 := by
  unfold ipv6Got IE.ipv6
  by_cases h4 : i.payload.length < 4
  · rw [if_pos h4, if_pos h4]; rfl
  rw [if_neg h4, if_neg h4]
  by_cases ht : i.typ = 74 ∨ i.typ = 90 ∨ i.typ = 91
  · rw [if_pos ht, if_pos ht, ← show _ = i.ip from ip_agree i]
    cases e : ipSpan i with
    | ok x => exact to16_agree (ipSpan_in i x e)
    | err e' => rfl
    | panic => rfl
    | diverge => rfl
  rw [if_neg ht, if_neg ht]
  by_cases h79 : i.typ = 79
  · rw [if_pos h79, if_pos h79]; exact paa6_agree h4
  rw [if_neg h79, if_neg h79]
  by_cases h87 : i.typ = 87
  · rw [if_pos h87, if_pos h87]; exact fteid6_agree i h87
  · rw [if_neg h87, if_neg h87]; rfl

theorem to16Got_part {p : Bytes} {r : Res Span} (hr : SpanIn p r) {s : Span} (h : (r >>= to16Got p) = ok (.part s)) :
    s.off + s.len ≤ p.length ∧ s.len = 16 := by
  cases r with
  | ok x =>
    simp only [Res.bind_ok, to16Got] at h
    split at h
    · exact absurd (ok.inj h) (by simp)
    split at h
    · have := ok.inj h
      injection this with this
      subst this
      rename_i h16
      exact ⟨hr _ rfl, h16⟩
    · exact absurd h (by simp)
  | err e => exact absurd h (by simp)
  | panic => exact absurd h (by simp)
  | diverge => exact absurd h (by simp)

theorem ipv6_part {i : IE} {s : Span} (h : ipv6Got i = ok (.part s)) : s.off + s.len ≤ i.payload.length ∧ s.len = 16 := by
  simp only [ipv6Got, paaGot, fteidGot] at h
  repeat' split at h
  all_goals first
    | exact to16Got_part (ipSpan_in i) h
    | (obtain ⟨b0, e0⟩ := idx_some (p := i.payload) (k := 0) (by omega)
       rw [e0] at h
       simp only [Res.bind_ok] at h
       repeat' split at h
       all_goals first
         | exact to16Got_part SpanIn.cut h
         | (exfalso; simp at h; done))
    | (exfalso; simp at h; done)

/-- C112 for `IPv6` fails for addresses of sixteen octets: what the caller writes into what it was given is in the element -/
theorem C112_ipv6_written {m : Arrays} {h : HeldIE} {x : Span} {w : Bytes} (hp : h.pay.Within m)
    (hr : ipv6Got (h.view m) = ok (.part x)) (hw : w.length = 16) :
    h.view ((x.within h.pay).write m w) =
      .mk h.typ h.len h.inst ((h.view m).payload.take x.off ++ w ++ (h.view m).payload.drop (x.off + 16)) [] := by
  obtain ⟨h1, h2⟩ := ipv6_part hr
  have h1' : x.off + x.len ≤ h.pay.len := by rwa [show (h.view m).payload = h.pay.read m from rfl, Part.length_read hp] at h1
  simp only [HeldIE.view, IE.payload, Part.read_write hp h1' (hw.trans h2.symm), h2]

/-- C112 for `IPv6`, what holds: the address of an element that has four octets is returned as a new array, so neither depends on the
other.  What does not: `C112_ipv6_written`. -/
theorem C112_ipv6_partial {i : IE} {s : Span} (ht : i.typ = 74 ∨ i.typ = 90 ∨ i.typ = 91) (hs : ipSpan i = ok s) (h4 : s.len = 4)
    (hl : 4 ≤ i.payload.length) : ipv6Got i = ok (.copy (v4Prefix ++ s.of i.payload)) := by
  unfold ipv6Got
  rw [if_neg (by omega), if_pos ht, hs]
  simp only [Res.bind_ok, to16Got, h4, if_true]

theorem Acc.run_span {m : Arrays} {h : HeldIE} {a : Acc} {s : Part} (hp : h.pay.Within m) (hr : a.run m h = ok s) :
    ∃ x : Span, a.span (h.view m) = ok x ∧ s = x.within h.pay ∧ x.off + x.len ≤ h.pay.len := by
  unfold Acc.run at hr
  cases e : a.span (h.view m) with
  | ok x =>
    rw [e] at hr
    refine ⟨x, rfl, (ok.inj hr).symm, ?_⟩
    have := Acc.span_le e
    rwa [show (h.view m).payload = h.pay.read m from rfl, Part.length_read hp] at this
  | err e' => rw [e] at hr; exact absurd hr (by rw [show (err e' >>= fun s : Span => ok (s.within h.pay)) = err e' from rfl]; simp)
  | panic => rw [e] at hr; exact absurd hr (by rw [show (Res.panic >>= fun s : Span => ok (s.within h.pay)) = Res.panic from rfl]; simp)
  | diverge => rw [e] at hr; exact absurd hr (by rw [show (diverge >>= fun s : Span => ok (s.within h.pay)) = diverge from rfl]; simp)

/-- when the accessor returns, the caller has the octets of the element -/
theorem C112_now {m : Arrays} {h : HeldIE} {a : Acc} {s : Part} (hp : h.pay.Within m) (hr : a.run m h = ok s) :
    a.get (h.view m) = ok (s.read m) := by
  obtain ⟨x, e, rfl, hx⟩ := Acc.run_span hp hr
  rw [← C112_value, e, Part.read_within hx]
  rfl

/-- C112, what holds: if the caller writes to the slice, type, length and instance of the element and all octets of its payload outside of
what was returned stay, and so do all slices elsewhere, those of other elements among them.  What does not: the octets returned are
those of the element itself (`C112_written`). -/
theorem C112_partial {m : Arrays} {h : HeldIE} {a : Acc} {s : Part} {w : Bytes} (hp : h.pay.Within m) (hr : a.run m h = ok s)
    (hw : w.length = s.len) (t : Part) (ht : t.arr ≠ s.arr ∨ t.off + t.len ≤ s.off ∨ s.off + s.len ≤ t.off) :
    t.read (s.write m w) = t.read m ∧ (h.view (s.write m w)).typ = (h.view m).typ ∧
    (h.view (s.write m w)).len = (h.view m).len ∧ (h.view (s.write m w)).instance' = (h.view m).instance' ∧ (h.view (s.write m w)).payload.length = (h.view m).payload.length := by
  obtain ⟨x, e, rfl, hx⟩ := Acc.run_span hp hr
  have hl := Part.length_read hp
  refine ⟨Part.read_write_other ?_ hw ht, rfl, rfl, rfl, ?_⟩
  · unfold Part.Within at hp ⊢
    simp only [Span.within] at hw ⊢
    omega
  · show (h.pay.read _).length = (h.pay.read m).length
    rw [Part.read_write hp hx hw]
    have hw' : w.length = x.len := hw
    simp only [List.length_append, List.length_take, List.length_drop, hw', hl]
    omega

/-- C112 fails for every one of these accessors: what the caller writes into what it was given is in the element -/
theorem C112_written {m : Arrays} {h : HeldIE} {a : Acc} {s : Part} {w : Bytes} (hp : h.pay.Within m) (hr : a.run m h = ok s)
    (hw : w.length = s.len) :
    h.view (s.write m w) = .mk h.typ h.len h.inst ((h.view m).payload.take (s.off - h.pay.off) ++ w ++ (h.view m).payload.drop (s.off - h.pay.off + s.len)) [] := by
  obtain ⟨x, e, rfl, hx⟩ := Acc.run_span hp hr
  have e1 : h.pay.off + x.off - h.pay.off = x.off := by omega
  simp only [HeldIE.view, IE.payload, Part.read_write hp hx hw]
  simp only [Span.within, e1]

/-- so the element is another one if the octets are others -/
theorem C112_written_wrong {m : Arrays} {h : HeldIE} {a : Acc} {s : Part} {w : Bytes} (hp : h.pay.Within m) (hr : a.run m h = ok s)
    (hw : w.length = s.len) (hne : w ≠ s.read m) : h.view (s.write m w) ≠ h.view m := by
  intro he
  have e1 := C112_written hp hr hw
  obtain ⟨x, e, rfl, hx⟩ := Acc.run_span hp hr
  rw [he] at e1
  have e2 : h.pay.off + x.off - h.pay.off = x.off := by omega
  have e3 : (h.view m).payload = _ := congrArg IE.payload e1
  simp only [IE.payload, Span.within, e2] at e3
  have hw' : w.length = x.len := hw
  have hl := Part.length_read hp
  apply hne
  rw [Part.read_within hx]
  show w = x.of (h.pay.read m)
  unfold Span.of
  simp only [HeldIE.view] at e3
  rw [e3]
  have e5 : ((h.pay.read m).take x.off).length = x.off := by rw [List.length_take]; omega
  rw [List.append_assoc, List.drop_left' e5, ← hw', List.take_left' rfl]

/-- C112 fails the other way round, too: what the caller keeps is, whenever it is looked at, the part of the element as it then is -/
theorem C112_follows_wrong {m : Arrays} {h : HeldIE} {a : Acc} {s : Part} (hp : h.pay.Within m) (hr : a.run m h = ok s) (later : Arrays) :
    s.read later = ((h.view later).payload.drop (s.off - h.pay.off)).take s.len := by
  obtain ⟨x, e, rfl, hx⟩ := Acc.run_span hp hr
  have e1 : h.pay.off + x.off - h.pay.off = x.off := by omega
  rw [Part.read_within hx]
  simp only [Span.within, e1]
  rfl

/-- a program that reads the address of an F-TEID and counts it up to get the next has changed the F-TEID; the address it took from
a received element is another one after the next datagram -/
theorem C112_wrong :
    let m : Arrays := [[87, 0, 9, 0, 0x8a, 0, 0, 0, 9, 10, 0, 0, 1]]
    let h : HeldIE := ⟨87, 9, 0, ⟨0, 4, 9⟩⟩
    ∃ s, Acc.ip.run m h = ok s ∧ s.read m = [10, 0, 0, 1] ∧
      h.view (s.write m [10, 0, 0, 2]) = newIE 87 0 [0x8a, 0, 0, 0, 9, 10, 0, 0, 2] ∧
      s.read [[87, 0, 9, 0, 0x8a, 0, 0, 0, 7, 10, 9, 9, 9]] = [10, 9, 9, 9] := by
  refine ⟨_, rfl, by decide, by decide, by decide⟩

/-! ### cases that meet the hypotheses -/

def shared : Arrays := [[87, 0, 9, 0, 0x8a, 0, 0, 0, 9, 10, 0, 0, 1], [0, 10, 255, 1, 2, 3]]
example := C112_now (m := shared) (h := ⟨87, 9, 0, ⟨0, 4, 9⟩⟩) (a := .ip) (by decide) rfl
example := C112_partial (m := shared) (h := ⟨87, 9, 0, ⟨0, 4, 9⟩⟩) (a := .ip) (w := [10, 0, 0, 2]) (by decide) rfl rfl ⟨1, 0, 6⟩ (by decide)
example := C112_written (m := shared) (h := ⟨255, 5, 0, ⟨1, 1, 5⟩⟩) (a := .privateExtension) (w := [7, 8, 9]) (by decide) rfl rfl
example := C112_written_wrong (m := shared) (h := ⟨255, 5, 0, ⟨1, 1, 5⟩⟩) (a := .privateExtension) (w := [7, 8, 9]) (by decide) rfl rfl (by decide)
example := C112_ipv6_written (m := [[0, 0x42, 0, 0, 0, 9] ++ List.replicate 16 7]) (h := ⟨87, 21, 0, ⟨0, 1, 21⟩⟩) (x := ⟨5, 16⟩)
  (w := List.replicate 16 8) (by decide) (by decide) rfl
example := C112_ipv6_partial (i := newIE 74 0 [10, 0, 0, 1]) (s := ⟨0, 4⟩) (by decide) rfl rfl (by decide)
example := C112_now (m := [v4Prefix ++ [10, 0, 0, 1]]) (h := ⟨74, 16, 0, ⟨0, 0, 16⟩⟩) (a := .ipv4) (by decide) rfl
example := C112_follows_wrong (m := shared) (h := ⟨74, 4, 0, ⟨0, 9, 4⟩⟩) (a := .ip) (by decide) rfl

end V2

namespace TLV
open Res NetIP

theorem Acc.span_le {i : IE} {a : Acc} : ∀ {s : Span}, a.span i = ok s → s.off + s.len ≤ i.payload.length := by
  show SpanIn i.payload (a.span i)
  cases a <;> dsimp only [Acc.span] <;>
    repeat (first | exact SpanIn.cut | exact SpanIn.err | exact SpanIn.whole | exact SpanIn.empty | apply SpanIn.ite | refine SpanIn.bind fun _ => ?_)

theorem C112_value (i : IE) (a : Acc) : (a.span i >>= fun s => ok (s.of i.payload)) = a.get i := by
  show SpanEq i.payload (a.span i) (a.get i)
  cases a <;> dsimp only [Acc.span, Acc.get, IE.quintuplet, IE.rand, IE.sres, IE.kc, IE.xres, IE.ck, IE.ik, IE.autn, IE.extensionValue, IE.ip] <;>
    repeat (first | exact SpanEq.cut | exact SpanEq.from_ | exact SpanEq.err | exact SpanEq.whole | exact SpanEq.empty | refine SpanEq.ite (fun _ => ?_) (fun _ => ?_) | refine SpanEq.bind fun _ => ?_)

theorem Acc.run_span {m : Arrays} {h : HeldIE} {a : Acc} {s : Part} (hp : h.pay.Within m) (hr : a.run m h = ok s) :
    ∃ x : Span, a.span (h.view m) = ok x ∧ s = x.within h.pay ∧ x.off + x.len ≤ h.pay.len := by
  unfold Acc.run at hr
  cases e : a.span (h.view m) with
  | ok x =>
    rw [e] at hr
    refine ⟨x, rfl, (ok.inj hr).symm, ?_⟩
    have := Acc.span_le e
    rwa [show (h.view m).payload = h.pay.read m from rfl, Part.length_read hp] at this
  | err e' => rw [e] at hr; exact absurd hr (by rw [show (err e' >>= fun s : Span => ok (s.within h.pay)) = err e' from rfl]; simp)
  | panic => rw [e] at hr; exact absurd hr (by rw [show (Res.panic >>= fun s : Span => ok (s.within h.pay)) = Res.panic from rfl]; simp)
  | diverge => rw [e] at hr; exact absurd hr (by rw [show (diverge >>= fun s : Span => ok (s.within h.pay)) = diverge from rfl]; simp)

/-- when the accessor returns, the caller has the octets of the element -/
theorem C112_now {m : Arrays} {h : HeldIE} {a : Acc} {s : Part} (hp : h.pay.Within m) (hr : a.run m h = ok s) :
    a.get (h.view m) = ok (s.read m) := by
  obtain ⟨x, e, rfl, hx⟩ := Acc.run_span hp hr
  rw [← C112_value, e, Part.read_within hx]
  rfl

/-- C112, what holds: if the caller writes to the slice, type and length of the element and all octets of its payload outside of
what was returned stay, and so do all slices elsewhere, those of other elements among them.  What does not: the octets returned are
those of the element itself (`C112_written`). -/
theorem C112_partial {m : Arrays} {h : HeldIE} {a : Acc} {s : Part} {w : Bytes} (hp : h.pay.Within m) (hr : a.run m h = ok s)
    (hw : w.length = s.len) (t : Part) (ht : t.arr ≠ s.arr ∨ t.off + t.len ≤ s.off ∨ s.off + s.len ≤ t.off) :
    t.read (s.write m w) = t.read m ∧ (h.view (s.write m w)).typ = (h.view m).typ ∧
    (h.view (s.write m w)).length = (h.view m).length ∧ (h.view (s.write m w)).payload.length = (h.view m).payload.length := by
  obtain ⟨x, e, rfl, hx⟩ := Acc.run_span hp hr
  have hl := Part.length_read hp
  refine ⟨Part.read_write_other ?_ hw ht, rfl, rfl, ?_⟩
  · unfold Part.Within at hp ⊢
    simp only [Span.within] at hw ⊢
    omega
  · show (h.pay.read _).length = (h.pay.read m).length
    rw [Part.read_write hp hx hw]
    have hw' : w.length = x.len := hw
    simp only [List.length_append, List.length_take, List.length_drop, hw', hl]
    omega

/-- C112 fails for every one of these accessors: what the caller writes into what it was given is in the element -/
theorem C112_written {m : Arrays} {h : HeldIE} {a : Acc} {s : Part} {w : Bytes} (hp : h.pay.Within m) (hr : a.run m h = ok s)
    (hw : w.length = s.len) :
    h.view (s.write m w) = ⟨h.typ, h.len, (h.view m).payload.take (s.off - h.pay.off) ++ w ++ (h.view m).payload.drop (s.off - h.pay.off + s.len)⟩ := by
  obtain ⟨x, e, rfl, hx⟩ := Acc.run_span hp hr
  have e1 : h.pay.off + x.off - h.pay.off = x.off := by omega
  simp only [HeldIE.view, Part.read_write hp hx hw]
  simp only [Span.within, e1]

/-- so the element is another one if the octets are others -/
theorem C112_written_wrong {m : Arrays} {h : HeldIE} {a : Acc} {s : Part} {w : Bytes} (hp : h.pay.Within m) (hr : a.run m h = ok s)
    (hw : w.length = s.len) (hne : w ≠ s.read m) : h.view (s.write m w) ≠ h.view m := by
  intro he
  have e1 := C112_written hp hr hw
  obtain ⟨x, e, rfl, hx⟩ := Acc.run_span hp hr
  rw [he] at e1
  have e2 : h.pay.off + x.off - h.pay.off = x.off := by omega
  have e3 : (h.view m).payload = _ := congrArg IE.payload e1
  simp only [Span.within, e2] at e3
  have hw' : w.length = x.len := hw
  have hl := Part.length_read hp
  apply hne
  rw [Part.read_within hx]
  show w = x.of (h.pay.read m)
  unfold Span.of
  simp only [HeldIE.view] at e3
  rw [e3]
  have e5 : ((h.pay.read m).take x.off).length = x.off := by rw [List.length_take]; omega
  rw [List.append_assoc, List.drop_left' e5, ← hw', List.take_left' rfl]

/-- C112 fails the other way round, too: what the caller keeps is, whenever it is looked at, the part of the element as it then is -/
theorem C112_follows_wrong {m : Arrays} {h : HeldIE} {a : Acc} {s : Part} (hp : h.pay.Within m) (hr : a.run m h = ok s) (later : Arrays) :
    s.read later = ((h.view later).payload.drop (s.off - h.pay.off)).take s.len := by
  obtain ⟨x, e, rfl, hx⟩ := Acc.run_span hp hr
  have e1 : h.pay.off + x.off - h.pay.off = x.off := by omega
  rw [Part.read_within hx]
  simp only [Span.within, e1]
  rfl

theorem C112_wrong :
    let m : Arrays := [[133, 0, 4, 10, 0, 0, 1]]
    let h : HeldIE := ⟨133, 4, ⟨0, 3, 4⟩⟩
    ∃ s, Acc.ip.run m h = ok s ∧ s.read m = [10, 0, 0, 1] ∧ h.view (s.write m [10, 0, 0, 2]) = ⟨133, 4, [10, 0, 0, 2]⟩ ∧
      s.read [[133, 0, 4, 10, 9, 9, 9]] = [10, 9, 9, 9] := by
  refine ⟨_, rfl, by decide, by decide, by decide⟩

/-! ### cases that meet the hypotheses -/

def triplet : Arrays := [[9] ++ List.replicate 16 1 ++ List.replicate 4 2 ++ List.replicate 8 3]
example := C112_now (m := triplet) (h := ⟨9, 0, ⟨0, 1, 28⟩⟩) (a := .sres) (by decide) rfl
example := C112_partial (m := triplet) (h := ⟨9, 0, ⟨0, 1, 28⟩⟩) (a := .sres) (w := [4, 4, 4, 4]) (by decide) rfl rfl ⟨0, 21, 8⟩ (by decide)
example := C112_written (m := triplet) (h := ⟨9, 0, ⟨0, 1, 28⟩⟩) (a := .sres) (w := [4, 4, 4, 4]) (by decide) rfl rfl
example := C112_written_wrong (m := triplet) (h := ⟨9, 0, ⟨0, 1, 28⟩⟩) (a := .sres) (w := [4, 4, 4, 4]) (by decide) rfl rfl (by decide)
example := C112_follows_wrong (m := triplet) (h := ⟨9, 0, ⟨0, 1, 28⟩⟩) (a := .kc) (by decide) rfl

end TLV
end Verif
