import Verif.Model.Given
import Verif.Proofs.V2Grouped
/-
C111: an element built from octets of the caller keeps its value when the caller goes on using the slice they are in.
-/
namespace Verif
open Res NetIP

/-- the slice lies within its array -/
def Part.Within (m : Arrays) (s : Part) : Prop := s.off + s.len ≤ (m.getD s.arr []).length
instance (m s) : Decidable (Part.Within m s) := inferInstanceAs (Decidable (_ ≤ _))

theorem Part.length_read {m : Arrays} {s : Part} (h : s.Within m) : (s.read m).length = s.len := by
  unfold Part.Within at h
  simp only [Part.read, List.length_take, List.length_drop]
  omega

/-- `later` is a memory the program may have after `now`, if it writes only to the first `n` arrays and to new ones: the others
are as they were -/
def Untouched (n : Nat) (now later : Arrays) : Prop := ∀ k, n ≤ k → k < now.length → later[k]? = now[k]?

theorem Part.read_fresh {m later : Arrays} {p : Bytes} (h : Untouched m.length (m ++ [p]) later) : Part.read later ⟨m.length, 0, p.length⟩ = p := by
  have e : later[m.length]? = some p := by
    rw [h m.length (Nat.le_refl _) (by simp)]
    simp
  simp [Part.read, List.getD_eq_getElem?_getD, e]

theorem Part.to4_read {m : Arrays} {s : Part} (h : s.Within m) : NetIP.to4 (s.read m) = (s.to4 m).map (Part.read m) := by
  have hl := Part.length_read h
  unfold NetIP.to4 Part.to4
  rw [hl]
  by_cases h4 : s.len = 4
  · rw [if_pos h4, if_pos h4]; rfl
  · rw [if_neg h4, if_neg h4]
    by_cases h16 : s.len = 16 ∧ (s.read m).take 12 = v4Prefix
    · rw [if_pos h16, if_pos h16]
      simp only [Option.map_some, Part.read, h16.1, List.drop_take, List.drop_drop]
    · rw [if_neg h16, if_neg h16]; rfl

namespace V2
open Res NetIP

theorem heldNew_view {m : Arrays} {s : Part} (h : s.Within m) (t ins : UInt8) : (heldNew t ins s).view m = newIE t ins (s.read m) := by
  simp only [heldNew, HeldIE.view, newIE, IE.setLength, Part.length_read h]

/-- C111, the element first: what is built from slices is what the constructor gives for their octets. -/
theorem C111_now (m : Arrays) (k : Keeping) (h : k.arg.Within m) : (k.run m).view m = k.value m := by
  cases k with
  | new t ins s => exact heldNew_view h t ins
  | ipAddress ip =>
    have h' : ip.Within m := h
    have e := Part.to4_read h'
    simp only [Keeping.run, Keeping.value, newIPAddress]
    cases h4 : ip.to4 m with
    | none =>
      rw [h4] at e
      simp only [Option.map_none] at e
      rw [e]
      simp only [heldNew_view h']
      have h4' : ip.len ≠ 4 := by intro c; simp [Part.to4, c] at h4
      unfold NetIP.to16
      rw [Part.length_read h', if_neg h4']
      by_cases h16 : ip.len = 16
      · rw [if_pos h16]
      · rw [if_neg h16]
    | some v =>
      rw [h4] at e
      simp only [Option.map_some] at e
      rw [e]
      refine heldNew_view ?_ _ _
      unfold Part.to4 at h4
      split at h4
      · obtain rfl := Option.some.inj h4; exact h'
      · split at h4
        · rename_i hc
          obtain rfl := Option.some.inj h4
          unfold Part.Within at h' ⊢
          simp only
          omega
        · exact absurd h4 (by simp)

theorem bound {α β : Type} {x : Res α} {f : α → Res β} {b : β} (h : (x >>= f) = ok b) : ∃ a, x = ok a ∧ f a = ok b := by
  cases x with
  | ok a => exact ⟨a, rfl, h⟩
  | _ => cases h

/-- the constructors of typed elements give elements without children -/
theorem Copying.flat {m : Arrays} {c : Copying} {i : IE} (h : c.value m = ok (some i)) : i.children = [] := by
  have hb : ∀ (t : UInt8) (r : Res Bytes), build t r = ok (some i) → i.children = [] := by
    intro t r hr
    unfold build at hr
    split at hr
    · injection hr with hr; injection hr with hr; subst hr; rfl
    · injection hr with hr; exact absurd hr (by simp)
    · exact absurd hr (by simp)
    · exact absurd hr (by simp)
  cases c with
  | fteid f t a b => exact hb _ _ h
  | paa ip p => exact hb _ _ h
  | paaDual a b p => exact hb _ _ h
  | s1udf e ip t => exact hb _ _ h
  | s103 ip k e => exact hb _ _ h
  | ranNAS p t c => exact hb _ _ h
  | privateExtension id v =>
    obtain ⟨x, hx, h⟩ := bound (f := fun x => ok (some x)) h
    obtain ⟨b, _, hx⟩ := bound (f := fun b => do let b ← copyFrom b 2 (v.read m); ok (newIE 255 0 b)) hx
    obtain ⟨b', _, hx⟩ := bound (f := fun b => ok (newIE 255 0 b)) hx
    obtain rfl := ok.inj hx
    obtain rfl := Option.some.inj (ok.inj h)
    rfl
  | indication o => injection h with h; injection h with h; subst h; rfl
  | pco p os => exact hb _ _ h
  | tft t op fs ids ps => exact hb _ _ h

/-- C111 for the constructors that copy: the element is the one for the octets at the time of the call, and it stays that,
whatever the program writes into the arrays it had before. -/
theorem C111_copied_partial {m m' : Arrays} {c : Copying} {h : HeldIE} (hr : c.run m = ok (m', some h)) (later : Arrays)
    (hu : Untouched m.length m' later) : c.value m = ok (some (h.view later)) ∧ h.view later = h.view m' := by
  unfold Copying.run at hr
  split at hr
  · rename_i t n i p cs hv
    have hc : cs = [] := Copying.flat hv
    subst hc
    obtain ⟨e1, e2⟩ := Prod.mk.inj (ok.inj hr)
    subst e1
    obtain rfl := Option.some.inj e2
    have e3 := Part.read_fresh hu
    have e4 := Part.read_fresh (m := m) (p := p) (later := m ++ [p]) (fun _ _ _ => rfl)
    simp only [HeldIE.view, e3, e4]
    exact ⟨hv, trivial⟩
  · injection hr with hr; exact absurd (congrArg Prod.snd hr) (by simp)
  all_goals exact absurd hr (by simp)

/-- C111 fails for the constructors that keep the slice.  `New`: the element is at every time the one for the octets the slice has
then. -/
theorem C111_new_wrong (m later : Arrays) (t ins : UInt8) (s : Part) (hl : s.Within later) :
    ((Keeping.new t ins s).run m).view later = newIE t ins (s.read later) := heldNew_view hl t ins

/-- C111 fails for an address given as net.IP: as long as it is of the same kind, the element follows the address. -/
theorem C111_address_wrong (m later : Arrays) (ip : Part) (hl : ip.Within later) (hk : ip.to4 later = ip.to4 m) :
    ((Keeping.ipAddress ip).run m).view later = newIPAddress (ip.read later) := by
  have e : (Keeping.ipAddress ip).run m = (Keeping.ipAddress ip).run later := by simp only [Keeping.run, hk]
  rw [e]
  exact C111_now later (.ipAddress ip) hl

/-- what decides: the element is as it was exactly if the octets of its payload are -/
theorem C111_kept_iff (m later : Arrays) (k : Keeping) :
    (k.run m).view later = (k.run m).view m ↔ (k.run m).pay.read later = (k.run m).pay.read m := by
  constructor
  · intro h
    injection h
  · intro h
    simp only [HeldIE.view, h]

/-- C111 for grouped elements, what holds: the element is at first what `NewGroupedIE` gives for the children as they are, and its
`Payload` stays that.  What does not: the children are those given, which follow their slices, and with them what is sent
(`C111_group_wrong`). -/
theorem C111_group_partial {g : UInt8 → Bool} {t : UInt8} {m m' : Arrays} {cs : List HeldIE} {h : HeldGroup}
    (hr : groupRun m g t cs = ok (m', some h)) (hc : ∀ c ∈ cs, c.pay.arr < m.length) :
    newGrouped g t (cs.map fun c => some (c.view m)) = ok (some (h.view m')) ∧
    ∀ later, Untouched m.length m' later →
      (h.view later).payload = (h.view m').payload ∧ (h.view later).children = cs.map (HeldIE.view later) := by
  unfold groupRun at hr
  split at hr
  · rename_i t' n i p cs' hv
    have hcs : cs' = cs.map (HeldIE.view m) := by
      have hv' := hv
      rw [newGrouped_eq] at hv'
      injection hv' with hv'; injection hv' with hv'; injection hv' with _ _ _ _ hv'
      rw [← hv']
      simp [List.filterMap_map, Function.comp_def]
    obtain ⟨e1, e2⟩ := Prod.mk.inj (ok.inj hr)
    subst e1
    obtain rfl := Option.some.inj e2
    have e4 := Part.read_fresh (m := m) (p := p) (later := m ++ [p]) (fun _ _ _ => rfl)
    have hk : cs.map (HeldIE.view (m ++ [p])) = cs.map (HeldIE.view m) := by
      refine List.map_congr_left (fun c hm => ?_)
      have hlt := hc c hm
      simp [HeldIE.view, Part.read, List.getD_eq_getElem?_getD, List.getElem?_append_left hlt]
    refine ⟨?_, ?_⟩
    · simp only [HeldGroup.view, e4, hk]
      rw [← hcs]
      exact hv
    · intro later hu
      have e3 := Part.read_fresh hu
      simp only [HeldGroup.view, IE.payload, IE.children, e3, e4, and_self]
  · injection hr with hr; exact absurd (congrArg Prod.snd hr) (by simp)
  all_goals exact absurd hr (by simp)

/-- what decides: the grouped element is as it was exactly if its children are.  So it keeps its value if they were all built by
constructors that copy. -/
theorem C111_group_iff {g : UInt8 → Bool} {t : UInt8} {m m' : Arrays} {cs : List HeldIE} {h : HeldGroup}
    (hr : groupRun m g t cs = ok (m', some h)) (hc : ∀ c ∈ cs, c.pay.arr < m.length) (later : Arrays)
    (hu : Untouched m.length m' later) : h.view later = h.view m' ↔ ∀ c ∈ cs, c.view later = c.view m := by
  have e0 := (C111_group_partial hr hc).1
  obtain ⟨e1, e2⟩ := (C111_group_partial hr hc).2 later hu
  rw [newGrouped_eq] at e0
  have e3 : (h.view m').children = cs.map (HeldIE.view m) := by
    rw [← Option.some.inj (ok.inj e0)]
    simp [IE.children, List.filterMap_map, Function.comp_def]
  constructor
  · intro he
    rw [he, e3] at e2
    exact fun c hm => (List.map_inj_left.1 e2 c hm).symm
  · intro hk
    have e4 : (h.view later).children = (h.view m').children := by
      rw [e2, e3]
      exact List.map_congr_left hk
    simp only [HeldGroup.view, IE.payload, IE.children] at e1 e4 ⊢
    rw [e1, e4]

/-- C111 fails for grouped elements: a PDN Connection built from an address that is written over afterwards is sent with the new
address, while its payload has the old one -/
theorem C111_group_wrong :
    let m : Arrays := [[10, 0, 0, 1]]
    ∃ h m', groupRun m defaultGrouped 109 [(Keeping.ipAddress ⟨0, 0, 4⟩).run m] = ok (m', some h) ∧
      (h.view m').marshal defaultGrouped = ok [109, 0, 8, 0, 74, 0, 4, 0, 10, 0, 0, 1] ∧
      (h.view (m'.set 0 [10, 0, 0, 2])).marshal defaultGrouped = ok [109, 0, 8, 0, 74, 0, 4, 0, 10, 0, 0, 2] ∧
      (h.view (m'.set 0 [10, 0, 0, 2])).payload = [74, 0, 4, 0, 10, 0, 0, 1] := by
  refine ⟨⟨109, 8, 0, ⟨1, 0, 8⟩, [heldNew 74 0 ⟨0, 0, 4⟩]⟩, [[10, 0, 0, 1], [74, 0, 4, 0, 10, 0, 0, 1]], rfl, ?_, ?_, ?_⟩ <;> decide +kernel

/-- the address of one subscriber becomes that of the next, in the element of the first; the F-TEID built beside it keeps its -/
theorem C111_wrong :
    let m : Arrays := [[10, 0, 0, 1]]
    let later : Arrays := [[10, 0, 0, 2], [0x8a, 0, 0, 0, 9, 10, 0, 0, 1]]
    ((Keeping.ipAddress ⟨0, 0, 4⟩).run m).view m = newIE 74 0 [10, 0, 0, 1] ∧
    ((Keeping.ipAddress ⟨0, 0, 4⟩).run m).view later = newIE 74 0 [10, 0, 0, 2] ∧
    ∃ h, (Copying.fteid 10 9 ⟨0, 0, 4⟩ ⟨0, 0, 0⟩).run m = ok ([[10, 0, 0, 1], [0x8a, 0, 0, 0, 9, 10, 0, 0, 1]], some h) ∧
      h.view later = newIE 87 0 [0x8a, 0, 0, 0, 9, 10, 0, 0, 1] := by
  refine ⟨by decide, by decide, _, rfl, by decide⟩

/-- a DNS server in a container and a protocol number in a packet filter stay when the arrays they were in are written over -/
theorem C111_nested :
    let m : Arrays := [[8, 8, 4, 4], [17]]
    (∃ h m', (Copying.pco 0 [(13, ⟨0, 0, 4⟩), (16, ⟨0, 1, 2⟩)]).run m = ok (m', some h) ∧
      h.view ((m'.set 0 [9, 9, 9, 9]).set 1 [9]) = newIE 78 0 [0x80, 0, 13, 4, 8, 8, 4, 4, 0, 16, 2, 8, 4]) ∧
    ∃ h m', (Copying.tft 84 1 [(3, 1, 9, [(0x30, ⟨1, 0, 1⟩)])] ⟨0, 0, 0⟩ [(3, ⟨0, 0, 2⟩)]).run m = ok (m', some h) ∧
      h.view ((m'.set 0 [9, 9, 9, 9]).set 1 [9]) = newIE 84 0 [0x31, 0x31, 9, 2, 0x30, 17, 3, 2, 8, 8] := by
  refine ⟨⟨_, _, rfl, ?_⟩, _, _, rfl, ?_⟩ <;> decide +kernel

/-! ### cases that meet the hypotheses -/

def exArrays : Arrays := [[9, 10, 0, 0, 1, 9], v4Prefix ++ [10, 0, 0, 1], [1, 2, 3]]
example := C111_now exArrays (.ipAddress ⟨1, 0, 16⟩) (by decide)
example := C111_copied_partial (m := exArrays) (c := .fteid 10 9 ⟨0, 1, 4⟩ ⟨0, 0, 0⟩) rfl
  [[7, 7], [], [], [0x8a, 0, 0, 0, 9, 10, 0, 0, 1], [8]] (by
    intro k h1 h2
    have h3 : k = 3 := by
      have : k < 4 := h2
      have : 3 ≤ k := h1
      omega
    subst h3; rfl)
example := C111_new_wrong exArrays [[9, 10, 0, 0, 2, 9]] 3 0 ⟨0, 1, 4⟩ (by decide)
example := C111_group_partial (g := defaultGrouped) (t := 109) (m := exArrays) (cs := [(Keeping.ipAddress ⟨1, 0, 16⟩).run exArrays, heldNew 3 0 ⟨2, 1, 1⟩])
  rfl (by decide)
example := C111_group_iff (g := defaultGrouped) (t := 109) (m := exArrays) (cs := [heldNew 3 0 ⟨2, 1, 1⟩]) rfl (by decide)
  [[], [], [7, 2, 7], [3, 0, 1, 0, 2]] (by
    intro k h1 h2
    have h3 : k = 3 := by
      have : k < 4 := h2
      have : 3 ≤ k := h1
      omega
    subst h3
    rfl)
/-- a container and a component of a packet filter, each from a part of an array -/
example := C111_copied_partial (m := exArrays) (c := .pco 0 [(13, ⟨0, 1, 4⟩)]) rfl
example := C111_copied_partial (m := exArrays) (c := .tft 84 1 [(3, 1, 9, [(0x30, ⟨2, 0, 1⟩)])] ⟨0, 0, 0⟩ []) rfl
example := C111_address_wrong exArrays [[], v4Prefix ++ [10, 0, 0, 2]] ⟨1, 0, 16⟩ (by decide) (by decide)
end V2

namespace TLV
open Res NetIP

theorem heldNew_view {m : Arrays} {s : Part} (h : s.Within m) (c : Cfg) (t : UInt8) : (heldNew c t s).view m = newIE c t (s.read m) := by
  unfold heldNew newIE IE.setLength HeldIE.view
  cases c.tvLen t <;> simp [Part.length_read h]

/-- C111 for GTPv1 and GTPv0, the element first. -/
theorem C111_now (m : Arrays) (k : Keeping) (h : k.arg.Within m) : (k.run m).map (HeldIE.view m) = k.value m := by
  cases k with
  | new c t s => exact congrArg some (heldNew_view h c t)
  | qosProfile s => exact congrArg some (heldNew_view h _ _)
  | extensionHeaderTypeList s => exact congrArg some (heldNew_view h _ _)
  | gsnAddress ip =>
    have h' : ip.Within m := h
    have e := Part.to4_read h'
    have hl := Part.length_read h'
    simp only [Keeping.run, Keeping.value, newGSNAddress1]
    by_cases h0 : ip.len = 0
    · rw [if_pos h0, if_pos (List.length_eq_zero_iff.1 (by omega))]; rfl
    · rw [if_neg h0, if_neg (fun c => h0 (by rw [← hl, c]; rfl))]
      cases h4 : ip.to4 m with
      | none =>
        rw [h4] at e
        simp only [Option.map_none] at e
        rw [e]
        exact congrArg some (heldNew_view h' _ _)
      | some v =>
        rw [h4] at e
        simp only [Option.map_some] at e
        rw [e]
        refine congrArg some (heldNew_view ?_ _ _)
        unfold Part.to4 at h4
        split at h4
        · obtain rfl := Option.some.inj h4; exact h'
        · split at h4
          · rename_i hc
            obtain rfl := Option.some.inj h4
            unfold Part.Within at h' ⊢
            simp only
            omega
          · exact absurd h4 (by simp)

/-- C111 for the constructors of GTPv1 and GTPv0 that copy. -/
theorem C111_copied_partial {m m' : Arrays} {c : Copying} {h : HeldIE} (hr : c.run m = ok (m', some h)) (later : Arrays)
    (hu : Untouched m.length m' later) : c.value m = ok (some (h.view later)) ∧ h.view later = h.view m' := by
  unfold Copying.run at hr
  split at hr
  · rename_i i hv
    obtain ⟨e1, e2⟩ := Prod.mk.inj (ok.inj hr)
    subst e1
    obtain rfl := Option.some.inj e2
    have e3 := Part.read_fresh hu
    have e4 := Part.read_fresh (m := m) (p := i.payload) (later := m ++ [i.payload]) (fun _ _ _ => rfl)
    simp only [HeldIE.view, e3, e4]
    exact ⟨hv, trivial⟩
  · injection hr with hr; exact absurd (congrArg Prod.snd hr) (by simp)
  all_goals exact absurd hr (by simp)

/-- C111 fails for the constructors of GTPv1 and GTPv0 that keep the slice: the element is the one for the octets the slice has when
it is looked at (an address has to be of the same kind still). -/
theorem C111_kept_wrong (m later : Arrays) (k : Keeping) (hl : k.arg.Within later) (hk : k.arg.to4 later = k.arg.to4 m) :
    (k.run m).map (HeldIE.view later) = k.value later := by
  have e : k.run m = k.run later := by
    cases k with
    | gsnAddress ip =>
      have hk' : ip.to4 later = ip.to4 m := hk
      simp only [Keeping.run, hk']
    | _ => rfl
  rw [e]
  exact C111_now later k hl

theorem C111_wrong :
    let m : Arrays := [[10, 0, 0, 1]]
    let later : Arrays := [[10, 0, 0, 2], [0xf1, 0x21, 10, 0, 0, 1]]
    ((Keeping.gsnAddress ⟨0, 0, 4⟩).run m).map (HeldIE.view later) = some ⟨133, 4, [10, 0, 0, 2]⟩ ∧
    ∃ h, (Copying.endUserAddress ⟨0, 0, 4⟩).run m = ok ([[10, 0, 0, 1], [0xf1, 0x21, 10, 0, 0, 1]], some h) ∧
      h.view later = ⟨128, 6, [0xf1, 0x21, 10, 0, 0, 1]⟩ := by
  refine ⟨by decide, _, rfl, by decide⟩

theorem C111_nested :
    let m : Arrays := [[8, 8, 4, 4]]
    ∃ h m', (Copying.pco 0 [(13, ⟨0, 0, 4⟩), (16, ⟨0, 1, 2⟩)]).run m = ok (m', some h) ∧
      h.view (m'.set 0 [9, 9, 9, 9]) = ⟨132, 13, [0x80, 0, 13, 4, 8, 8, 4, 4, 0, 16, 2, 8, 4]⟩ := by
  refine ⟨_, _, rfl, ?_⟩; decide +kernel

example := C111_now V2.exArrays (.gsnAddress ⟨0, 1, 4⟩) (by decide)
example := C111_copied_partial (m := V2.exArrays) (c := .pco 0 [(13, ⟨0, 1, 4⟩)]) rfl
example := C111_copied_partial (m := V2.exArrays) (c := .endUserAddress ⟨1, 0, 16⟩) rfl
  [[7, 7], [], [], [0xf1, 0x21, 10, 0, 0, 1], [8]] (by
    intro k h1 h2
    have h3 : k = 3 := by
      have : k < 4 := h2
      have : 3 ≤ k := h1
      omega
    subst h3; rfl)
example := C111_kept_wrong V2.exArrays [[9, 10, 0, 0, 2, 9]] (.qosProfile ⟨0, 1, 3⟩) (by decide) (by decide)
end TLV
end Verif
