import Verif.Props.Overwrite
/-
C13: exactly which Context Responses and Create Bearer Responses round trip (Create Session Requests: Overwrite.lean).
-/
namespace Verif.V2
open Res Spec Msg
variable (g : UInt8 → Bool)

/-- whatever a field holds after the dispatch loop, the case for that element writes the field -/
theorem classify_touches (rules : List Rule) (d : Act) (xs : List IE) : ∀ f, ∀ y ∈ classify (ieOps g) rules d xs f,
    f ∈ (sel rules d y.typ.toNat y.instance'.toNat).touches := by
  unfold classify
  suffices H : ∀ (xs : List IE) (F : Fields IE), (∀ f, ∀ y ∈ F f, f ∈ (sel rules d y.typ.toNat y.instance'.toNat).touches) →
      ∀ f, ∀ y ∈ xs.foldl (fun F x => (sel rules d ((ieOps g).typ x).toNat ((ieOps g).inst x).toNat).apply F x) F f,
        f ∈ (sel rules d y.typ.toNat y.instance'.toNat).touches from
    H xs Fields.empty (fun f y hy => by cases hy)
  intro xs
  induction xs with
  | nil => exact fun F h => h
  | cons x xs ih =>
    intro F h
    rw [List.foldl_cons]
    apply ih
    intro f y hy
    by_cases c : f ∈ (sel rules d ((ieOps g).typ x).toNat ((ieOps g).inst x).toNat).touches
    · rcases apply_mem _ _ _ _ _ hy with h' | h'
      · exact h f y h'
      · rw [h']; exact c
    · rw [Order.apply_out _ _ _ _ c] at hy
      exact h f y hy

/-- what arrives in a field is what the parser files there -/
theorem roundTrips_touches (s : Schema) (teid seq : UInt32) (ies : List (Option IE)) (h : RoundTrips g s teid seq ies) :
    ∀ f, ∀ y ∈ newFields (ieOps g) s ies f, f ∈ (sel s.unRules s.unDefault y.typ.toNat y.instance'.toNat).touches := by
  obtain ⟨m', b, _, _, hp, hs, hf, _⟩ := h
  obtain ⟨_, _, _, _, hc⟩ := parseMsg_ok g hp
  intro f y hy
  change m'.fields = newFields (ieOps g) s ies at hf
  rw [← hf] at hy
  rcases hc with ⟨_, _, he⟩ | ⟨xs, _, he⟩
  · rw [he] at hy; cases hy
  · rw [he, hs] at hy
    exact classify_touches g _ _ xs f y hy

theorem apply_keeps (a : Act) (F : Fields IE) (x : IE) (f : Nat) (h : F f ≠ []) : a.apply F x f ≠ [] := by
  induction a with
  | drop => exact h
  | set k => simp only [Act.apply, upd]; split <;> simp [h]
  | app k => simp only [Act.apply, upd]; split <;> simp [h]
  | free k r ih =>
    simp only [Act.apply]
    split
    · simp only [upd]; split <;> simp [h]
    · exact ih
  | ifset k r ih =>
    simp only [Act.apply]
    split
    · exact ih
    · simp only [upd]; split <;> simp [h]

/-- a field is not emptied again -/
theorem classify_set (rules : List Rule) (d : Act) (f : Nat) (x : IE) (hx : sel rules d x.typ.toNat x.instance'.toNat = .set f)
    (xs : List IE) (hm : x ∈ xs) : classify (ieOps g) rules d xs f ≠ [] := by
  obtain ⟨s, t, rfl⟩ := List.append_of_mem hm
  unfold classify
  rw [List.foldl_append, List.foldl_cons]
  have e : sel rules d ((ieOps g).typ x).toNat ((ieOps g).inst x).toNat = .set f := hx
  rw [e]
  suffices H : ∀ (t : List IE) (F : Fields IE), F f ≠ [] →
      t.foldl (fun F x => (sel rules d ((ieOps g).typ x).toNat ((ieOps g).inst x).toNat).apply F x) F f ≠ [] from
    H t _ (by simp [Act.apply, upd])
  intro t
  induction t with
  | nil => exact fun F h => h
  | cons y t ih => exact fun F h => ih _ (apply_keeps _ _ _ _ h)

/-- actions that leave the field alone or append to it -/
def Act.grows (f : Nat) : Act → Bool
  | .app _ => true
  | a => !a.touches.contains f

theorem apply_grows (f : Nat) (a : Act) (h : Act.grows f a = true) (F : Fields IE) (x y : IE) (hy : y ∈ F f) : y ∈ a.apply F x f := by
  cases a with
  | app k =>
    simp only [Act.apply, upd]
    split
    · rename_i e; subst e; exact List.mem_append_left _ hy
    · exact hy
  | _ =>
    simp only [Act.grows, Bool.not_eq_true', List.contains_eq_mem, decide_eq_false_iff_not] at h
    rw [Order.apply_out _ _ _ _ h]; exact hy

/-- nothing appended to a list field is lost -/
theorem classify_app (rules : List Rule) (d : Act) (f : Nat) (hg : ∀ t i, Act.grows f (sel rules d t i) = true) (x : IE)
    (hx : sel rules d x.typ.toNat x.instance'.toNat = .app f) (xs : List IE) (hm : x ∈ xs) :
    x ∈ classify (ieOps g) rules d xs f := by
  obtain ⟨s, t, rfl⟩ := List.append_of_mem hm
  unfold classify
  rw [List.foldl_append, List.foldl_cons]
  have e : sel rules d ((ieOps g).typ x).toNat ((ieOps g).inst x).toNat = .app f := hx
  rw [e]
  suffices H : ∀ (t : List IE) (F : Fields IE), x ∈ F f →
      x ∈ t.foldl (fun F x => (sel rules d ((ieOps g).typ x).toNat ((ieOps g).inst x).toNat).apply F x) F f from
    H t _ (by simp [Act.apply, upd])
  intro t
  induction t with
  | nil => exact fun F h => h
  | cons y t ih => exact fun F h => ih _ (apply_grows f _ (hg _ _) _ _ _ h)

theorem sel_mem (P : Act → Prop) (rules : List Rule) (d : Act) (h : ∀ r ∈ rules, P r.act) (hd : P d) (t i : Nat) : P (sel rules d t i) := by
  unfold sel
  split
  · rename_i r hr
    exact h r (List.mem_of_find?_eq_some hr)
  · exact hd

theorem inst_lt (x : IE) : x.instance'.toNat < 16 := by
  have : ∀ y : UInt8, (y &&& (0x0f : UInt8)).toNat < 16 := by
    apply forall_byte (p := fun y => (y &&& (0x0f : UInt8)).toNat < 16)
    decide +kernel
  exact this _

/-- an octet is in one of eight ranges (a table is checked range by range to keep the checker small) -/
theorem chunks {P : Nat → Prop} (h0 : ∀ b : Fin 32, P b.val) (h1 : ∀ b : Fin 32, P (32 + b.val)) (h2 : ∀ b : Fin 32, P (64 + b.val))
    (h3 : ∀ b : Fin 32, P (96 + b.val)) (h4 : ∀ b : Fin 32, P (128 + b.val)) (h5 : ∀ b : Fin 32, P (160 + b.val))
    (h6 : ∀ b : Fin 32, P (192 + b.val)) (h7 : ∀ b : Fin 32, P (224 + b.val)) (t : Nat) (ht : t < 256) : P t := by
  have e : t = 32 * (t / 32) + t % 32 := by omega
  have hb : t % 32 < 32 := by omega
  have : t / 32 = 0 ∨ t / 32 = 1 ∨ t / 32 = 2 ∨ t / 32 = 3 ∨ t / 32 = 4 ∨ t / 32 = 5 ∨ t / 32 = 6 ∨ t / 32 = 7 := by omega
  rcases this with h | h | h | h | h | h | h | h <;> rw [h] at e <;> rw [e]
  · simpa using h0 ⟨_, hb⟩
  · exact h1 ⟨_, hb⟩
  · exact h2 ⟨_, hb⟩
  · exact h3 ⟨_, hb⟩
  · exact h4 ⟨_, hb⟩
  · exact h5 ⟨_, hb⟩
  · exact h6 ⟨_, hb⟩
  · exact h7 ⟨_, hb⟩

/-- **C13** Context Responses round trip exactly if they have no Monitoring Event Extension Information (206) and no Additional RRM Policy
Index (207) of instance 0 or 1. -/
theorem C13_contextResponse_iff (teid seq : UInt32) (ies : List (Option IE)) (hw : ∀ x, some x ∈ ies → wf g x = true)
    (hseq : seq.toNat < 2 ^ 24) (hmax : 12 + ((ies.filterMap id).map (IE.marshalLen g)).sum < 65536) :
    RoundTrips g Tab.contextResponse teid seq ies ↔
      ∀ x, some x ∈ ies → x.typ ≠ 206 ∧ (x.typ = 207 → 2 ≤ x.instance'.toNat) := by
  have hs : Tab.contextResponse ∈ Tab.all := by simp [Tab.all]
  constructor
  · intro h x hx
    have hno : ∀ f ∈ [20, 28, 29], newFields (ieOps g) Tab.contextResponse ies f = [] := by
      intro f hf
      apply List.eq_nil_iff_forall_not_mem.mpr
      intro y hy
      have h1 := roundTrips_touches g _ teid seq ies h f y hy
      have h2 : ∀ t i : Nat, ∀ f ∈ [20, 28, 29],
          f ∉ (sel Tab.contextResponse.unRules Tab.contextResponse.unDefault t i).touches := by
        intro t i
        apply sel_mem (fun a => ∀ f ∈ [20, 28, 29], f ∉ a.touches)
        · decide +kernel
        · decide +kernel
      exact h2 _ _ f hf h1
    have hset : ∀ f ∈ [20, 28, 29],
        sel Tab.contextResponse.newRules Tab.contextResponse.newDefault x.typ.toNat x.instance'.toNat ≠ .set f := by
      intro f hf e
      exact classify_set g _ _ f x e (ies.filterMap id) (by simpa using hx) (hno f hf)
    constructor
    · intro e
      apply hset 20 (by simp)
      rw [e]
      have : ∀ i : Fin 16, sel Tab.contextResponse.newRules Tab.contextResponse.newDefault 206 i.val = .set 20 := by decide +kernel
      exact this ⟨_, inst_lt x⟩
    · intro e
      apply Classical.byContradiction
      intro hlt
      have hi : x.instance'.toNat = 0 ∨ x.instance'.toNat = 1 := by omega
      rcases hi with hi | hi
      · apply hset 28 (by simp); rw [e, hi]; decide +kernel
      · apply hset 29 (by simp); rw [e, hi]; decide +kernel
  · intro hty
    have key : ∀ t : Nat, t < 256 → ∀ i : Fin 16, t ≠ 206 → (t = 207 → 2 ≤ i.val) →
        (sel Tab.contextResponse.newRules Tab.contextResponse.newDefault t i.val).sub
          (sel Tab.contextResponse.unRules Tab.contextResponse.unDefault t i.val) = true :=
      chunks (by decide +kernel) (by decide +kernel) (by decide +kernel) (by decide +kernel) (by decide +kernel) (by decide +kernel)
        (by decide +kernel) (by decide +kernel)
    have hf : ∀ x, some x ∈ ies →
        (newAct (ieOps g) Tab.contextResponse x).sub (unAct (ieOps g) Tab.contextResponse x) = true :=
      fun x hx => key x.typ.toNat x.typ.toNat_lt ⟨x.instance'.toNat, inst_lt x⟩
        (fun h => (hty x hx).1 (UInt8.toNat.inj h)) (fun h => (hty x hx).2 (UInt8.toNat.inj h))
    apply roundTrips_of g _ hs teid seq ies hw hseq hf (clobberless_new g _ hs ies hf (by decide +kernel)) _ hmax
    rw [marshalLen_done g _ (all_lensOK _ hs), marshalLen_done_hdr]
    rw [if_pos (by show (0x48 : UInt8).toNat / 8 % 2 = 1; decide)]; omega

/-- **C13** Create Bearer Responses round trip exactly if the instances given for F-CSID, TWAN Identifier, TWAN Identifier Timestamp,
Overload Control Information and port number are ones the message defines. -/
theorem C13_createBearerResponse_iff (teid seq : UInt32) (ies : List (Option IE)) (hw : ∀ x, some x ∈ ies → wf g x = true)
    (hseq : seq.toNat < 2 ^ 24) (hmax : 12 + ((ies.filterMap id).map (IE.marshalLen g)).sum < 65536) :
    RoundTrips g Tab.createBearerResponse teid seq ies ↔
      ∀ x, some x ∈ ies → (x.typ = 132 → x.instance'.toNat ≤ 3) ∧ (x.typ = 169 → x.instance'.toNat ≤ 1) ∧
        (x.typ = 179 → x.instance'.toNat = 1) ∧ (x.typ = 180 → x.instance'.toNat ≤ 2) ∧
        (x.typ = 126 → x.instance'.toNat ≤ 1) := by
  constructor
  · intro h x hx
    have hgrow : ∀ t i, Act.grows 23 (sel Tab.createBearerResponse.newRules Tab.createBearerResponse.newDefault t i) = true := by
      apply sel_mem (fun a => Act.grows 23 a = true)
      · decide +kernel
      · decide +kernel
    have hnot : ¬ (sel Tab.createBearerResponse.newRules Tab.createBearerResponse.newDefault x.typ.toNat x.instance'.toNat = .app 23 ∧
        sel Tab.createBearerResponse.unRules Tab.createBearerResponse.unDefault x.typ.toNat x.instance'.toNat = .drop) := by
      rintro ⟨e1, e2⟩
      have h1 := classify_app g _ _ 23 hgrow x e1 (ies.filterMap id) (by simpa using hx)
      have h2 := roundTrips_touches g _ teid seq ies h 23 x h1
      rw [e2] at h2
      cases h2
    have key : ∀ t ∈ [132, 169, 179, 180, 126], ∀ i : Fin 16,
        ¬ (sel Tab.createBearerResponse.newRules Tab.createBearerResponse.newDefault t i.val = .app 23 ∧
          sel Tab.createBearerResponse.unRules Tab.createBearerResponse.unDefault t i.val = .drop) →
        (t = 132 → i.val ≤ 3) ∧ (t = 169 → i.val ≤ 1) ∧ (t = 179 → i.val = 1) ∧ (t = 180 → i.val ≤ 2) ∧
          (t = 126 → i.val ≤ 1) := by decide +kernel
    have K : ∀ t : UInt8, t.toNat ∈ [132, 169, 179, 180, 126] → x.typ = t → _ := fun t ht e =>
      key t.toNat ht ⟨x.instance'.toNat, inst_lt x⟩ (by rw [← e]; exact hnot)
    exact ⟨fun h => (K 132 (by decide) h).1 rfl, fun h => (K 169 (by decide) h).2.1 rfl, fun h => (K 179 (by decide) h).2.2.1 rfl,
      fun h => (K 180 (by decide) h).2.2.2.1 rfl, fun h => (K 126 (by decide) h).2.2.2.2 rfl⟩
  · intro hty
    exact C13_round_trip_createBearerResponse_partial g teid seq ies hw hseq hty hmax

/-- Additional RRM Policy Index of instance 2 in a Context Response comes back -/
example : fieldsOf (there_and_back defaultGrouped (newMessage defaultGrouped Tab.contextResponse 7 1 [some (.mk 207 4 2 [0, 0, 0, 9] [])]))
    [28, 29, 31] = some [[], [], [.mk 207 4 2 [0, 0, 0, 9] []]] := by decide +kernel

end Verif.V2

namespace Verif.V2
open Res Spec Msg
/-! ### cases that meet the hypotheses -/

example := C13_contextResponse_iff (g := defaultGrouped) 7 1 [some exIMSI, none, some (.mk 207 4 2 [0, 0, 0, 9] [])]
  (by intro x hx; simp at hx; rcases hx with rfl | rfl <;> decide) (by decide) (by decide)
example := C13_createBearerResponse_iff (g := defaultGrouped) 7 1 [some exOther, none, some exBearer]
  (by intro x hx; simp at hx; rcases hx with rfl | rfl <;> decide) (by decide) (by decide)
end Verif.V2
