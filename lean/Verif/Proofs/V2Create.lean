import Verif.Props.V2Bearer
import Verif.Props.Typed.Plmn
import Verif.Props.Typed.Identity
/-
Lemmas for C61-C63: the session ParseCreateSession makes from information elements (gtpv2/conn.go:461-576).
-/
namespace Verif.V2.Conn
open Res Send Utils

/-! ### the elements looked at -/

/-- the arguments that are not nil, marked `true`, each followed by its children, marked `false`, if it is a Bearer Context
with instance 0 -/
def atoms : List (Option IE) → List (Bool × IE)
  | [] => []
  | none :: l => atoms l
  | some i :: l =>
    (true, i) :: (if i.typ = 93 ∧ i.instance' = 0 then i.children.map (fun x => (false, x)) else []) ++ atoms l

/-- the last argument of type `t` -/
def lastTop (t : UInt8) (l : List (Option IE)) : Option (Bool × IE) :=
  ((atoms l).filter (fun a => a.1 = true ∧ a.2.typ = t)).getLast?
/-- the last child of type `t` of a Bearer Context with instance 0 -/
def lastChild (t : UInt8) (l : List (Option IE)) : Option (Bool × IE) :=
  ((atoms l).filter (fun a => a.1 = false ∧ a.2.typ = t)).getLast?
/-- the last F-TEID for interface type `f`, in the arguments and the Bearer Contexts -/
def lastFTEID (f : UInt8) (l : List (Option IE)) : Option (Bool × IE) :=
  ((atoms l).filter (fun a => a.2.typ = 87 ∧ a.2.interfaceType = ok f)).getLast?

/-- `v` is the value of the element if there is one, `z` otherwise -/
def Told {α : Type} (o : Option (Bool × IE)) (acc : IE → Res α) (z v : α) : Prop :=
  match o with
  | some a => acc a.2 = ok v
  | none => v = z

/-- every accessor the element is read with succeeds -/
def Readable (g : UInt8 → Bool) (a : Bool × IE) : Prop :=
  if a.1 then
    (a.2.typ = 1 → ∃ v, a.2.imsi = ok v) ∧ (a.2.typ = 76 → ∃ v, a.2.msisdn = ok v) ∧ (a.2.typ = 75 → ∃ v, a.2.mei = ok v) ∧
    (a.2.typ = 83 → ∃ v, a.2.plmn = ok v) ∧ (a.2.typ = 71 → ∃ v, apnOf g a.2 = ok v) ∧ (a.2.typ = 82 → ∃ v, ratOf g a.2 = ok v) ∧
    (a.2.typ = 87 → (∃ f, a.2.interfaceType = ok f) ∧ ∃ t, a.2.teid = ok t)
  else
    (a.2.typ = 73 → ∃ v, a.2.ebi g = ok v) ∧
    (a.2.typ = 80 → (∃ v, a.2.priorityLevel g = ok v) ∧ (∃ v, a.2.qciLabel g = ok v) ∧ (∃ v, a.2.mbrUp = ok v) ∧
      (∃ v, a.2.mbrDown = ok v) ∧ ∃ v, a.2.gbrUp = ok v) ∧
    (a.2.typ = 87 → (∃ f, a.2.interfaceType = ok f) ∧ ∃ t, a.2.teid = ok t)

/-- the element is an argument, and an F-TEID of the interface type of the connection with TEID `t` -/
def LocalFTEID (c : Conn) (a : Bool × IE) (t : UInt32) : Prop :=
  a.1 = true ∧ a.2.typ = 87 ∧ a.2.interfaceType = ok c.localIf ∧ a.2.teid = ok t

instance (c : Conn) (a : Bool × IE) (t : UInt32) : Decidable (LocalFTEID c a t) := by unfold LocalFTEID; infer_instance

/-- nothing but session `s`, bearer `b` and the two tables of sessions differs -/
def Frame (s b : Nat) (c c' : Conn) : Prop :=
  c'.localIf = c.localIf ∧ c'.validation = c.validation ∧ c'.handlers = c.handlers ∧ c'.restart = c.restart ∧
  (∀ x, x ≠ s → c'.heap x = c.heap x) ∧ ∀ x, x ≠ b → c'.brs x = c.brs x

/-! ### the loop as one over `atoms` -/

def atomStep (g : UInt8 → Bool) (s b : Nat) (a : Bool × IE) (c : Conn) : Out :=
  if a.1 then (if a.2.typ = 93 then (c, ok ()) else ieStep g s b a.2 c) else childStep g s b a.2 c

def atomLoop (g : UInt8 → Bool) (s b : Nat) : List (Bool × IE) → Conn → Out
  | [], c => (c, ok ())
  | a :: l, c => (atomStep g s b a c).then (atomLoop g s b l)

theorem then_assoc (x : Out) (f h : Conn → Out) : (x.then f).then h = x.then (fun c => (f c).then h) := by
  obtain ⟨c, r⟩ := x
  cases r <;> rfl

theorem then_id (x : Out) : x.then (fun c => (c, ok ())) = x := by
  obtain ⟨c, r⟩ := x
  cases r <;> rfl

theorem atomLoop_append (g : UInt8 → Bool) (s b : Nat) (l l' : List (Bool × IE)) (c : Conn) :
    atomLoop g s b (l ++ l') c = (atomLoop g s b l c).then (atomLoop g s b l') := by
  induction l generalizing c with
  | nil => rfl
  | cons a l ih =>
    rw [List.cons_append, atomLoop, atomLoop, then_assoc]
    congr 1
    funext c
    exact ih c

theorem childLoop_eq (g : UInt8 → Bool) (s b : Nat) (l : List IE) (c : Conn) :
    childLoop g s b l c = atomLoop g s b (l.map (fun x => (false, x))) c := by
  induction l generalizing c with
  | nil => rfl
  | cons i l ih =>
    rw [childLoop, List.map_cons, atomLoop]
    congr 1
    funext c
    exact ih c

theorem ieStep_eq (g : UInt8 → Bool) (s b : Nat) (i : IE) (c : Conn) :
    ieStep g s b i c = atomLoop g s b
      ((true, i) :: (if i.typ = 93 ∧ i.instance' = 0 then i.children.map (fun x => (false, x)) else [])) c := by
  rw [atomLoop]
  by_cases h : i.typ = 93
  · have h1 : atomStep g s b (true, i) c = (c, ok ()) := by simp [atomStep, h]
    rw [h1]
    by_cases hi : i.instance' = 0
    · rw [if_pos ⟨h, hi⟩]
      change _ = atomLoop g s b (i.children.map (fun x => (false, x))) c
      rw [← childLoop_eq]
      simp [ieStep, h, hi]
    · rw [if_neg (fun hc => hi hc.2)]
      change _ = (c, ok ())
      simp [ieStep, h, hi]
  · rw [if_neg (fun hc => h hc.1)]
    have h1 : atomStep g s b (true, i) c = ieStep g s b i c := by simp [atomStep, h]
    rw [h1]
    exact (then_id _).symm

theorem ieLoop_eq (g : UInt8 → Bool) (s b : Nat) (l : List (Option IE)) (c : Conn) :
    ieLoop g s b l c = atomLoop g s b (atoms l) c := by
  induction l generalizing c with
  | nil => rfl
  | cons i l ih =>
    cases i with
    | none => rw [ieLoop, atoms]; exact ih c
    | some i =>
      rw [ieLoop, atoms, atomLoop_append, ieStep_eq]
      congr 1
      funext c
      exact ih c

/-! ### steps that go on -/

theorem then_ok {x : Out} {f : Conn → Out} {c' : Conn} :
    x.then f = (c', ok ()) ↔ ∃ c1, x = (c1, ok ()) ∧ f c1 = (c', ok ()) := by
  obtain ⟨c, r⟩ := x
  cases r <;> simp [Out.then]

theorem assign_ok {α : Type} {r : Res α} {z : α} {f : α → Conn} {c c' : Conn} :
    assign r z f c = (c', ok ()) ↔ ∃ a, r = ok a ∧ c' = f a := by
  cases r <;> simp [assign, eq_comm]

theorem define_ok {α : Type} {r : Res α} {f : α → Out} {c c' : Conn} :
    define r c f = (c', ok ()) ↔ ∃ a, r = ok a ∧ f a = (c', ok ()) := by
  cases r <;> simp [define]

/-- the last element that matters decides -/
theorem loop_last {α : Type} (g : UInt8 → Bool) (s b : Nat) (π : Conn → α) (p : Bool × IE → Bool) (R : Bool × IE → α → Prop)
    (h : ∀ a c c', atomStep g s b a c = (c', ok ()) → (p a = true → R a (π c')) ∧ (p a = false → π c' = π c))
    (l : List (Bool × IE)) (c c' : Conn) (hl : atomLoop g s b l c = (c', ok ())) :
    match (l.filter p).getLast? with
    | some a => R a (π c')
    | none => π c' = π c := by
  induction l generalizing c with
  | nil =>
    simp only [atomLoop, Prod.mk.injEq, and_true] at hl
    subst hl; rfl
  | cons a l ih =>
    rw [atomLoop, then_ok] at hl
    obtain ⟨c1, h1, h2⟩ := hl
    have ih := ih c1 h2
    obtain ⟨hp, hq⟩ := h a c c1 h1
    cases hx : (l.filter p).getLast? with
    | some a' =>
      have : ((a :: l).filter p).getLast? = some a' := by
        cases ha : p a
        · rw [List.filter_cons_of_neg (by simp [ha])]; exact hx
        · rw [List.filter_cons_of_pos ha, List.getLast?_cons, hx]; rfl
      rw [this]
      rw [hx] at ih
      exact ih
    | none =>
      rw [hx] at ih
      simp only at ih
      have hnil : l.filter p = [] := List.getLast?_eq_none_iff.1 hx
      cases ha : p a
      · rw [List.filter_cons_of_neg (by simp [ha]), hx]
        simp only
        rw [ih]; exact hq ha
      · rw [List.filter_cons_of_pos ha, hnil]
        simp only [List.getLast?_singleton]
        rw [ih]; exact hp ha

/-- what one element does when it is readable -/
inductive Eff (g : UInt8 → Bool) (s b : Nat) (c : Conn) : Bool × IE → Conn → Prop where
  | imsi (i : IE) (v : Bytes) : i.typ = 1 → i.imsi = ok v → Eff g s b c (true, i) (update c s (fun x => { x with imsi := v }))
  | msisdn (i : IE) (v : Bytes) : i.typ = 76 → i.msisdn = ok v → Eff g s b c (true, i) (update c s (fun x => { x with msisdn := v }))
  | imei (i : IE) (v : Bytes) : i.typ = 75 → i.mei = ok v → Eff g s b c (true, i) (update c s (fun x => { x with imei := v }))
  | plmn (i : IE) (v w : Bytes) : i.typ = 83 → i.plmn = ok (v, w) →
      Eff g s b c (true, i) (update (update c s (fun x => { x with mcc := v })) s (fun x => { x with mnc := w }))
  | apn (i : IE) (v : Bytes) : i.typ = 71 → apnOf g i = ok v →
      Eff g s b c (true, i) (updateBearer c b (fun x => { x with apn := v }))
  | rat (i : IE) (v : UInt8) : i.typ = 82 → ratOf g i = ok v → Eff g s b c (true, i) (update c s (fun x => { x with rat := v }))
  | reg (i : IE) (t : UInt32) : i.typ = 87 → i.interfaceType = ok c.localIf → i.teid = ok t →
      Eff g s b c (true, i) (registerSession (addTEID c s c.localIf t) t s)
  | fteid (top : Bool) (i : IE) (f : UInt8) (t : UInt32) : i.typ = 87 → i.interfaceType = ok f → i.teid = ok t →
      (top = true → f ≠ c.localIf) → Eff g s b c (top, i) (addTEID c s f t)
  | ebi (i : IE) (v : UInt8) : i.typ = 73 → i.ebi g = ok v → Eff g s b c (false, i) (updateBearer c b (fun x => { x with ebi := v }))
  | qos (i : IE) (pl qci : UInt8) (mu md gu : UInt64) : i.typ = 80 → i.priorityLevel g = ok pl → i.qciLabel g = ok qci →
      i.mbrUp = ok mu → i.mbrDown = ok md → i.gbrUp = ok gu →
      Eff g s b c (false, i) (updateBearer c b (fun x => { x with
        pl := pl, qci := qci, pci := false, pvi := false, mbrUp := mu, mbrDown := md, gbrUp := gu, gbrDown := gu }))
  | skip (a : Bool × IE) : (a.1 = true → a.2.typ ∉ [1, 76, 75, 83, 71, 82, 87]) → (a.1 = false → a.2.typ ∉ [73, 80, 87]) →
      Eff g s b c a c

theorem updateBearer_twice (c : Conn) (b : Nat) (f h : Bearer → Bearer) :
    updateBearer (updateBearer c b f) b h = updateBearer c b (fun x => h (f x)) := by
  unfold updateBearer
  congr 1
  funext i
  by_cases hi : i = b <;> simp [hi]

theorem atom_eff {g : UInt8 → Bool} {s b : Nat} {a : Bool × IE} {c c' : Conn} (h : atomStep g s b a c = (c', ok ())) :
    Eff g s b c a c' := by
  obtain ⟨top, i⟩ := a
  unfold atomStep at h
  cases top with
  | true =>
    simp only [if_true] at h
    by_cases h93 : i.typ = 93
    · rw [if_pos h93] at h
      simp only [Prod.mk.injEq, and_true] at h
      subst h
      exact .skip _ (by simp [h93]) (by simp)
    · rw [if_neg h93] at h
      unfold ieStep at h
      by_cases h1 : i.typ = 1
      · rw [if_pos h1, assign_ok] at h
        obtain ⟨v, hv, rfl⟩ := h
        exact .imsi i v h1 hv
      rw [if_neg h1] at h
      by_cases h2 : i.typ = 76
      · rw [if_pos h2, assign_ok] at h
        obtain ⟨v, hv, rfl⟩ := h
        exact .msisdn i v h2 hv
      rw [if_neg h2] at h
      by_cases h3 : i.typ = 75
      · rw [if_pos h3, assign_ok] at h
        obtain ⟨v, hv, rfl⟩ := h
        exact .imei i v h3 hv
      rw [if_neg h3] at h
      by_cases h4 : i.typ = 83
      · rw [if_pos h4, then_ok] at h
        obtain ⟨c1, h, h'⟩ := h
        rw [assign_ok] at h h'
        obtain ⟨v, hv, rfl⟩ := h
        obtain ⟨w, hw, rfl⟩ := h'
        cases hp : i.plmn <;> rw [hp] at hv hw <;> simp at hv hw
        subst hv hw
        exact .plmn i _ _ h4 hp
      rw [if_neg h4] at h
      by_cases h5 : i.typ = 71
      · rw [if_pos h5, assign_ok] at h
        obtain ⟨v, hv, rfl⟩ := h
        exact .apn i v h5 hv
      rw [if_neg h5] at h
      by_cases h6 : i.typ = 82
      · rw [if_pos h6, assign_ok] at h
        obtain ⟨v, hv, rfl⟩ := h
        exact .rat i v h6 hv
      rw [if_neg h6] at h
      by_cases h7 : i.typ = 87
      · rw [if_pos h7, define_ok] at h
        obtain ⟨f, hf, h⟩ := h
        rw [define_ok] at h
        obtain ⟨t, ht, h⟩ := h
        by_cases hl : f = c.localIf
        · rw [if_pos hl] at h
          simp only [Prod.mk.injEq, and_true] at h
          subst h hl
          exact .reg i t h7 hf ht
        · rw [if_neg hl] at h
          simp only [Prod.mk.injEq, and_true] at h
          subst h
          exact .fteid true i f t h7 hf ht (fun _ => hl)
      rw [if_neg h7, if_neg h93] at h
      simp only [Prod.mk.injEq, and_true] at h
      subst h
      exact .skip _ (by simp [h1, h2, h3, h4, h5, h6, h7]) (by simp)
  | false =>
    simp only [Bool.false_eq_true, if_false] at h
    unfold childStep at h
    by_cases h1 : i.typ = 73
    · rw [if_pos h1, assign_ok] at h
      obtain ⟨v, hv, rfl⟩ := h
      exact .ebi i v h1 hv
    rw [if_neg h1] at h
    by_cases h2 : i.typ = 80
    · rw [if_pos h2, qosStep] at h
      simp only [then_ok, assign_ok, define_ok, (C42_bearer_qos_pci_wrong g i h2).1, (C42_bearer_qos_pci_wrong g i h2).2] at h
      obtain ⟨_, ⟨pl, hpl, rfl⟩, _, ⟨qci, hqci, rfl⟩, _, ⟨pci, hpci, hc1⟩, _, ⟨pvi, hpvi, hc2⟩, _, ⟨mu, hmu, rfl⟩, _, ⟨md, hmd, rfl⟩,
        _, ⟨gu, hgu, rfl⟩, gd, hgd, rfl⟩ := h
      simp only [Prod.mk.injEq, and_true, ok.injEq] at hc1 hc2 hpci hpvi
      subst hc1 hpci
      subst hc2 hpvi
      rw [hgu] at hgd
      simp only [ok.injEq] at hgd
      subst hgd
      simp only [updateBearer_twice]
      exact .qos i pl qci mu md gu h2 hpl hqci hmu hmd hgu
    rw [if_neg h2] at h
    by_cases h3 : i.typ = 87
    · rw [if_pos h3, define_ok] at h
      obtain ⟨f, hf, h⟩ := h
      rw [define_ok] at h
      obtain ⟨t, ht, h⟩ := h
      simp only [Prod.mk.injEq, and_true] at h
      subst h
      exact .fteid false i f t h3 hf ht (by simp)
    rw [if_neg h3] at h
    simp only [Prod.mk.injEq, and_true] at h
    subst h
    exact .skip _ (by simp) (by simp [h1, h2, h3])

/-- the last element that matters decides, for a whole list of arguments -/
theorem parse_last {α : Type} {g : UInt8 → Bool} {s b : Nat} {raddr : Addr} {ies : List (Option IE)} {c c' : Conn}
    (hok : parseCreateSession c g s b raddr ies = (c', ok ())) (π : Conn → α) (p : Bool × IE → Bool) (acc : IE → Res α)
    (h : ∀ a c c', Eff g s b c a c' → (p a = true → acc a.2 = ok (π c')) ∧ (p a = false → π c' = π c)) :
    Told (((atoms ies).filter p).getLast?) acc (π (newSession c s b raddr)) (π c') := by
  unfold parseCreateSession at hok
  rw [ieLoop_eq] at hok
  have := loop_last g s b π p (fun a v => acc a.2 = ok v) (fun a c c' he => h a c c' (atom_eff he)) _ _ _ hok
  unfold Told
  cases hx : ((atoms ies).filter p).getLast? <;> rw [hx] at this <;> exact this

/-! ### steps that return early -/

theorem Frame.refl (s b : Nat) (c : Conn) : Frame s b c c := ⟨rfl, rfl, rfl, rfl, fun _ _ => rfl, fun _ _ => rfl⟩

theorem Frame.trans {s b : Nat} {c c1 c2 : Conn} (h : Frame s b c c1) (h' : Frame s b c1 c2) : Frame s b c c2 := by
  obtain ⟨a1, a2, a3, a4, a5, a6⟩ := h
  obtain ⟨b1, b2, b3, b4, b5, b6⟩ := h'
  exact ⟨b1.trans a1, b2.trans a2, b3.trans a3, b4.trans a4, fun x hx => (b5 x hx).trans (a5 x hx),
    fun x hx => (b6 x hx).trans (a6 x hx)⟩

theorem frame_update (s b : Nat) (c : Conn) (f : Sess → Sess) : Frame s b c (update c s f) := by
  refine ⟨rfl, rfl, rfl, rfl, fun x hx => ?_, fun _ _ => rfl⟩
  simp [update, hx]

theorem frame_updateBearer (s b : Nat) (c : Conn) (f : Bearer → Bearer) : Frame s b c (updateBearer c b f) := by
  refine ⟨rfl, rfl, rfl, rfl, fun _ _ => rfl, fun x hx => ?_⟩
  simp [updateBearer, hx]

theorem frame_new (s b : Nat) (c : Conn) (raddr : Addr) : Frame s b c (newSession c s b raddr) := by
  refine ⟨rfl, rfl, rfl, rfl, fun x hx => ?_, fun x hx => ?_⟩ <;> simp [newSession, hx]

theorem frame_register (s b : Nat) (c : Conn) (t : UInt32) : Frame s b c (registerSession c t s) := by
  refine ⟨rfl, rfl, rfl, rfl, fun x hx => ?_, fun _ _ => rfl⟩
  simp [registerSession, addTEID, update, hx]

theorem frame_eff {g : UInt8 → Bool} {s b : Nat} {c c' : Conn} {a : Bool × IE} (h : Eff g s b c a c') : Frame s b c c' := by
  cases h with
  | plmn => exact (frame_update s b _ _).trans (frame_update s b _ _)
  | reg => exact (frame_update s b _ _).trans (frame_register s b _ _)
  | skip => exact Frame.refl s b c
  | fteid => exact frame_update s b _ _
  | apn | ebi | qos => exact frame_updateBearer s b _ _
  | _ => exact frame_update s b _ _

/-- a step that returns an error leaves the tables alone -/
def Stops (s b : Nat) (c : Conn) (x : Out) : Prop :=
  ∃ c' e, x = (c', err e) ∧ Frame s b c c' ∧ c'.byTeid = c.byTeid ∧ c'.byImsi = c.byImsi

theorem assign_cases {α : Type} {s b : Nat} {c0 c : Conn} {r : Res α} {z : α} {f : α → Conn} (hr : Returns r)
    (hf : ∀ a, Frame s b c0 (f a) ∧ (f a).byTeid = c0.byTeid ∧ (f a).byImsi = c0.byImsi) :
    (∃ v, r = ok v ∧ assign r z f c = (f v, ok ())) ∨ ((¬ ∃ v, r = ok v) ∧ Stops s b c0 (assign r z f c)) := by
  cases r with
  | ok v => exact Or.inl ⟨v, rfl, rfl⟩
  | err e => exact Or.inr ⟨by simp, _, e, rfl, hf z⟩
  | «panic» => exact absurd rfl hr.1
  | diverge => exact absurd rfl hr.2

theorem define_cases {α : Type} {s b : Nat} {c0 c : Conn} {r : Res α} {f : α → Out} (hr : Returns r)
    (hf : Frame s b c0 c ∧ c.byTeid = c0.byTeid ∧ c.byImsi = c0.byImsi) :
    (∃ v, r = ok v ∧ define r c f = f v) ∨ ((¬ ∃ v, r = ok v) ∧ Stops s b c0 (define r c f)) := by
  cases r with
  | ok v => exact Or.inl ⟨v, rfl, rfl⟩
  | err e => exact Or.inr ⟨by simp, _, e, rfl, hf⟩
  | «panic» => exact absurd rfl hr.1
  | diverge => exact absurd rfl hr.2

theorem stops_then {s b : Nat} {c : Conn} {x : Out} {f : Conn → Out} (h : Stops s b c x) : Stops s b c (x.then f) := by
  obtain ⟨c', e, rfl, h⟩ := h
  exact ⟨c', e, rfl, h⟩

theorem assign_frames {α : Type} (s b : Nat) (c : Conn) (f : α → Sess → Sess) (a : α) :
    Frame s b c (update c s (f a)) ∧ (update c s (f a)).byTeid = c.byTeid ∧ (update c s (f a)).byImsi = c.byImsi :=
  ⟨frame_update s b c _, rfl, rfl⟩

theorem bearer_frames {α : Type} (s b : Nat) (c : Conn) (f : α → Bearer → Bearer) (a : α) :
    Frame s b c (updateBearer c b (f a)) ∧ (updateBearer c b (f a)).byTeid = c.byTeid ∧
      (updateBearer c b (f a)).byImsi = c.byImsi :=
  ⟨frame_updateBearer s b c _, rfl, rfl⟩

theorem qos_cases (g : UInt8 → Bool) (s b : Nat) (i : IE) (c : Conn) (h80 : i.typ = 80) :
    (((∃ v, i.priorityLevel g = ok v) ∧ (∃ v, i.qciLabel g = ok v) ∧ (∃ v, i.mbrUp = ok v) ∧
      (∃ v, i.mbrDown = ok v) ∧ ∃ v, i.gbrUp = ok v) ∧ ∃ c', qosStep g b i c = (c', ok ())) ∨
    ((¬ ((∃ v, i.priorityLevel g = ok v) ∧ (∃ v, i.qciLabel g = ok v) ∧ (∃ v, i.mbrUp = ok v) ∧
      (∃ v, i.mbrDown = ok v) ∧ ∃ v, i.gbrUp = ok v)) ∧ Stops s b c (qosStep g b i c)) := by
  obtain ⟨_, _, _, _, _, _, _, r1, _, r2, r3, r4, r5, _⟩ := C48_qos g i
  obtain ⟨p1, p2⟩ := C42_bearer_qos_pci_wrong g i h80
  have upd : ∀ (f : Bearer → Bearer), Frame s b c (updateBearer c b f) ∧ (updateBearer c b f).byTeid = c.byTeid ∧
      (updateBearer c b f).byImsi = c.byImsi := fun f => ⟨frame_updateBearer s b c f, rfl, rfl⟩
  unfold qosStep
  rw [p1, p2]
  rcases h1 : i.priorityLevel g with v1 | e1 | _ | _
  · rcases h2 : i.qciLabel g with v2 | e2 | _ | _
    · rcases h3 : i.mbrUp with v3 | e3 | _ | _
      · rcases h4 : i.mbrDown with v4 | e4 | _ | _
        · rcases h5 : i.gbrUp with v5 | e5 | _ | _
          · exact Or.inl ⟨by simp, _, rfl⟩
          · refine Or.inr ⟨by simp, _, e5, rfl, ?_⟩
            simp only [updateBearer_twice]; exact upd _
          · exact absurd h5 r5.1
          · exact absurd h5 r5.2
        · refine Or.inr ⟨by simp, _, e4, rfl, ?_⟩
          simp only [updateBearer_twice]; exact upd _
        · exact absurd h4 r4.1
        · exact absurd h4 r4.2
      · refine Or.inr ⟨by simp, _, e3, rfl, ?_⟩
        simp only [updateBearer_twice]; exact upd _
      · exact absurd h3 r3.1
      · exact absurd h3 r3.2
    · refine Or.inr ⟨by simp, _, e2, rfl, ?_⟩
      simp only [updateBearer_twice]; exact upd _
    · exact absurd h2 r2.1
    · exact absurd h2 r2.2
  · exact Or.inr ⟨by simp, _, e1, rfl, upd _⟩
  · exact absurd h1 r1.1
  · exact absurd h1 r1.2

theorem fteid_cases (s b : Nat) (i : IE) (c : Conn) (k : UInt8 → UInt32 → Conn) :
    (((∃ f, i.interfaceType = ok f) ∧ ∃ t, i.teid = ok t) ∧
      ∃ c', define i.interfaceType c (fun it => define i.teid c fun t => (k it t, ok ())) = (c', ok ())) ∨
    ((¬ ((∃ f, i.interfaceType = ok f) ∧ ∃ t, i.teid = ok t)) ∧
      Stops s b c (define i.interfaceType c (fun it => define i.teid c fun t => (k it t, ok ())))) := by
  obtain ⟨_, _, _, r1, _, r2, _⟩ := C48_addr i
  rcases define_cases (s := s) (b := b) (c0 := c) (c := c) r1 ⟨Frame.refl s b c, rfl, rfl⟩
    (f := fun it => define i.teid c fun t => (k it t, ok ())) with ⟨f, hf, h⟩ | ⟨hn, h⟩
  · rw [h]
    rcases define_cases (s := s) (b := b) (c0 := c) (c := c) r2 ⟨Frame.refl s b c, rfl, rfl⟩
      (f := fun t => (k f t, ok ())) with ⟨t, ht, h⟩ | ⟨hn, h⟩
    · exact Or.inl ⟨⟨⟨f, hf⟩, t, ht⟩, _, h⟩
    · exact Or.inr ⟨fun hc => hn hc.2, h⟩
  · exact Or.inr ⟨fun hc => hn hc.1, h⟩

/-- one element: it is readable and the step goes on, or it is not and the step returns an error -/
theorem atom_cases (g : UInt8 → Bool) (s b : Nat) (a : Bool × IE) (c : Conn) :
    (Readable g a ∧ ∃ c', atomStep g s b a c = (c', ok ())) ∨ (¬ Readable g a ∧ Stops s b c (atomStep g s b a c)) := by
  obtain ⟨top, i⟩ := a
  have one : ∀ {α : Type} {P : Prop} {r : Res α} {z : α} {f : α → Conn}, Returns r →
      (∀ a, Frame s b c (f a) ∧ (f a).byTeid = c.byTeid ∧ (f a).byImsi = c.byImsi) → (P ↔ ∃ v, r = ok v) →
      (P ∧ ∃ c', assign r z f c = (c', ok ())) ∨ (¬ P ∧ Stops s b c (assign r z f c)) := by
    intro α P r z f hr hf hP
    rcases assign_cases (s := s) (b := b) (c0 := c) (c := c) (z := z) hr hf with ⟨v, hv, h⟩ | ⟨hn, h⟩
    · exact Or.inl ⟨hP.2 ⟨v, hv⟩, _, h⟩
    · exact Or.inr ⟨fun hc => hn (hP.1 hc), h⟩
  obtain ⟨ri, rm, re⟩ := C48_identity i
  obtain ⟨_, _, rp⟩ := C48_uli i
  unfold atomStep
  cases top with
  | true =>
    simp only [if_true]
    by_cases h93 : i.typ = 93
    · rw [if_pos h93]
      exact Or.inl ⟨by simp [Readable, h93], _, rfl⟩
    rw [if_neg h93, ieStep]
    by_cases h1 : i.typ = 1
    · rw [if_pos h1]
      exact one ri (fun v => ⟨frame_update s b c _, rfl, rfl⟩) (by simp [Readable, h1])
    rw [if_neg h1]
    by_cases h2 : i.typ = 76
    · rw [if_pos h2]
      exact one rm (fun v => ⟨frame_update s b c _, rfl, rfl⟩) (by simp [Readable, h2])
    rw [if_neg h2]
    by_cases h3 : i.typ = 75
    · rw [if_pos h3]
      exact one re (fun v => ⟨frame_update s b c _, rfl, rfl⟩) (by simp [Readable, h3])
    rw [if_neg h3]
    by_cases h4 : i.typ = 83
    · rw [if_pos h4]
      rcases hp : i.plmn with ⟨v, w⟩ | e | _ | _
      · exact Or.inl ⟨by simp [Readable, h4, hp], _, rfl⟩
      · exact Or.inr ⟨by simp [Readable, h4, hp], _, e, rfl, frame_update s b c _, rfl, rfl⟩
      · exact absurd hp rp.1
      · exact absurd hp rp.2
    rw [if_neg h4]
    by_cases h5 : i.typ = 71
    · rw [if_pos h5]
      exact one (C48_plain g i _).2.2.2.2.1 (fun v => ⟨frame_updateBearer s b c _, rfl, rfl⟩) (by simp [Readable, h5, apnOf])
    rw [if_neg h5]
    by_cases h6 : i.typ = 82
    · rw [if_pos h6]
      exact one (C48_plain g i _).1 (fun v => ⟨frame_update s b c _, rfl, rfl⟩) (by simp [Readable, h6, ratOf])
    rw [if_neg h6]
    by_cases h7 : i.typ = 87
    · rw [if_pos h7]
      have e : (define i.interfaceType c fun it => define i.teid c fun teid =>
          if it = c.localIf then (registerSession (addTEID c s it teid) teid s, ok ()) else (addTEID c s it teid, ok ())) =
          define i.interfaceType c fun it => define i.teid c fun teid =>
            (if it = c.localIf then registerSession (addTEID c s it teid) teid s else addTEID c s it teid, ok ()) := by
        congr 1; funext it; congr 1; funext t; split <;> rfl
      rw [e]
      have : Readable g (true, i) ↔ ((∃ f, i.interfaceType = ok f) ∧ ∃ t, i.teid = ok t) := by simp [Readable, h7]
      rw [this]
      exact fteid_cases s b i c _
    rw [if_neg h7, if_neg h93]
    exact Or.inl ⟨by simp [Readable, h1, h2, h3, h4, h5, h6, h7], _, rfl⟩
  | false =>
    simp only [Bool.false_eq_true, if_false]
    unfold childStep
    by_cases h1 : i.typ = 73
    · rw [if_pos h1]
      exact one (C48_plain g i ⟨"", 0, []⟩).2.2.2.2.2.2.1 (fun v => ⟨frame_updateBearer s b c _, rfl, rfl⟩) (by simp [Readable, h1])
    rw [if_neg h1]
    by_cases h2 : i.typ = 80
    · rw [if_pos h2]
      have : Readable g (false, i) ↔ ((∃ v, i.priorityLevel g = ok v) ∧ (∃ v, i.qciLabel g = ok v) ∧ (∃ v, i.mbrUp = ok v) ∧
          (∃ v, i.mbrDown = ok v) ∧ ∃ v, i.gbrUp = ok v) := by simp [Readable, h2]
      rw [this]
      exact qos_cases g s b i c h2
    rw [if_neg h2]
    by_cases h3 : i.typ = 87
    · rw [if_pos h3]
      have : Readable g (false, i) ↔ ((∃ f, i.interfaceType = ok f) ∧ ∃ t, i.teid = ok t) := by simp [Readable, h3]
      rw [this]
      exact fteid_cases s b i c _
    rw [if_neg h3]
    exact Or.inl ⟨by simp [Readable, h1, h2, h3], _, rfl⟩

/-- the whole loop: everything is readable and it goes on to the end, or it stops at the first element that is not -/
theorem loop_cases (g : UInt8 → Bool) (s b : Nat) (l : List (Bool × IE)) (c : Conn) :
    ((∀ a ∈ l, Readable g a) ∧ ∃ c', atomLoop g s b l c = (c', ok ())) ∨
    ∃ l1 a l2 c1, l = l1 ++ a :: l2 ∧ (∀ x ∈ l1, Readable g x) ∧ ¬ Readable g a ∧ atomLoop g s b l1 c = (c1, ok ()) ∧
      Stops s b c1 (atomLoop g s b l c) := by
  induction l generalizing c with
  | nil => exact Or.inl ⟨by simp, _, rfl⟩
  | cons a l ih =>
    rcases atom_cases g s b a c with ⟨hr, c1, h1⟩ | ⟨hn, hs⟩
    · have e : ∀ l, atomLoop g s b (a :: l) c = atomLoop g s b l c1 := by intro l; rw [atomLoop, h1]; rfl
      rcases ih c1 with ⟨ha, c2, h2⟩ | ⟨l1, x, l2, c2, rfl, ha, hx, h2, h3⟩
      · refine Or.inl ⟨?_, c2, by rw [e]; exact h2⟩
        intro y hy
        rcases List.mem_cons.1 hy with rfl | hy
        · exact hr
        · exact ha y hy
      · refine Or.inr ⟨a :: l1, x, l2, c2, rfl, ?_, hx, by rw [e]; exact h2, by rw [e]; exact h3⟩
        intro y hy
        rcases List.mem_cons.1 hy with rfl | hy
        · exact hr
        · exact ha y hy
    · refine Or.inr ⟨[], a, l, c, rfl, by simp, hn, rfl, ?_⟩
      rw [atomLoop]; exact stops_then hs

theorem loop_frame {g : UInt8 → Bool} {s b : Nat} {l : List (Bool × IE)} {c c' : Conn}
    (h : atomLoop g s b l c = (c', ok ())) : Frame s b c c' := by
  induction l generalizing c with
  | nil => simp only [atomLoop, Prod.mk.injEq, and_true] at h; subst h; exact Frame.refl s b c
  | cons a l ih =>
    rw [atomLoop, then_ok] at h
    obtain ⟨c1, h1, h2⟩ := h
    exact (frame_eff (atom_eff h1)).trans (ih h2)

/-! ### the tables of sessions -/

theorem loop_byTeid {g : UInt8 → Bool} {s b : Nat} {l : List (Bool × IE)} {c c' : Conn}
    (h : atomLoop g s b l c = (c', ok ())) (t : UInt32) :
    ((∃ a ∈ l, LocalFTEID c a t) → c'.byTeid.load t = some (some s)) ∧
    ((∀ a ∈ l, ¬ LocalFTEID c a t) → c'.byTeid.load t = c.byTeid.load t) := by
  induction l generalizing c with
  | nil => simp only [atomLoop, Prod.mk.injEq, and_true] at h; subst h; simp
  | cons a l ih =>
    rw [atomLoop, then_ok] at h
    obtain ⟨c1, h1, h2⟩ := h
    have he := atom_eff h1
    have hl : c1.localIf = c.localIf := (frame_eff he).1
    have ih := ih h2
    have hloc : ∀ x, LocalFTEID c1 x t ↔ LocalFTEID c x t := by intro x; unfold LocalFTEID; rw [hl]
    simp only [hloc] at ih
    have hstep : (LocalFTEID c a t → c1.byTeid.load t = some (some s)) ∧
        (¬ LocalFTEID c a t → c1.byTeid.load t = c.byTeid.load t) := by
      cases he with
      | reg i t' e1 e2 e3 =>
        simp only [LocalFTEID, e1, e2, e3, ok.injEq, true_and, registerSession, addTEID, update, SyncMap.load_store]
        exact ⟨fun h => by rw [if_pos h.symm], fun h => by rw [if_neg (fun hc => h hc.symm)]⟩
      | fteid top i f t' e1 e2 e3 e4 =>
        refine ⟨fun h => ?_, fun _ => rfl⟩
        obtain ⟨k1, _, k3, _⟩ := h
        simp only at k1 k3
        rw [e2] at k3
        simp only [ok.injEq] at k3
        exact absurd k3 (e4 k1)
      | skip a e1 e2 =>
        refine ⟨fun h => ?_, fun _ => rfl⟩
        obtain ⟨k1, k2, _⟩ := h
        exact absurd (e1 k1) (by simp [k2])
      | _ =>
        clear ih h1 h2 hloc hl
        refine ⟨fun h => ?_, fun _ => rfl⟩
        obtain ⟨k1, k2, _⟩ := h
        simp_all
    constructor
    · rintro ⟨x, hx, hxl⟩
      by_cases hex : ∃ a ∈ l, LocalFTEID c a t
      · exact ih.1 hex
      · rw [ih.2 (fun y hy hc => hex ⟨y, hy, hc⟩)]
        rcases List.mem_cons.1 hx with rfl | hx
        · exact hstep.1 hxl
        · exact absurd ⟨x, hx, hxl⟩ hex
    · intro hn
      rw [ih.2 (fun y hy => hn y (List.mem_cons_of_mem _ hy)), hstep.2 (hn a List.mem_cons_self)]

theorem loop_snoc {g : UInt8 → Bool} {s b : Nat} {l : List (Bool × IE)} {a : Bool × IE} {c c' : Conn}
    (h : atomLoop g s b (l ++ [a]) c = (c', ok ())) :
    ∃ c1, atomLoop g s b l c = (c1, ok ()) ∧ atomStep g s b a c1 = (c', ok ()) := by
  rw [atomLoop_append, then_ok] at h
  obtain ⟨c1, h1, h2⟩ := h
  refine ⟨c1, h1, ?_⟩
  rw [atomLoop, then_ok] at h2
  obtain ⟨c2, h2, h3⟩ := h2
  simp only [atomLoop, Prod.mk.injEq, and_true] at h3
  subst h3
  exact h2

theorem loop_imsi {g : UInt8 → Bool} {s b : Nat} {l : List (Bool × IE)} {c c' : Conn}
    (h : atomLoop g s b l c = (c', ok ())) :
    Told ((l.filter (fun a => a.1 = true ∧ a.2.typ = 1)).getLast?) IE.imsi (c.heap s).imsi (c'.heap s).imsi := by
  have := loop_last g s b (fun c => (c.heap s).imsi) (fun a => a.1 = true ∧ a.2.typ = 1) (fun a v => a.2.imsi = ok v)
    (fun a c c' he => by
      have he := atom_eff he
      cases he <;> simp_all [update, updateBearer, registerSession, addTEID]) _ _ _ h
  unfold Told
  cases hx : (l.filter (fun a => a.1 = true ∧ a.2.typ = 1)).getLast? <;> rw [hx] at this <;> exact this

/-- among `l` there is a local F-TEID at which the session's IMSI, `z` at the start, is `k` -/
def StoredAs (c : Conn) (z : Bytes) (l : List (Bool × IE)) (k : Bytes) : Prop :=
  ∃ l1 a l2 t, l = l1 ++ a :: l2 ∧ LocalFTEID c a t ∧
    Told ((l1.filter (fun a => a.1 = true ∧ a.2.typ = 1)).getLast?) IE.imsi z k

theorem told_unique {α : Type} {o : Option (Bool × IE)} {acc : IE → Res α} {z v w : α} (h : Told o acc z v) (h' : Told o acc z w) :
    v = w := by
  unfold Told at h h'
  cases o with
  | none => simp only at h h'; rw [h, h']
  | some a => simp only at h h'; rw [h] at h'; exact ok.inj h'

theorem storedAs_snoc (c : Conn) (z : Bytes) (l : List (Bool × IE)) (a : Bool × IE) (k : Bytes) :
    StoredAs c z (l ++ [a]) k ↔ StoredAs c z l k ∨ ((∃ t, LocalFTEID c a t) ∧
      Told ((l.filter (fun a => a.1 = true ∧ a.2.typ = 1)).getLast?) IE.imsi z k) := by
  constructor
  · rintro ⟨l1, x, l2, t, he, hl, ht⟩
    rcases List.eq_nil_or_concat l2 with rfl | ⟨l2, y, rfl⟩
    · right
      have he := List.append_inj' he rfl
      obtain ⟨rfl, h2⟩ := he
      simp only [List.cons.injEq, and_true] at h2
      subst h2
      exact ⟨⟨t, hl⟩, ht⟩
    · left
      rw [List.concat_eq_append, ← List.cons_append, ← List.append_assoc] at he
      have he := List.append_inj' he rfl
      exact ⟨l1, x, l2, t, he.1, hl, ht⟩
  · rintro (⟨l1, x, l2, t, rfl, hl, ht⟩ | ⟨⟨t, hl⟩, ht⟩)
    · exact ⟨l1, x, l2 ++ [a], t, by simp, hl, ht⟩
    · exact ⟨l, a, [], t, rfl, hl, ht⟩

theorem snoc_induct {α : Type} {P : List α → Prop} (h0 : P []) (h1 : ∀ l a, P l → P (l ++ [a])) (l : List α) : P l := by
  rw [← l.reverse_reverse]
  induction l.reverse with
  | nil => exact h0
  | cons a l ih => rw [List.reverse_cons]; exact h1 _ _ ih

theorem loop_byImsi {g : UInt8 → Bool} {s b : Nat} {l : List (Bool × IE)} {c c' : Conn}
    (h : atomLoop g s b l c = (c', ok ())) (k : Bytes) :
    (StoredAs c (c.heap s).imsi l k → c'.byImsi.load k = some s) ∧
    (¬ StoredAs c (c.heap s).imsi l k → c'.byImsi.load k = c.byImsi.load k) := by
  induction l using snoc_induct generalizing c' with
  | h0 =>
    simp only [atomLoop, Prod.mk.injEq, and_true] at h; subst h
    refine ⟨?_, fun _ => rfl⟩
    rintro ⟨l1, x, l2, t, he, _⟩
    simp at he
  | h1 l a ih =>
    obtain ⟨c1, h1, h2⟩ := loop_snoc h
    have ih := ih h1
    have hi := loop_imsi h1
    have he := atom_eff h2
    have hl : c1.localIf = c.localIf := (loop_frame h1).1
    rw [storedAs_snoc]
    by_cases hloc : ∃ t, LocalFTEID c a t
    · have hst : c'.byImsi.load k = if k = (c1.heap s).imsi then some s else c1.byImsi.load k := by
        obtain ⟨t, k1, k2, k3, k4⟩ := hloc
        cases he with
        | reg i t' e1 e2 e3 => simp [registerSession, addTEID, update, SyncMap.load_store]
        | fteid top i f t' e1 e2 e3 e4 =>
          simp only at k1 k3
          rw [e2] at k3
          simp only [ok.injEq] at k3
          exact absurd (k3.trans hl.symm) (e4 k1)
        | skip a e1 e2 => exact absurd (e1 k1) (by simp [k2])
        | _ => simp_all
      by_cases hk : k = (c1.heap s).imsi
      · subst hk
        rw [if_pos rfl] at hst
        exact ⟨fun _ => hst, fun hn => absurd (Or.inr ⟨hloc, hi⟩) hn⟩
      · rw [if_neg hk] at hst
        rw [hst]
        refine ⟨fun hs => ?_, fun hn => ih.2 (fun hc => hn (Or.inl hc))⟩
        rcases hs with hs | ⟨_, ht⟩
        · exact ih.1 hs
        · exact absurd (told_unique ht hi) hk
    · have hst : c'.byImsi = c1.byImsi := by
        cases he with
        | reg i t' e1 e2 e3 => exact absurd ⟨t', rfl, e1, by rw [e2, hl], e3⟩ hloc
        | _ => rfl
      rw [hst]
      exact ⟨fun hs => ih.1 (hs.resolve_right (fun hc => hloc hc.1)), fun hn => ih.2 (fun hc => hn (Or.inl hc))⟩

end Verif.V2.Conn
