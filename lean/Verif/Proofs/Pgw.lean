import Verif.Model.Pgw
import Verif.Props.Dialogue
import Verif.Props.IPText
/-
Helper lemmas for Props/Pgw.lean: the pieces of the handlers of Model/Pgw.lean on a connection `put c s b x y`, that is `c` with the
session object `s` and the bearer object `b` having the values `x` and `y`.
-/
namespace Verif.V2.Pgw
open Res Send Conn NetIP Spec

variable {α β : Type}

theorem bind_def (x : H α) (f : α → H β) : (x >>= f) = H.bind x f := rfl
theorem pure_def (a : α) (c : Conn) : (pure a : H α) c = (c, [], ok a) := rfl

theorem bind_eq {x : H α} {f : α → H β} {c c' : Conn} {ev : List Ev} {a : α} (h : x c = (c', ev, ok a)) :
    (x >>= f) c = ((f a c').1, ev ++ (f a c').2.1, (f a c').2.2) := by
  rw [bind_def]; unfold H.bind; rw [h]

theorem bind_eq' {x : H α} {f : α → H β} {c c' : Conn} {a : α} (h : x c = (c', [], ok a)) : (x >>= f) c = f a c' := by
  rw [bind_eq h]; rfl

theorem lift_bind {r : Res α} {a : α} (h : r = ok a) (f : α → H β) (c : Conn) : (lift r >>= f) c = f a c :=
  bind_eq' (by rw [h]; rfl)
theorem set_bind (h : Conn → Conn) (f : Unit → H β) (c : Conn) : (set h >>= f) c = f () (h c) := bind_eq' rfl
theorem set_to {h : Conn → Conn} {c c' : Conn} (e : h c = c') (f : Unit → H β) : (set h >>= f) c = f () c' := by
  rw [set_bind, e]
theorem read_bind (h : Conn → α) (f : α → H β) (c : Conn) : (read h >>= f) c = f (h c) c := bind_eq' rfl
theorem need_bind {l r : List IE} {i : IE} (h : l = i :: r) (f : IE → H β) (c : Conn) : (need l >>= f) c = f i c :=
  bind_eq' (by rw [h]; rfl)

theorem bind_inv {x : H α} {f : α → H β} {c c' : Conn} {ev : List Ev} {r : β} (h : (x >>= f) c = (c', ev, ok r)) :
    ∃ c1 e1 a e2, x c = (c1, e1, ok a) ∧ f a c1 = (c', e2, ok r) ∧ ev = e1 ++ e2 := by
  rw [bind_def] at h
  unfold H.bind at h
  split at h
  · rename_i c1 e1 a hx
    simp only [Prod.mk.injEq] at h
    exact ⟨c1, e1, a, _, hx, by rw [← h.1, ← h.2.2], h.2.1.symm⟩
  all_goals simp at h

/-- `c` with the session object `s` and the bearer object `b` replaced -/
def put (c : Conn) (s b : Nat) (x : Sess) (y : Bearer) : Conn :=
  { c with
    heap := fun i => if i = s then x else c.heap i
    brs := fun i => if i = b then y else c.brs i }

theorem put_new (c : Conn) (s b : Nat) (a : Addr) :
    newSession c s b a = put c s b ⟨[], a, false, [], [("default", some b)], [], [], [], [], 0⟩ {} := rfl
@[simp] theorem put_heap (c : Conn) (s b : Nat) (x : Sess) (y : Bearer) : (put c s b x y).heap s = x := by simp [put]
@[simp] theorem put_brs (c : Conn) (s b : Nat) (x : Sess) (y : Bearer) : (put c s b x y).brs b = y := by simp [put]
@[simp] theorem put_localIf (c : Conn) (s b : Nat) (x : Sess) (y : Bearer) : (put c s b x y).localIf = c.localIf := rfl
theorem put_heap_ne (c : Conn) {s i : Nat} (b : Nat) (x : Sess) (y : Bearer) (h : i ≠ s) :
    (put c s b x y).heap i = c.heap i := by simp [put, h]

@[simp] theorem put_update (c : Conn) (s b : Nat) (x : Sess) (y : Bearer) (f : Sess → Sess) :
    update (put c s b x y) s f = put c s b (f x) y := by
  simp only [update, put, Conn.mk.injEq, true_and, and_true]
  funext i
  by_cases h : i = s <;> simp [h]
@[simp] theorem put_updateBearer (c : Conn) (s b : Nat) (x : Sess) (y : Bearer) (f : Bearer → Bearer) :
    updateBearer (put c s b x y) b f = put c s b x (f y) := by
  simp only [updateBearer, put, Conn.mk.injEq, true_and, and_true]
  funext i
  by_cases h : i = b <;> simp [h]
@[simp] theorem put_addTEID (c : Conn) (s b : Nat) (x : Sess) (y : Bearer) (f : UInt8) (t : UInt32) :
    addTEID (put c s b x y) s f t = put c s b { x with teids := x.teids.store f t } y := put_update ..
@[simp] theorem put_reserve (c : Conn) (s b : Nat) (x : Sess) (y : Bearer) (k : UInt32) :
    reserve (put c s b x y) k = put (reserve c k) s b x y := by
  unfold reserve; split <;> rfl
theorem put_activate (c : Conn) (s b : Nat) (x : Sess) (y : Bearer) (h : x.imsi ≠ []) :
    activate (put c s b x y) s = put c s b { x with active := true } y := by
  unfold activate; rw [put_heap, if_neg h, put_update]
theorem put_register (c : Conn) (s b : Nat) (x : Sess) (y : Bearer) (t : UInt32) :
    registerSession (put c s b x y) t s =
      put { c with byTeid := c.byTeid.store t (some s), byImsi := c.byImsi.store x.imsi s } s b
        { x with teids := x.teids.store c.localIf t } y := by
  unfold registerSession
  rw [put_heap]
  exact put_addTEID { c with byTeid := c.byTeid.store t (some s), byImsi := c.byImsi.store x.imsi s } s b x y c.localIf t

/-- what RemoveSessionByIMSI leaves when the session found has a TEID for the own interface -/
def forget (c : Conn) (imsi : Bytes) : Conn :=
  match c.byImsi.load imsi with
  | none => c
  | some s =>
    match (c.heap s).teids.load c.localIf with
    | none => c
    | some t => { c with byImsi := c.byImsi.delete (c.heap s).imsi, byTeid := c.byTeid.delete t }

/-- the session registered for the IMSI is another object and has a TEID for the own interface -/
def Droppable (c : Conn) (s : Nat) (imsi : Bytes) : Prop :=
  ∀ s₀, c.byImsi.load imsi = some s₀ → s₀ ≠ s ∧ ∃ t, (c.heap s₀).teids.load c.localIf = some t

theorem put_drop (c : Conn) (s b : Nat) (x : Sess) (y : Bearer) (imsi : Bytes) (h : Droppable c s imsi) :
    dropIMSI imsi (put c s b x y) = (put (forget c imsi) s b x y, [], ok ()) := by
  unfold dropIMSI removeSessionByIMSI forget
  have e : (put c s b x y).byImsi.load imsi = c.byImsi.load imsi := rfl
  rw [e]
  cases hl : c.byImsi.load imsi with
  | none => rfl
  | some s₀ =>
    obtain ⟨h1, t, h2⟩ := h s₀ hl
    simp only [removeSession, put_heap_ne c b x y h1, put_localIf, h2]
    rfl

theorem forget_fixed (c : Conn) (imsi : Bytes) : (forget c imsi).heap = c.heap ∧ (forget c imsi).brs = c.brs ∧
    (forget c imsi).localIf = c.localIf ∧ (forget c imsi).validation = c.validation ∧ (forget c imsi).handlers = c.handlers ∧
    (forget c imsi).restart = c.restart := by
  unfold forget
  split
  · exact ⟨rfl, rfl, rfl, rfl, rfl, rfl⟩
  · split <;> exact ⟨rfl, rfl, rfl, rfl, rfl, rfl⟩

/-! ### the loop over the Bearer Context -/

/-- a child that the loop can read -/
def ChildOK (g : UInt8 → Bool) (i : IE) : Prop :=
  (i.typ = 73 → ∃ v, i.ebi g = ok v) ∧
  (i.typ = 87 → (∃ it, i.interfaceType = ok it) ∧ (∃ t, i.teid = ok t) ∧ ∃ ip, i.ipAddress = ok ip)

/-- what the loop leaves in the session's TEIDs -/
def kidTeids (cs : List IE) (T : SyncMap UInt8 UInt32) : SyncMap UInt8 UInt32 :=
  cs.foldl (fun T i => match i.typ == 87, i.interfaceType, i.teid with
    | true, ok f, ok t => T.store f t
    | _, _, _ => T) T
/-- what it leaves in the bearer's EBI -/
def kidEBI (g : UInt8 → Bool) (cs : List IE) (e : UInt8) : UInt8 :=
  cs.foldl (fun e i => match i.typ == 73, i.ebi g with
    | true, ok v => v
    | _, _ => e) e

theorem child_put (g : UInt8 → Bool) (c : Conn) (s b : Nat) (x : Sess) (y : Bearer) (i : IE) (h : ChildOK g i) :
    child g s b i (put c s b x y) =
      (put c s b { x with teids := kidTeids [i] x.teids } { y with ebi := kidEBI g [i] y.ebi }, [], ok ()) := by
  unfold child
  by_cases h1 : i.typ = 73
  · obtain ⟨v, hv⟩ := h.1 h1
    rw [if_pos h1, lift_bind hv]
    simp [set, kidTeids, kidEBI, h1, hv]
  · rw [if_neg h1]
    by_cases h2 : i.typ = 87
    · obtain ⟨⟨it, hi⟩, ⟨t, ht⟩, ip, hp⟩ := h.2 h2
      rw [if_pos h2, lift_bind hi, lift_bind ht, set_bind, lift_bind hp]
      simp [pure_def, kidTeids, kidEBI, h2, hi, ht]
    · rw [if_neg h2]
      simp [pure_def, kidTeids, kidEBI, h1, h2]

theorem children_put (g : UInt8 → Bool) (c : Conn) (s b : Nat) (cs : List IE) (h : ∀ i ∈ cs, ChildOK g i) (x : Sess) (y : Bearer) :
    children g s b cs (put c s b x y) =
      (put c s b { x with teids := kidTeids cs x.teids } { y with ebi := kidEBI g cs y.ebi }, [], ok ()) := by
  induction cs generalizing x y with
  | nil => rfl
  | cons i l ih =>
    unfold children
    rw [bind_eq' (child_put g c s b x y i (h i (by simp))), ih (fun j hj => h j (by simp [hj]))]
    rfl

theorem kidTeids_keeps (cs : List IE) (T : SyncMap UInt8 UInt32) (f : UInt8)
    (h : ∀ i ∈ cs, i.typ = 87 → i.interfaceType ≠ ok f) : (kidTeids cs T).load f = T.load f := by
  induction cs generalizing T with
  | nil => rfl
  | cons i l ih =>
    show (kidTeids l _).load f = _
    rw [ih _ (fun j hj => h j (by simp [hj]))]
    beta_reduce
    split
    · rename_i f' t hty hi _
      rw [SyncMap.load_store, if_neg]
      rintro rfl
      exact h i (by simp) (by simpa using hty) hi
    · rfl

theorem kidTeids_some (cs : List IE) (T : SyncMap UInt8 UInt32) (f : UInt8) (h : ∃ t, T.load f = some t) :
    ∃ t, (kidTeids cs T).load f = some t := by
  induction cs generalizing T with
  | nil => exact h
  | cons i l ih =>
    refine ih _ ?_
    beta_reduce
    split
    · rw [SyncMap.load_store]
      split
      · exact ⟨_, rfl⟩
      · exact h
    · exact h

theorem kidEBI_eq (g : UInt8 → Bool) (cs : List IE) (e ebi : UInt8) (h : ∀ i ∈ cs, i.typ = 73 → i.ebi g = ok ebi)
    (hx : e = ebi ∨ ∃ i ∈ cs, i.typ = 73) : kidEBI g cs e = ebi := by
  induction cs generalizing e with
  | nil => simpa [kidEBI] using hx
  | cons i l ih =>
    show kidEBI g l _ = _
    refine ih _ (fun j hj => h j (by simp [hj])) ?_
    by_cases h1 : i.typ = 73
    · left; simp [h1, h i (by simp) h1]
    · rcases hx with hx | ⟨j, hj, hj2⟩
      · left; simp [h1, hx]
      · right
        rcases List.mem_cons.1 hj with rfl | hj
        · exact absurd hj2 h1
        · exact ⟨j, hj, hj2⟩

/-! ### reading the request -/

/-- the values in the request, and the elements they are in -/
structure Vals where
  imsi : Bytes
  msisdn : Bytes
  imei : Bytes
  apn : Bytes
  plmn : Bytes × Bytes
  rat : UInt8
  teid : UInt32
  kids : List IE
  ip : Bytes

structure Vals.In (g : UInt8 → Bool) (v : Vals) (m : Message) : Prop where
  imsi : ∃ i r, m.fields 0 = i :: r ∧ i.imsi = ok v.imsi
  msisdn : ∃ i r, m.fields 1 = i :: r ∧ i.msisdn = ok v.msisdn
  imei : ∃ i r, m.fields 2 = i :: r ∧ i.mei = ok v.imei
  apn : ∃ i r, m.fields 9 = i :: r ∧ apnOf g i = ok v.apn
  plmn : ∃ i r, m.fields 4 = i :: r ∧ i.plmn = ok v.plmn
  rat : ∃ i r, m.fields 5 = i :: r ∧ ratOf g i = ok v.rat
  teid : ∃ i r, m.fields 7 = i :: r ∧ i.teid = ok v.teid
  kids : ∃ i r, m.fields 18 = i :: r ∧ i.children = v.kids ∧ ∀ j ∈ v.kids, ChildOK g j
  ip : ∃ i r, m.fields 12 = i :: r ∧ i.ipAddress = ok v.ip

/-- the session and the bearer made from them -/
def Vals.sess (v : Vals) (a : Addr) (b : Nat) : Sess :=
  ⟨v.imsi, a, false, kidTeids v.kids (SyncMap.store [] 6 v.teid), [("default", some b)], v.msisdn, v.imei, v.plmn.1, v.plmn.2, v.rat⟩
def Vals.bearer (g : UInt8 → Bool) (v : Vals) : Bearer := { ebi := kidEBI g v.kids 0, apn := v.apn }

theorem read_put (g : UInt8 → Bool) (c : Conn) (s b : Nat) (a : Addr) (m : Message) (v : Vals) (h : v.In g m)
    (hd : Droppable c s v.imsi) :
    readRequest g s b a m c = (put (forget c v.imsi) s b (v.sess a b) (v.bearer g), [], ok v.ip) := by
  obtain ⟨⟨i0, r0, e0, f0⟩, ⟨i1, r1, e1, f1⟩, ⟨i2, r2, e2, f2⟩, ⟨i9, r9, e9, f9⟩, ⟨i4, r4, e4, f4⟩, ⟨i5, r5, e5, f5⟩,
    ⟨i7, r7, e7, f7⟩, ⟨i8, r8, e8, f8, k8⟩, ⟨i3, r3, e3, f3⟩⟩ := h
  unfold readRequest
  refine (set_to (put_new _ _ _ _) _).trans ?_
  refine (need_bind e0 _ _).trans ?_
  refine (lift_bind f0 _ _).trans ?_
  refine (bind_eq' (put_drop _ _ _ _ _ _ hd)).trans ?_
  refine (set_to (put_update _ _ _ _ _ _) _).trans ?_
  refine (need_bind e1 _ _).trans ?_
  refine (lift_bind f1 _ _).trans ?_
  refine (set_to (put_update _ _ _ _ _ _) _).trans ?_
  refine (need_bind e2 _ _).trans ?_
  refine (lift_bind f2 _ _).trans ?_
  refine (set_to (put_update _ _ _ _ _ _) _).trans ?_
  refine (need_bind e9 _ _).trans ?_
  refine (lift_bind f9 _ _).trans ?_
  refine (set_to (put_updateBearer _ _ _ _ _ _) _).trans ?_
  refine (need_bind e4 _ _).trans ?_
  refine (lift_bind f4 _ _).trans ?_
  refine (set_to (put_update _ _ _ _ _ _) _).trans ?_
  refine (lift_bind f4 _ _).trans ?_
  refine (set_to (put_update _ _ _ _ _ _) _).trans ?_
  refine (need_bind e5 _ _).trans ?_
  refine (lift_bind f5 _ _).trans ?_
  refine (set_to (put_update _ _ _ _ _ _) _).trans ?_
  refine (need_bind e7 _ _).trans ?_
  refine (lift_bind f7 _ _).trans ?_
  refine (set_to (put_addTEID _ _ _ _ _ _ _) _).trans ?_
  refine (need_bind e8 _ _).trans ?_
  refine (bind_eq' (children_put g _ _ _ _ (f8.symm ▸ k8) _ _)).trans ?_
  refine (need_bind e3 _ _).trans ?_
  simp only [Vals.sess, Vals.bearer, lift, f3, f8]

/-! ### pieces that send nothing and return -/

/-- on every connection with `P` the piece sends nothing, does not crash, and leaves `P` -/
def Quiet (P : Conn → Prop) (x : H α) : Prop := ∀ c, P c → (x c).2.1 = [] ∧ Returns (x c).2.2 ∧ P (x c).1

theorem Quiet.bind {P : Conn → Prop} {x : H α} {f : α → H β} (hx : Quiet P x) (hf : ∀ a, Quiet P (f a)) : Quiet P (x >>= f) := by
  intro c hc
  obtain ⟨h1, h2, h3⟩ := hx c hc
  rw [bind_def]
  unfold H.bind
  split
  · rename_i c' ev a hx
    rw [hx] at h1 h3
    obtain ⟨k1, k2, k3⟩ := hf a c' h3
    refine ⟨?_, k2, k3⟩
    simp only at h1
    simp [h1, k1]
  · rename_i c' ev e hx
    rw [hx] at h1 h3
    exact ⟨h1, by simp, h3⟩
  · rename_i hx; rw [hx] at h2; exact absurd rfl h2.1
  · rename_i hx; rw [hx] at h2; exact absurd rfl h2.2

theorem Quiet.lift {P : Conn → Prop} {r : Res α} (h : Returns r) : Quiet P (lift r) := fun _ hc => ⟨rfl, h, hc⟩
theorem Quiet.set {P : Conn → Prop} {f : Conn → Conn} (h : ∀ c, P c → P (f c)) : Quiet P (set f) := fun c hc => ⟨rfl, by simp [Pgw.set], h c hc⟩
theorem Quiet.read {P : Conn → Prop} {f : Conn → α} : Quiet P (read f) := fun _ hc => ⟨rfl, by simp [Pgw.read], hc⟩
theorem Quiet.need {P : Conn → Prop} (l : List IE) : Quiet P (need l) := by
  cases l <;> exact Quiet.lift (by simp)
theorem Quiet.pure {P : Conn → Prop} (a : α) : Quiet P (pure a : H α) := fun _ hc => ⟨rfl, by simp [pure_def], hc⟩

/-! ### only complete requests are read -/

theorem lift_inv {r : Res α} {c c' : Conn} {ev : List Ev} {a : α} (h : lift r c = (c', ev, ok a)) : r = ok a := by
  unfold lift at h; simp only [Prod.mk.injEq] at h; exact h.2.2
theorem need_inv {l : List IE} {c c' : Conn} {ev : List Ev} {i : IE} (h : need l c = (c', ev, ok i)) : ∃ r, l = i :: r := by
  cases l with
  | nil => have := lift_inv h; cases this
  | cons j r => have := lift_inv h; simp at this; exact ⟨r, by rw [this]⟩

theorem children_inv (g : UInt8 → Bool) (s b : Nat) (cs : List IE) (c c' : Conn) (ev : List Ev)
    (h : children g s b cs c = (c', ev, ok ())) : ∀ i ∈ cs, ChildOK g i := by
  induction cs generalizing c ev with
  | nil => simp
  | cons i l ih =>
    unfold children at h
    obtain ⟨c1, e1, _, e2, h1, h2, _⟩ := bind_inv h
    intro j hj
    rcases List.mem_cons.1 hj with rfl | hj
    · unfold child at h1
      split at h1
      · rename_i ht
        obtain ⟨_, _, v, _, k1, _⟩ := bind_inv h1
        exact ⟨fun _ => ⟨v, lift_inv k1⟩, fun h => by rw [ht] at h; cases h⟩
      · split at h1
        · rename_i ht
          obtain ⟨_, _, it, _, k1, h1, _⟩ := bind_inv h1
          obtain ⟨_, _, t, _, k2, h1, _⟩ := bind_inv h1
          obtain ⟨_, _, _, _, _, h1, _⟩ := bind_inv h1
          obtain ⟨_, _, ip, _, k3, _⟩ := bind_inv h1
          exact ⟨fun h => (by rw [ht] at h; cases h), fun _ => ⟨⟨it, lift_inv k1⟩, ⟨t, lift_inv k2⟩, ip, lift_inv k3⟩⟩
        · rename_i n1 n2
          exact ⟨fun h => absurd h n1, fun h => absurd h n2⟩
    · exact ih c1 e2 h2 j hj

theorem read_inv (g : UInt8 → Bool) (s b : Nat) (a : Addr) (m : Message) (c c' : Conn) (ev : List Ev) (ip : Bytes)
    (h : readRequest g s b a m c = (c', ev, ok ip)) : ∃ v : Vals, v.In g m ∧ v.ip = ip := by
  unfold readRequest at h
  obtain ⟨_, _, _, _, _, h, _⟩ := bind_inv h
  obtain ⟨_, _, i0, _, n0, h, _⟩ := bind_inv h
  obtain ⟨_, _, imsi, _, l0, h, _⟩ := bind_inv h
  obtain ⟨_, _, _, _, _, h, _⟩ := bind_inv h
  obtain ⟨_, _, _, _, _, h, _⟩ := bind_inv h
  obtain ⟨_, _, i1, _, n1, h, _⟩ := bind_inv h
  obtain ⟨_, _, msisdn, _, l1, h, _⟩ := bind_inv h
  obtain ⟨_, _, _, _, _, h, _⟩ := bind_inv h
  obtain ⟨_, _, i2, _, n2, h, _⟩ := bind_inv h
  obtain ⟨_, _, imei, _, l2, h, _⟩ := bind_inv h
  obtain ⟨_, _, _, _, _, h, _⟩ := bind_inv h
  obtain ⟨_, _, i9, _, n9, h, _⟩ := bind_inv h
  obtain ⟨_, _, apn, _, l9, h, _⟩ := bind_inv h
  obtain ⟨_, _, _, _, _, h, _⟩ := bind_inv h
  obtain ⟨_, _, i4, _, n4, h, _⟩ := bind_inv h
  obtain ⟨_, _, p, _, l4, h, _⟩ := bind_inv h
  obtain ⟨_, _, _, _, _, h, _⟩ := bind_inv h
  obtain ⟨_, _, _, _, _, h, _⟩ := bind_inv h
  obtain ⟨_, _, _, _, _, h, _⟩ := bind_inv h
  obtain ⟨_, _, i5, _, n5, h, _⟩ := bind_inv h
  obtain ⟨_, _, rat, _, l5, h, _⟩ := bind_inv h
  obtain ⟨_, _, _, _, _, h, _⟩ := bind_inv h
  obtain ⟨_, _, i7, _, n7, h, _⟩ := bind_inv h
  obtain ⟨_, _, t, _, l7, h, _⟩ := bind_inv h
  obtain ⟨_, _, _, _, _, h, _⟩ := bind_inv h
  obtain ⟨_, _, i8, _, n8, h, _⟩ := bind_inv h
  obtain ⟨_, _, _, _, l8, h, _⟩ := bind_inv h
  obtain ⟨_, _, i3, _, n3, h, _⟩ := bind_inv h
  refine ⟨⟨imsi, msisdn, imei, apn, p, rat, t, i8.children, ip⟩, ⟨?_, ?_, ?_, ?_, ?_, ?_, ?_, ?_, ?_⟩, rfl⟩
  · obtain ⟨r, hr⟩ := need_inv n0; exact ⟨_, r, hr, lift_inv l0⟩
  · obtain ⟨r, hr⟩ := need_inv n1; exact ⟨_, r, hr, lift_inv l1⟩
  · obtain ⟨r, hr⟩ := need_inv n2; exact ⟨_, r, hr, lift_inv l2⟩
  · obtain ⟨r, hr⟩ := need_inv n9; exact ⟨_, r, hr, lift_inv l9⟩
  · obtain ⟨r, hr⟩ := need_inv n4; exact ⟨_, r, hr, lift_inv l4⟩
  · obtain ⟨r, hr⟩ := need_inv n5; exact ⟨_, r, hr, lift_inv l5⟩
  · obtain ⟨r, hr⟩ := need_inv n7; exact ⟨_, r, hr, lift_inv l7⟩
  · obtain ⟨r, hr⟩ := need_inv n8; exact ⟨_, r, hr, rfl, children_inv g s b _ _ _ _ l8⟩
  · obtain ⟨r, hr⟩ := need_inv n3; exact ⟨_, r, hr, lift_inv h⟩

/-! ### reading always returns -/

/-- the connection is `c₀` but for the objects `s` and `b` -/
def Over (c₀ : Conn) (s b : Nat) (c : Conn) : Prop := ∃ x y, c = put c₀ s b x y

theorem over_update {c₀ c : Conn} {s b : Nat} (f : Sess → Sess) (h : Over c₀ s b c) : Over c₀ s b (update c s f) := by
  obtain ⟨x, y, rfl⟩ := h; exact ⟨_, _, put_update ..⟩
theorem over_bearer {c₀ c : Conn} {s b : Nat} (f : Bearer → Bearer) (h : Over c₀ s b c) : Over c₀ s b (updateBearer c b f) := by
  obtain ⟨x, y, rfl⟩ := h; exact ⟨_, _, put_updateBearer ..⟩
theorem over_teid {c₀ c : Conn} {s b : Nat} (f : UInt8) (t : UInt32) (h : Over c₀ s b c) : Over c₀ s b (addTEID c s f t) :=
  over_update _ h

theorem ipAddress_returns (i : IE) : Returns i.ipAddress := by
  unfold IE.ipAddress
  exact returns_bind (C48_addr i).2.2.2.2.2.2.2.2.2.1 (fun _ _ => by simp)

theorem child_quiet (g : UInt8 → Bool) (c₀ : Conn) (s b : Nat) (i : IE) : Quiet (Over c₀ s b) (child g s b i) := by
  unfold child
  split
  · exact Quiet.bind (Quiet.lift (C48_plain g i ⟨"", 0, []⟩).2.2.2.2.2.2.1) fun _ => Quiet.set fun _ h => over_bearer _ h
  · split
    · exact Quiet.bind (Quiet.lift (C48_addr i).2.2.2.1) fun _ => Quiet.bind (Quiet.lift (C48_addr i).2.2.2.2.2.1) fun _ =>
        Quiet.bind (Quiet.set fun _ h => over_teid _ _ h) fun _ => Quiet.bind (Quiet.lift (ipAddress_returns i)) fun _ => Quiet.pure _
    · exact Quiet.pure _

theorem children_quiet (g : UInt8 → Bool) (c₀ : Conn) (s b : Nat) (cs : List IE) : Quiet (Over c₀ s b) (children g s b cs) := by
  induction cs with
  | nil => exact Quiet.pure _
  | cons i l ih => unfold children; exact Quiet.bind (child_quiet g c₀ s b i) fun _ => ih

/-- reading the request, behind the removal of the older session of the IMSI -/
theorem read_quiet (g : UInt8 → Bool) (c : Conn) (s b : Nat) (a : Addr) (m : Message) :
    (∀ i r imsi, m.fields 0 = i :: r → i.imsi = ok imsi → Droppable c s imsi →
      (readRequest g s b a m c).2.1 = [] ∧ Returns (readRequest g s b a m c).2.2 ∧
      Over (forget c imsi) s b (readRequest g s b a m c).1) ∧
    ((∀ i r imsi, m.fields 0 = i :: r → i.imsi ≠ ok imsi) →
      (readRequest g s b a m c).2.1 = [] ∧ (∃ e, (readRequest g s b a m c).2.2 = err e) ∧
      Over c s b (readRequest g s b a m c).1) := by
  unfold readRequest
  refine ⟨?_, ?_⟩
  · intro i r imsi e0 f0 hd
    rw [show ∀ f : Unit → H Bytes, (set (fun c => newSession c s b a) >>= f) c = f () _ from fun f => set_to (put_new c s b a) f,
      need_bind e0, lift_bind f0, bind_eq' (put_drop _ _ _ _ _ _ hd)]
    refine (?_ : Quiet (Over (forget c imsi) s b) _) _ ⟨_, _, rfl⟩
    have up := fun f => Quiet.set (P := Over (forget c imsi) s b) (f := fun c => update c s f) fun _ h => over_update f h
    have ub := fun f => Quiet.set (P := Over (forget c imsi) s b) (f := fun c => updateBearer c b f) fun _ h => over_bearer f h
    refine (up _).bind fun _ => ?_
    refine (Quiet.need _).bind fun i => (Quiet.lift (C48_identity i).2.1).bind fun _ => (up _).bind fun _ => ?_
    refine (Quiet.need _).bind fun i => (Quiet.lift (C48_identity i).2.2).bind fun _ => (up _).bind fun _ => ?_
    refine (Quiet.need _).bind fun i => (Quiet.lift (C48_plain g i _).2.2.2.2.1).bind fun _ => (ub _).bind fun _ => ?_
    refine (Quiet.need _).bind fun i => (Quiet.lift (C48_uli i).2.2).bind fun _ => (up _).bind fun _ => ?_
    refine (Quiet.lift (C48_uli i).2.2).bind fun _ => (up _).bind fun _ => ?_
    refine (Quiet.need _).bind fun i => (Quiet.lift (C48_plain g i _).1).bind fun _ => (up _).bind fun _ => ?_
    refine (Quiet.need _).bind fun i => (Quiet.lift (C48_addr i).2.2.2.2.2.1).bind fun _ =>
      (Quiet.set fun _ h => over_teid _ _ h).bind fun _ => ?_
    refine (Quiet.need _).bind fun i => (children_quiet g _ s b _).bind fun _ => ?_
    exact (Quiet.need _).bind fun i => Quiet.lift (ipAddress_returns i)
  · intro hn
    rw [show ∀ f : Unit → H Bytes, (set (fun c => newSession c s b a) >>= f) c = f () _ from fun f => set_to (put_new c s b a) f]
    cases e0 : m.fields 0 with
    | nil => exact ⟨rfl, ⟨_, rfl⟩, ⟨_, _, rfl⟩⟩
    | cons i r =>
      rw [need_bind rfl]
      have hr := (C48_identity i).1
      cases f0 : i.imsi with
      | ok v => exact absurd f0 (hn i r v e0)
      | err e => exact ⟨rfl, ⟨_, rfl⟩, ⟨_, _, rfl⟩⟩
      | panic => rw [f0] at hr; exact absurd rfl hr.1
      | diverge => rw [f0] at hr; exact absurd rfl hr.2

end Verif.V2.Pgw
