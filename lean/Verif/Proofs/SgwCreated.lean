import Verif.Proofs.SgwCreate
/-
Helper lemmas for Props/Sgw.lean: the P-GW's answer on S5-C.
-/
namespace Verif.V2.Sgw
open Res Send Conn NetIP Spec IPSpec
open Pgw (H lift set read need dropIMSI drop respond getTEID deref mustTEID activateH forget Droppable fteidOf fteidOf_reads fteid_text
  mustTEID_of v4_text lift_bind set_to need_bind read_bind put_new put_update put_updateBearer put_addTEID put_reserve put_register put_drop
  put_heap put_brs put_localIf)

/-- `st` with the S5 session `s`, its bearer `b` and the bearer's remote address replaced -/
def state5 (st : State) (s b : Nat) (x : Sess) (y : Bearer) (r : Option Bytes) : State :=
  { st with s5 := Pgw.put st.s5 s b x y, r5 := fun i => if i = b then r else st.r5 i }

theorem put_self (c : Conn) (s b : Nat) : Pgw.put c s b (c.heap s) (c.brs b) = c := by
  have h1 : (fun i => if i = s then c.heap s else c.heap i) = c.heap := by funext i; split <;> simp_all
  have h2 : (fun i => if i = b then c.brs b else c.brs i) = c.brs := by funext i; split <;> simp_all
  unfold Pgw.put
  rw [h1, h2]

theorem state5_self (st : State) (s b : Nat) : state5 st s b (st.s5.heap s) (st.s5.brs b) (st.r5 b) = st := by
  have h1 : (fun i => if i = b then st.r5 b else st.r5 i) = st.r5 := by funext i; split <;> simp_all
  unfold state5
  rw [put_self, h1]

/-! ### the loop over the Bearer Context -/

/-- a child that the loop accepts -/
def KidOK (g : UInt8 → Bool) (i : IE) : Prop :=
  (i.typ = 2 → i.cause g = ok 16) ∧ (i.typ = 73 → ∃ v, i.ebi g = ok v) ∧
  (i.typ = 87 → ∃ w t f, w.length = 4 ∧ i.ipAddress = ok (ipString w) ∧ i.teid = ok t ∧ i.interfaceType = ok f) ∧
  (i.typ = 94 → ∃ v, i.chargingID g = ok v)

/-- address and port of an F-TEID's user plane -/
def uAddrOf (i : IE) : Bytes :=
  match i.ipAddress with
  | ok ip => ip ++ colon :: portU
  | _ => []

def kid (g : UInt8 → Bool) (z : Sess × Bearer × Option Bytes) (i : IE) : Sess × Bearer × Option Bytes :=
  if i.typ = 73 then (z.1, { z.2.1 with ebi := mustEBI g i }, z.2.2)
  else if i.typ = 87 then
    ({ z.1 with teids := z.1.teids.store (mustInterfaceType i) (mustTEID i) }, { z.2.1 with teidOut := mustTEID i }, some (uAddrOf i))
  else z

theorem mustEBI_of {g : UInt8 → Bool} {i : IE} {v : UInt8} (h : i.ebi g = ok v) : mustEBI g i = v := by unfold mustEBI; rw [h]
theorem mustIf_of {i : IE} {v : UInt8} (h : i.interfaceType = ok v) : mustInterfaceType i = v := by unfold mustInterfaceType; rw [h]
theorem uAddr_of {i : IE} {v : Bytes} (h : i.ipAddress = ok v) : uAddrOf i = v ++ colon :: portU := by unfold uAddrOf; rw [h]

theorem portU_plain : colon ∉ portU ∧ lbr ∉ portU ∧ rbr ∉ portU := by decide

theorem child5_eq (g : UInt8 → Bool) (st : State) (s b : Nat) (x : Sess) (y : Bearer) (r : Option Bytes) (i : IE) (h : KidOK g i) :
    child5 g s (some b) i (state5 st s b x y r) =
      (state5 st s b (kid g (x, y, r) i).1 (kid g (x, y, r) i).2.1 (kid g (x, y, r) i).2.2, [], ok ()) := by
  obtain ⟨h2, h73, h87, h94⟩ := h
  unfold child5 kid
  by_cases e2 : i.typ = 2
  · rw [if_pos e2, if_neg (by rw [e2]; decide), if_neg (by rw [e2]; decide)]
    refine (val_bind (h2 e2) _ _).trans ?_
    rfl
  by_cases e73 : i.typ = 73
  · obtain ⟨v, hv⟩ := h73 e73
    rw [if_neg e2, if_pos e73, if_pos e73, mustEBI_of hv]
    refine (val_bind hv _ _).trans ?_
    refine (val_bind (a := b) rfl _ _).trans ?_
    exact on5_eq (set_eq (put_updateBearer _ _ _ _ _ _))
  by_cases e87 : i.typ = 87
  · obtain ⟨w, t, f, hw, h1, h2, h3⟩ := h87 e87
    rw [if_neg e2, if_neg e73, if_pos e87, if_neg e73, if_pos e87, mustIf_of h3, mustTEID_of h2, uAddr_of h1]
    unfold fteidU
    rw [if_neg (by simp [e87])]
    refine (val_bind h1 _ _).trans ?_
    refine (val_bind (resolve_v4 hw portU_plain) _ _).trans ?_
    refine (put_bind _ _ _ _).trans ?_
    refine (val_bind h2 _ _).trans ?_
    refine (on5_go (c₀ := Pgw.put st.s5 s b x y) (by rfl) (set_eq (put_updateBearer _ _ _ _ _ _)) _).trans ?_
    refine (val_bind h3 _ _).trans ?_
    refine (on5_eq (set_eq (put_addTEID _ _ _ _ _ _ _))).trans ?_
    refine Prod.ext ?_ rfl
    unfold state5 with5 setAddr5
    simp only [State.mk.injEq, true_and, and_true]
    funext j
    split <;> rfl
  by_cases e94 : i.typ = 94
  · obtain ⟨v, hv⟩ := h94 e94
    rw [if_neg e2, if_neg e73, if_neg e87, if_pos e94, if_neg e73, if_neg e87]
    refine (val_bind hv _ _).trans ?_
    exact (val_bind (a := b) rfl _ _).trans rfl
  · rw [if_neg e2, if_neg e73, if_neg e87, if_neg e94, if_neg e73, if_neg e87]
    rfl

theorem children5_eq (g : UInt8 → Bool) (st : State) (s b : Nat) (l : List IE) (hl : ∀ i ∈ l, KidOK g i) (z : Sess × Bearer × Option Bytes) :
    children5 g s (some b) l (state5 st s b z.1 z.2.1 z.2.2) =
      (state5 st s b (l.foldl (kid g) z).1 (l.foldl (kid g) z).2.1 (l.foldl (kid g) z).2.2, [], ok ()) := by
  induction l generalizing z with
  | nil => rfl
  | cons i l ih =>
    unfold children5
    refine (bind_eq' (child5_eq g st s b z.1 z.2.1 z.2.2 i (hl i (by simp)))).trans ?_
    exact ih (fun j hj => hl j (by simp [hj])) _

/-- what does not change -/
theorem kids_fixed (g : UInt8 → Bool) (l : List IE) (z : Sess × Bearer × Option Bytes) :
    (l.foldl (kid g) z).1 = { z.1 with teids := (l.foldl (kid g) z).1.teids } ∧
    (l.foldl (kid g) z).2.1 = { z.2.1 with ebi := (l.foldl (kid g) z).2.1.ebi, teidOut := (l.foldl (kid g) z).2.1.teidOut } := by
  induction l generalizing z with
  | nil => exact ⟨rfl, rfl⟩
  | cons i l ih =>
    obtain ⟨h1, h2⟩ := ih (kid g z i)
    simp only [List.foldl_cons]
    have k1 : (kid g z i).1 = { z.1 with teids := (kid g z i).1.teids } := by unfold kid; split; rfl; split <;> rfl
    have k2 : (kid g z i).2.1 = { z.2.1 with ebi := (kid g z i).2.1.ebi, teidOut := (kid g z i).2.1.teidOut } := by
      unfold kid; split; rfl; split <;> rfl
    constructor
    · rw [h1]; rw [k1]
    · rw [h2]; rw [k2]

theorem kids_ebi (g : UInt8 → Bool) (l : List IE) (z : Sess × Bearer × Option Bytes) (e : UInt8) (h : ∀ i ∈ l, i.typ = 73 → i.ebi g = ok e)
    (hx : z.2.1.ebi = e ∨ ∃ i ∈ l, i.typ = 73) : (l.foldl (kid g) z).2.1.ebi = e := by
  induction l generalizing z with
  | nil =>
    rcases hx with hx | ⟨i, hi, _⟩
    · exact hx
    · cases hi
  | cons i l ih =>
    refine ih _ (fun j hj => h j (by simp [hj])) ?_
    by_cases e73 : i.typ = 73
    · left
      unfold kid
      rw [if_pos e73]
      exact mustEBI_of (h i (by simp) e73)
    · rcases hx with hx | ⟨j, hj, hj'⟩
      · left; unfold kid; rw [if_neg e73]; split <;> exact hx
      · rcases List.mem_cons.1 hj with rfl | hj
        · exact absurd hj' e73
        · exact Or.inr ⟨j, hj, hj'⟩

theorem kids_fteid (g : UInt8 → Bool) (l : List IE) (z : Sess × Bearer × Option Bytes) (f : UInt8) (t : UInt32) (w : Bytes)
    (h : ∀ i ∈ l, i.typ = 87 → i.interfaceType = ok f ∧ i.teid = ok t ∧ i.ipAddress = ok w)
    (hx : (z.1.teids.load f = some t ∧ z.2.1.teidOut = t ∧ z.2.2 = some (w ++ colon :: portU)) ∨ ∃ i ∈ l, i.typ = 87) :
    ((l.foldl (kid g) z).1.teids.load f = some t ∧ (l.foldl (kid g) z).2.1.teidOut = t ∧ (l.foldl (kid g) z).2.2 = some (w ++ colon :: portU)) ∧
    ∀ f', f' ≠ f → (l.foldl (kid g) z).1.teids.load f' = z.1.teids.load f' := by
  induction l generalizing z with
  | nil =>
    rcases hx with hx | ⟨i, hi, _⟩
    · exact ⟨hx, fun _ _ => rfl⟩
    · cases hi
  | cons i l ih =>
    have key := ih (kid g z i) (fun j hj => h j (by simp [hj]))
    by_cases e87 : i.typ = 87
    · obtain ⟨h1, h2, h3⟩ := h i (by simp) e87
      have ek : kid g z i = ({ z.1 with teids := z.1.teids.store f t }, { z.2.1 with teidOut := t }, some (w ++ colon :: portU)) := by
        unfold kid
        rw [if_neg (by rw [e87]; decide), if_pos e87, mustIf_of h1, mustTEID_of h2, uAddr_of h3]
      obtain ⟨k1, k2⟩ := key (Or.inl (by rw [ek]; simp [SyncMap.load_store]))
      refine ⟨k1, fun f' hf => (k2 f' hf).trans ?_⟩
      rw [ek]
      simp [SyncMap.load_store, hf]
    · have et : (kid g z i).1.teids = z.1.teids ∧ (kid g z i).2.1.teidOut = z.2.1.teidOut ∧ (kid g z i).2.2 = z.2.2 := by
        unfold kid
        split
        · exact ⟨rfl, rfl, rfl⟩
        · exact ⟨rfl, rfl, rfl⟩
      obtain ⟨k1, k2⟩ := key (by
        rw [et.1, et.2.1, et.2.2]
        rcases hx with hx | ⟨j, hj, hj'⟩
        · exact Or.inl hx
        · rcases List.mem_cons.1 hj with rfl | hj
          · exact absurd hj' e87
          · exact Or.inr ⟨j, hj, hj'⟩)
      refine ⟨k1, fun f' hf => (k2 f' hf).trans (by rw [et.1])⟩

/-! ### the handler -/

theorem need5_bind {β : Type} {s : Nat} {l r : List IE} {i : IE} (h : l = i :: r) (f : IE → G β) (st : State) :
    (need5 s l >>= f) st = f i st := bind_eq' (by rw [h]; rfl)

/-- the session, the bearer and its remote address after the answer -/
def settled (g : UInt8 → Bool) (st : State) (s b : Nat) (f : UInt8) (t : UInt32) (kids : List IE) : Sess × Bearer × Option Bytes :=
  kids.foldl (kid g) ({ st.s5.heap s with teids := (st.s5.heap s).teids.store f t }, st.s5.brs b, st.r5 b)

/-- the state after the P-GW's answer -/
def afterCreated (g : UInt8 → Bool) (st : State) (s b s11 : Nat) (f : UInt8) (t : UInt32) (kids : List IE) (m : Message) : State :=
  let z := settled g st s b f t kids
  { state5 st s b { z.1 with active := true } z.2.1 z.2.2 with q11 := fun i => if i = s11 then st.q11 i ++ [m] else st.q11 i }

theorem created_step {g : UInt8 → Bool} {st : State} {a : Addr} {m : Message} {s b s11 : Nat} (hs : getSessionByTEID st.s5 m.hdr.teidAcc a = ok s)
    (hsc : m.schema = Tab.createSessionResponse) (hc : ∃ i r, m.fields 0 = i :: r ∧ i.cause g = ok 16) (hb : getDefaultBearer st.s5 s = some b)
    (hp : ∃ i r x, m.fields 6 = i :: r ∧ i.ipAddress = ok x) {f : UInt8} {t : UInt32}
    (hf : ∃ i r, m.fields 5 = i :: r ∧ i.interfaceType = ok f ∧ i.teid = ok t) {kids : List IE} (hk : ∃ i r, m.fields 11 = i :: r ∧ i.children = kids)
    (hkids : ∀ i ∈ kids, KidOK g i) (hi : (st.s5.heap s).imsi ≠ []) (h11 : getSessionByIMSI st.s11 (st.s5.heap s).imsi = ok s11)
    (hq : (st.q11 s11).length < 1000) :
    handleCreated g a m st = (afterCreated g st s b s11 f t kids m, [], ok ()) := by
  obtain ⟨i0, r0, e0, hc⟩ := hc
  obtain ⟨i6, r6, x, e6, hp⟩ := hp
  obtain ⟨i5, r5, e5, hf1, hf2⟩ := hf
  obtain ⟨i11, r11, e11, hk⟩ := hk
  unfold handleCreated
  refine (ask_go hs _).trans ?_
  refine (val_bind rfl _ _).trans ?_
  rw [if_neg (by rw [hsc]; decide)]
  refine (need5_bind e0 _ _).trans ?_
  refine (val_bind hc _ _).trans ?_
  refine (ask_go hb _).trans ?_
  refine (need5_bind e6 _ _).trans ?_
  refine (val_bind hp _ _).trans ?_
  refine (val_bind (a := b) rfl _ _).trans ?_
  refine (need5_bind e5 _ _).trans ?_
  refine (val_bind hf1 _ _).trans ?_
  refine (val_bind hf2 _ _).trans ?_
  have ea : addTEID st.s5 s f t = Pgw.put st.s5 s b { st.s5.heap s with teids := (st.s5.heap s).teids.store f t } (st.s5.brs b) := by
    conv => lhs; rw [← put_self st.s5 s b]
    rw [put_addTEID]
  refine (on5_go (st := st) rfl (set_eq ea) _).trans ?_
  refine (need5_bind e11 _ _).trans ?_
  have est : with5 st (Pgw.put st.s5 s b { st.s5.heap s with teids := (st.s5.heap s).teids.store f t } (st.s5.brs b)) =
      state5 st s b { st.s5.heap s with teids := (st.s5.heap s).teids.store f t } (st.s5.brs b) (st.r5 b) := by
    unfold with5 state5
    simp only [State.mk.injEq, true_and, and_true]
    funext j
    split
    · rename_i h; rw [h]
    · rfl
  rw [est, hk]
  refine (bind_eq' (children5_eq g st s b kids hkids
    ({ st.s5.heap s with teids := (st.s5.heap s).teids.store f t }, st.s5.brs b, st.r5 b))).trans ?_
  change _ = (afterCreated g st s b s11 f t kids m, [], ok ())
  unfold afterCreated
  rw [show List.foldl (kid g) ({ st.s5.heap s with teids := (st.s5.heap s).teids.store f t }, st.s5.brs b, st.r5 b) kids = settled g st s b f t kids from rfl]
  have hz := (kids_fixed g kids ({ st.s5.heap s with teids := (st.s5.heap s).teids.store f t }, st.s5.brs b, st.r5 b)).1
  change (settled g st s b f t kids).1 = _ at hz
  have himsi : (settled g st s b f t kids).1.imsi = (st.s5.heap s).imsi := by rw [hz]
  generalize settled g st s b f t kids = z at himsi ⊢
  have hact : orDrop s (activateH s) (Pgw.put st.s5 s b z.1 z.2.1) = (Pgw.put st.s5 s b { z.1 with active := true } z.2.1, [], ok ()) := by
    unfold orDrop activateH
    rw [put_heap, if_neg (by rw [himsi]; exact hi), Pgw.put_activate _ _ _ _ _ (by rw [himsi]; exact hi)]
  refine (on5_go (st := state5 st s b z.1 z.2.1 z.2.2) rfl hact _).trans ?_
  refine (ask_go (a := (st.s5.heap s).imsi) ?_ _).trans ?_
  · show (if s = s then { z.1 with active := true } else st.s5.heap s : Sess).imsi = _
    rw [if_pos rfl]; exact himsi
  refine (ask_go (a := ok s11) h11 _).trans ?_
  refine (val_bind rfl _ _).trans ?_
  unfold pass11
  exact if_pos hq

end Verif.V2.Sgw
