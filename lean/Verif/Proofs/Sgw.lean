import Verif.Model.Sgw
import Verif.Props.Pgw
/-
Helper lemmas for Props/Sgw.lean: the monad of Model/Sgw.lean, reading a Create Session Request on S11, and the request the S-GW makes
from it on S5.
-/
namespace Verif.V2.Sgw
open Res Send Conn NetIP Spec IPSpec
open Pgw (H lift set read need dropIMSI drop respond getTEID deref mustTEID activateH forget Droppable fteidOf fteidOf_reads fteid_text
  mustTEID_of v4_text lift_bind set_to need_bind read_bind put_new put_update put_updateBearer put_addTEID put_reserve put_register put_drop
  put_heap put_brs put_localIf)

variable {α β : Type}

/-! ### the monad -/

theorem bind_def (x : G α) (f : α → G β) : (x >>= f) = G.bind x f := rfl
theorem pure_def (a : α) (st : State) : (pure a : G α) st = (st, [], ok a) := rfl

theorem bind_eq {x : G α} {f : α → G β} {st st' : State} {ev : List (Port × Ev)} {a : α} (h : x st = (st', ev, ok a)) :
    (x >>= f) st = ((f a st').1, ev ++ (f a st').2.1, (f a st').2.2) := by
  rw [bind_def]; unfold G.bind; rw [h]
theorem bind_eq' {x : G α} {f : α → G β} {st st' : State} {a : α} (h : x st = (st', [], ok a)) : (x >>= f) st = f a st' := by
  rw [bind_eq h]; rfl
theorem bind_err {x : G α} {f : α → G β} {st st' : State} {ev : List (Port × Ev)} {e : Err} (h : x st = (st', ev, err e)) :
    (x >>= f) st = (st', ev, err e) := by
  rw [bind_def]; unfold G.bind; rw [h]

theorem bind_sent {x : G α} {f : α → G β} {st st' st'' : State} {ev : List (Port × Ev)} {a : α} {r : Res β} (h : x st = (st', ev, ok a))
    (h' : f a st' = (st'', [], r)) : (x >>= f) st = (st'', ev, r) := by
  rw [bind_eq h, h']; simp
theorem val_bind {r : Res α} {a : α} (h : r = ok a) (f : α → G β) (st : State) : (val r >>= f) st = f a st :=
  bind_eq' (by rw [h]; rfl)
theorem put_bind (h : State → State) (a : α) (f : α → G β) (st : State) : (put h a >>= f) st = f a (h st) := bind_eq' rfl
theorem ask_bind (h : State → α) (f : α → G β) (st : State) : (ask h >>= f) st = f (h st) st := bind_eq' rfl

theorem on11_eq {x : H α} {st : State} {c : Conn} {ev : List Ev} {r : Res α} (h : x st.s11 = (c, ev, r)) :
    on11 x st = ({ st with s11 := c }, ev.map (fun e => (.s11, e)), r) := by
  unfold on11; rw [h]
theorem on5_eq {x : H α} {st : State} {c : Conn} {ev : List Ev} {r : Res α} (h : x st.s5 = (c, ev, r)) :
    on5 x st = ({ st with s5 := c }, ev.map (fun e => (.s5, e)), r) := by
  unfold on5; rw [h]

/-- the state with another connection -/
def with11 (st : State) (c : Conn) : State := { st with s11 := c }
def with5 (st : State) (c : Conn) : State := { st with s5 := c }
theorem on11_go {x : H α} {st : State} {c₀ c : Conn} {a : α} (h0 : st.s11 = c₀) (h : x c₀ = (c, [], ok a)) (f : α → G β) :
    (on11 x >>= f) st = f a (with11 st c) := bind_eq' (on11_eq (h0 ▸ h))
theorem on5_go {x : H α} {st : State} {c₀ c : Conn} {a : α} (h0 : st.s5 = c₀) (h : x c₀ = (c, [], ok a)) (f : α → G β) :
    (on5 x >>= f) st = f a (with5 st c) := bind_eq' (on5_eq (h0 ▸ h))
theorem ask_go {h : State → α} {st : State} {a : α} (e : h st = a) (f : α → G β) : (ask h >>= f) st = f a st := by
  rw [← e]; exact bind_eq' rfl
theorem set_eq {h : Conn → Conn} {c c' : Conn} (e : h c = c') : set h c = (c', [], ok ()) := by rw [← e]; rfl
theorem on11_bind {x : H α} {st : State} {c : Conn} {a : α} (h : x st.s11 = (c, [], ok a)) (f : α → G β) :
    (on11 x >>= f) st = f a { st with s11 := c } := bind_eq' (on11_eq h)
theorem on5_bind {x : H α} {st : State} {c : Conn} {a : α} (h : x st.s5 = (c, [], ok a)) (f : α → G β) :
    (on5 x >>= f) st = f a { st with s5 := c } := bind_eq' (on5_eq h)

/-! ### addresses -/

theorem resolve_v4 {w port : Bytes} (h : w.length = 4) (hp : colon ∉ port ∧ lbr ∉ port ∧ rbr ∉ port) :
    resolve (ipString w) port = ok (ipString w ++ colon :: port) := by
  obtain ⟨hc, h4, hi, _⟩ := v4_text h
  have e : ipString w ++ colon :: port = joinHostPort (ipString w) port := by
    unfold joinHostPort; rw [if_neg hc]; simp
  have hl : ∀ c ∈ ipString w, c ≠ lbr ∧ c ≠ rbr := fun c hc' => ⟨(addrChar_ne ((isIP_chars hi).2 c hc')).2.1, (addrChar_ne ((isIP_chars hi).2 c hc')).2.2⟩
  unfold resolve
  rw [e, split_join hl hp]
  simp only [(parseIP_iff _ _).mpr hi]
  have : ipString (v4Prefix ++ w) = ipString w := by
    have : to4 (v4Prefix ++ w) = some w := by
      match w, h with
      | [p, q, r, s], _ => rfl
    rw [← ipString_to4 this]
  rw [this]

/-! ### the request of the MME -/

/-- the values in the request -/
structure Vals where
  imsi : Bytes
  msisdn : Bytes
  imei : Bytes
  apn : Bytes
  plmn : Bytes × Bytes
  rat : UInt8
  mme : UInt32
  pgw : UInt32
  /-- the address of the P-GW as text -/
  ip : Bytes

structure Vals.In (g : UInt8 → Bool) (v : Vals) (m : Message) : Prop where
  imsi : ∃ i r, m.fields 0 = i :: r ∧ i.imsi = ok v.imsi
  msisdn : ∃ i r, m.fields 1 = i :: r ∧ i.msisdn = ok v.msisdn
  imei : ∃ i r, m.fields 2 = i :: r ∧ i.mei = ok v.imei
  apn : ∃ i r, m.fields 9 = i :: r ∧ apnOf g i = ok v.apn
  plmn : ∃ i r, m.fields 4 = i :: r ∧ i.plmn = ok v.plmn
  rat : ∃ i r, m.fields 5 = i :: r ∧ ratOf g i = ok v.rat
  mme : ∃ i r, m.fields 7 = i :: r ∧ i.teid = ok v.mme
  pgw : ∃ i r, m.fields 8 = i :: r ∧ i.ipAddress = ok v.ip ∧ i.teid = ok v.pgw

/-- the S11 session and its bearer made from them -/
def Vals.sess (v : Vals) (a : Addr) (b : Nat) : Sess :=
  ⟨v.imsi, a, false, (SyncMap.store [] 7 v.pgw).store 10 v.mme, [("default", some b)], v.msisdn, v.imei, v.plmn.1, v.plmn.2, v.rat⟩
def Vals.bearer (v : Vals) : Bearer := { apn := v.apn }

theorem read_put (g : UInt8 → Bool) (c : Conn) (s b : Nat) (a : Addr) (m : Message) (v : Vals) (h : v.In g m)
    (hd : Droppable c s v.imsi) {raddr : Bytes} (hr : resolve v.ip portC = ok raddr) :
    readRequest g s b a m c = (Pgw.put (forget c v.imsi) s b (v.sess a b) v.bearer, [], ok raddr) := by
  obtain ⟨⟨i0, r0, e0, f0⟩, ⟨i1, r1, e1, f1⟩, ⟨i2, r2, e2, f2⟩, ⟨i9, r9, e9, f9⟩, ⟨i4, r4, e4, f4⟩, ⟨i5, r5, e5, f5⟩,
    ⟨i7, r7, e7, f7⟩, ⟨i8, r8, e8, f8, g8⟩⟩ := h
  unfold readRequest
  refine (set_to (put_new _ _ _ _) _).trans ?_
  refine (need_bind e8 _ _).trans ?_
  refine (lift_bind f8 _ _).trans ?_
  refine (lift_bind g8 _ _).trans ?_
  refine (set_to (put_addTEID _ _ _ _ _ _ _) _).trans ?_
  refine (need_bind e7 _ _).trans ?_
  refine (lift_bind f7 _ _).trans ?_
  refine (set_to (put_addTEID _ _ _ _ _ _ _) _).trans ?_
  refine (lift_bind hr _ _).trans ?_
  refine (need_bind e0 _ _).trans ?_
  refine (lift_bind f0 _ _).trans ?_
  refine (Pgw.bind_eq' (put_drop _ _ _ _ _ _ hd)).trans ?_
  refine (set_to (put_update _ _ _ _ _ _) _).trans ?_
  refine (need_bind e1 _ _).trans ?_
  refine (lift_bind f1 _ _).trans ?_
  refine (set_to (put_update _ _ _ _ _ _) _).trans ?_
  refine (need_bind e2 _ _).trans ?_
  refine (lift_bind f2 _ _).trans ?_
  refine (set_to (put_update _ _ _ _ _ _) _).trans ?_
  refine (need_bind e9 _ _).trans ?_
  refine (lift_bind f9 _ _).trans ?_
  refine (set_to (put_updateBearer _ _ _ _ _ _) _).trans ?_
  refine (need_bind e4 _ _).trans ?_
  refine (lift_bind f4 _ _).trans ?_
  refine (set_to (put_update _ _ _ _ _ _) _).trans ?_
  refine (lift_bind f4 _ _).trans ?_
  refine (set_to (put_update _ _ _ _ _ _) _).trans ?_
  refine (need_bind e5 _ _).trans ?_
  refine (lift_bind f5 _ _).trans ?_
  refine (set_to (put_update _ _ _ _ _ _) _).trans ?_
  rfl

theorem sender_eq (c : Conn) (k : UInt32) (ip : Bytes) (hif : c.localIf < 64) :
    senderFTEID (some k) ip c = (reserve c k, [], ok (some (fteidOf c.localIf 0 k ip))) := by
  unfold senderFTEID
  refine (Pgw.set_bind _ _ _).trans ?_
  refine (read_bind _ _ _).trans ?_
  have e : (reserve c k).localIf = c.localIf := (Pgw.reserve_fixed c k).2.2.1
  rw [e]
  unfold lift
  rw [fteid_text _ k ip hif]
  rfl

theorem user_eq (f : UInt8) (k : UInt32) (ip : Bytes) (hf : f < 64) : userFTEID f (some k) ip = ok (fteidOf f 0 k ip) := by
  unfold userFTEID
  simp only [fteid_text f k ip hf, bind_ok, deref]
  rfl

/-! ### which elements are passed on -/

/-- the fields that are passed on as they are, and the types in them -/
def passed : List (Nat × UInt8) :=
  [(0, 1), (1, 76), (2, 75), (4, 83), (5, 82), (6, 77), (8, 87), (9, 71), (10, 128), (11, 99), (12, 79), (13, 127), (14, 72), (3, 86), (22, 132)]

theorem passed_typ {g : UInt8 → Bool} {d : Bytes} {m : Message} (h : parseMsg g d = ok m) (hs : m.schema = Tab.createSessionRequest)
    {k : Nat} {t : UInt8} (hk : (k, t) ∈ passed) {i : IE} (hi : i ∈ m.fields k) :
    i.typ = t ∧ Msg.newAct (ieOps g) Tab.createSessionRequest i = .set k := by
  have hf := (C77_v2_start g d m h).home k i hi
  unfold Msg.Home at hf
  have ht := Msg.apply_target hf
  unfold Msg.unAct at ht
  rw [hs] at ht
  refine ⟨?_, ?_⟩
  · rcases Msg.sel_cases Tab.createSessionRequest.unRules Tab.createSessionRequest.unDefault ((ieOps g).typ i).toNat ((ieOps g).inst i).toNat with e | ⟨r, hr, e1, e⟩
    · rw [e] at ht
      have key : ∀ p ∈ passed, ¬ (p.1 ∈ Tab.createSessionRequest.unDefault.targets ∨ p.1 ∈ Tab.createSessionRequest.unDefault.frozen) := by
        decide +kernel
      exact absurd ht (key _ hk)
    · rw [e] at ht
      have key : ∀ p ∈ passed, ∀ r ∈ Tab.createSessionRequest.unRules, p.1 ∈ r.act.targets ∨ p.1 ∈ r.act.frozen → r.typ = p.2.toNat := by
        decide +kernel
      have := key _ hk r hr ht
      rw [this] at e1
      exact UInt8.toNat.inj e1.symm
  · have key : Msg.tableRel (fun a b => passed.all (fun p => a == .set p.1 || !(b.targets.contains p.1 || b.frozen.contains p.1)))
        Tab.createSessionRequest.newRules Tab.createSessionRequest.newDefault Tab.createSessionRequest.unRules
        Tab.createSessionRequest.unDefault = true := by decide +kernel
    have := Msg.tableRel_sound key ((ieOps g).typ i).toNat ((ieOps g).inst i).toNat
    rw [List.all_eq_true] at this
    have := this _ hk
    simp only [Bool.or_eq_true, beq_iff_eq, Bool.not_eq_true', Bool.or_eq_false_iff] at this
    rcases this with h | ⟨h1, h2⟩
    · exact h
    · rcases ht with h | h
      · simp [h] at h1
      · simp [h] at h2

/-- elements for different fields, at most one for each, are found in these fields -/
theorem pick (act : IE → Msg.Act) (l : List (Nat × Option IE)) (hnd : (l.map Prod.fst).Nodup)
    (ha : ∀ k x, (k, some x) ∈ l → act x = .set k ∨ act x = .app k) (F : Msg.Fields IE) (hF : ∀ k ∈ l.map Prod.fst, F k = []) (j : Nat) :
    ((l.map Prod.snd).filterMap id).foldl (fun F x => (act x).apply F x) F j =
      match l.lookup j with
      | some o => o.toList
      | none => F j := by
  induction l generalizing F with
  | nil => rfl
  | cons p l ih =>
    obtain ⟨k, o⟩ := p
    simp only [List.map_cons, List.nodup_cons] at hnd
    have ha' : ∀ k x, (k, some x) ∈ l → act x = .set k ∨ act x = .app k := fun k x h => ha k x (List.mem_cons_of_mem _ h)
    cases o with
    | none =>
      refine (?_ : _ = _).trans (?_ : (((l.map Prod.snd).filterMap id).foldl (fun F x => (act x).apply F x) F j) = _)
      · rfl
      rw [ih hnd.2 ha' F (fun k hk => hF k (List.mem_cons_of_mem _ hk))]
      simp only [List.lookup_cons]
      by_cases e : j = k
      · subst e
        have : l.lookup j = none := by
          rw [List.lookup_eq_none_iff]
          intro q hq
          simp only [bne_iff_ne, ne_eq]
          exact fun e => hnd.1 (e ▸ List.mem_map_of_mem (f := Prod.fst) hq)
        rw [this]
        simp [hF j (by simp)]
      · have : (j == k) = false := by simpa using e
        rw [this]
    | some x =>
      refine (?_ : _ = _).trans (?_ : (((l.map Prod.snd).filterMap id).foldl (fun F x => (act x).apply F x) ((act x).apply F x) j) = _)
      · rfl
      have hx : (act x).apply F x = Msg.upd F k [x] := by
        rcases ha k x (by simp) with h | h
        · rw [h]; rfl
        · rw [h]; show Msg.upd F k (F k ++ [x]) = _
          rw [hF k (by simp)]; rfl
      rw [hx, ih hnd.2 ha']
      · simp only [List.lookup_cons]
        by_cases e : j = k
        · subst e
          have : l.lookup j = none := by
            rw [List.lookup_eq_none_iff]
            intro q hq
            simp only [bne_iff_ne, ne_eq]
            exact fun e => hnd.1 (e ▸ List.mem_map_of_mem (f := Prod.fst) hq)
          rw [this]
          simp [Msg.upd]
        · have : (j == k) = false := by simpa using e
          rw [this]
          cases l.lookup j with
          | none => simp [Msg.upd, e]
          | some o => rfl
      · intro k' hk'
        have : k' ≠ k := fun e => hnd.1 (e ▸ hk')
        simp only [Msg.upd, if_neg this]
        exact hF k' (List.mem_cons_of_mem _ hk')

end Verif.V2.Sgw
