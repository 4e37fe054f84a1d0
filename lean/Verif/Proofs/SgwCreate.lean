import Verif.Proofs.Sgw
/-
Helper lemmas for Props/Sgw.lean: the session on S5 and the request that is passed on to the P-GW.
-/
namespace Verif.V2.Sgw
open Res Send Conn NetIP Spec IPSpec
open Pgw (H lift set read need dropIMSI drop respond getTEID deref mustTEID activateH forget Droppable fteidOf fteidOf_reads fteid_text
  mustTEID_of v4_text lift_bind set_to need_bind read_bind put_new put_update put_updateBearer put_addTEID put_reserve put_register put_drop
  put_heap put_brs put_localIf length_encFTEID')

/-! ### CreateSession on S5 -/

section loop
variable (g : UInt8 → Bool) (c : Conn) (s b : Nat) (x : Sess) (y : Bearer) (l : List (Option IE))

theorem loop_imsi {i : IE} {v : Bytes} (ht : i.typ = 1) (h : i.imsi = ok v) :
    ieLoop g s b (some i :: l) (Pgw.put c s b x y) = ieLoop g s b l (Pgw.put c s b { x with imsi := v } y) := by
  simp [ieLoop, ieStep, ht, h, assign, Out.then]
theorem loop_msisdn {i : IE} {v : Bytes} (ht : i.typ = 76) (h : i.msisdn = ok v) :
    ieLoop g s b (some i :: l) (Pgw.put c s b x y) = ieLoop g s b l (Pgw.put c s b { x with msisdn := v } y) := by
  simp [ieLoop, ieStep, ht, h, assign, Out.then]
theorem loop_mei {i : IE} {v : Bytes} (ht : i.typ = 75) (h : i.mei = ok v) :
    ieLoop g s b (some i :: l) (Pgw.put c s b x y) = ieLoop g s b l (Pgw.put c s b { x with imei := v } y) := by
  simp [ieLoop, ieStep, ht, h, assign, Out.then]
theorem loop_plmn {i : IE} {v : Bytes × Bytes} (ht : i.typ = 83) (h : i.plmn = ok v) :
    ieLoop g s b (some i :: l) (Pgw.put c s b x y) = ieLoop g s b l (Pgw.put c s b { x with mcc := v.1, mnc := v.2 } y) := by
  simp [ieLoop, ieStep, ht, h, assign, Out.then]
theorem loop_apn {i : IE} {v : Bytes} (ht : i.typ = 71) (h : apnOf g i = ok v) :
    ieLoop g s b (some i :: l) (Pgw.put c s b x y) = ieLoop g s b l (Pgw.put c s b x { y with apn := v }) := by
  simp [ieLoop, ieStep, ht, h, assign, Out.then]
theorem loop_rat {i : IE} {v : UInt8} (ht : i.typ = 82) (h : ratOf g i = ok v) :
    ieLoop g s b (some i :: l) (Pgw.put c s b x y) = ieLoop g s b l (Pgw.put c s b { x with rat := v } y) := by
  simp [ieLoop, ieStep, ht, h, assign, Out.then]
theorem loop_own {i : IE} {k : UInt32} (ht : i.typ = 87) (hf : i.interfaceType = ok c.localIf) (hk : i.teid = ok k) :
    ieLoop g s b (some i :: l) (Pgw.put c s b x y) =
      ieLoop g s b l (Pgw.put { c with byTeid := c.byTeid.store k (some s), byImsi := c.byImsi.store x.imsi s } s b
        { x with teids := (x.teids.store c.localIf k).store c.localIf k } y) := by
  simp [ieLoop, ieStep, ht, hf, hk, define, Out.then, put_register]
theorem loop_other {i : IE} {f : UInt8} {k : UInt32} (ht : i.typ = 87) (hf : i.interfaceType = ok f) (hk : i.teid = ok k) (hne : f ≠ c.localIf) :
    ieLoop g s b (some i :: l) (Pgw.put c s b x y) = ieLoop g s b l (Pgw.put c s b { x with teids := x.teids.store f k } y) := by
  simp [ieLoop, ieStep, ht, hf, hk, define, Out.then, hne]
theorem loop_skip (o : Option IE) (ht : ∀ i, o = some i → i.typ ∉ [1, 76, 75, 83, 71, 82, 87, 93]) (c : Conn) :
    ieLoop g s b (o :: l) c = ieLoop g s b l c := by
  cases o with
  | none => rfl
  | some i =>
    have := ht i rfl
    simp only [List.mem_cons, List.not_mem_nil, or_false, not_or] at this
    simp [ieLoop, ieStep, this, Out.then]

end loop

/-- the Bearer QoS of the S-GW -/
def qosIE : IE := newIE 80 0 [73, 255, 0, 0, 0, 0, 0, 0, 0, 0, 0, 0, 0, 0, 0, 0, 0, 0, 0, 0, 0, 0]
theorem qos_eq : newBearerQoS 1 2 1 0xff 0 0 0 0 = ok (some qosIE) := by decide +kernel

/-- what the S-GW's Bearer Context leaves in a bearer -/
def quality (y : Bearer) : Bearer :=
  { y with ebi := 5, pl := 2, qci := 255, pci := false, pvi := false, mbrUp := 0, mbrDown := 0, gbrUp := 0, gbrDown := 0 }

/-- the Bearer Context of the S-GW -/
def bearerIE (g : UInt8 → Bool) (uf : IE) : IE :=
  .mk 93 (UInt16.ofNat (rawEncs g [newEBI 5, uf, qosIE]).length) 0 (rawEncs g [newEBI 5, uf, qosIE]) [newEBI 5, uf, qosIE]

theorem bearer_eq (g : UInt8 → Bool) (uf : IE) : newBearerContext g [some (newEBI 5), some uf, some qosIE] = ok (some (bearerIE g uf)) := by
  rw [newBearerContext, newGrouped_eq]
  rfl

theorem loop_bearer (g : UInt8 → Bool) (h73 : g 73 = false) (c : Conn) (s b : Nat) (x : Sess) (y : Bearer) (l : List (Option IE)) {uf : IE} {f : UInt8} {k : UInt32}
    (ht : uf.typ = 87) (hf : uf.interfaceType = ok f) (hk : uf.teid = ok k) :
    ieLoop g s b (some (bearerIE g uf) :: l) (Pgw.put c s b x y) =
      ieLoop g s b l (Pgw.put c s b { x with teids := x.teids.store f k } (quality y)) := by
  have e5 : (newEBI 5).ebi g = ok 5 := by simp [newEBI, newUint8IE, IE.ebi, IE.valueAsUint8, h73]
  have t5 : (newEBI 5).typ = 73 := rfl
  have t80 : qosIE.typ = 80 := rfl
  have q1 : qosIE.priorityLevel g = ok 2 := by rfl
  have q2 : qosIE.qciLabel g = ok 255 := rfl
  have q3 : qosIE.hasPCI g = ok false := rfl
  have q4 : qosIE.hasPVI g = ok false := rfl
  have q5 : qosIE.mbrUp = ok 0 := by decide +kernel
  have q6 : qosIE.mbrDown = ok 0 := by decide +kernel
  have q7 : qosIE.gbrUp = ok 0 := by decide +kernel
  have tb : (bearerIE g uf).typ = 93 := rfl
  have ib : (bearerIE g uf).instance' = 0 := (by decide : (0 : UInt8) &&& 0x0f = 0)
  have cb : (bearerIE g uf).children = [newEBI 5, uf, qosIE] := rfl
  have : ieStep g s b (bearerIE g uf) (Pgw.put c s b x y) = (Pgw.put c s b { x with teids := x.teids.store f k } (quality y), ok ()) := by
    simp [ieStep, tb, ib, cb, childLoop, childStep, t5, e5, ht, hf, hk, t80, qosStep, q1, q2, q3, q4, q5, q6, q7, assign, define, Out.then, quality]
  rw [ieLoop, this]
  rfl

/-- the session on S5 -/
def Vals.sess5 (v : Vals) (raddr : Addr) (b : Nat) (k ku : UInt32) : Sess :=
  ⟨v.imsi, raddr, false, (((SyncMap.store (SyncMap.store [] 6 k) 6 k).store 7 v.pgw).store 4 ku).store 4 ku, [("default", some b)], v.msisdn, v.imei,
    v.plmn.1, v.plmn.2, v.rat⟩
def Vals.bearer5 (v : Vals) : Bearer := quality { apn := v.apn }

/-! ### the elements passed on -/

/-- the FQ-CSID of the S-GW -/
def csidIE (n : UInt8) (w : Bytes) : IE := newIE 132 n (encCSID 0 w [1])

theorem csid_v4 {w : Bytes} (h : w.length = 4) : newCSIDText (ipString w) [1] = ok (some (csidIE 0 w)) := by
  obtain ⟨_, h4, hi, _⟩ := v4_text h
  have e4 : to4 (v4Prefix ++ w) = some w := by
    match w, h with
    | [p, q, r, s], _ => rfl
  obtain ⟨i, h1, -, l1, -⟩ := C50_csid_partial (fun _ => false) (ipString w) (some (v4Prefix ++ w)) 0 w [1] (by simp) (.inl ⟨rfl, _, rfl, e4⟩) 0 rfl
  have hb : ∃ p, i = newIE 132 0 p := by
    have h := h1
    unfold newCSID at h
    split at h
    · cases h
    · exact build_new h
  obtain ⟨p, rfl⟩ := hb
  have e : p = _ := l1
  rw [newCSIDText, (parseIP_iff _ _).mpr hi, h1, e]
  rfl

theorem csid_reads {w : Bytes} (h : w.length = 4) (n : UInt8) : (csidIE n w).nodeID = ok w ∧ (csidIE n w).csids = ok [1] := by
  obtain ⟨_, h4, hi, _⟩ := v4_text h
  have e4 : to4 (v4Prefix ++ w) = some w := by
    match w, h with
    | [p, q, r, s], _ => rfl
  obtain ⟨i, h1, -, l1, -, -, -, h5, h6⟩ := C50_csid_partial (fun _ => false) (ipString w) (some (v4Prefix ++ w)) 0 w [1] (by simp) (.inl ⟨rfl, _, rfl, e4⟩) n rfl
  have := csid_v4 h
  rw [newCSIDText, (parseIP_iff _ _).mpr hi, h1] at this
  simp only [ok.injEq, Option.some.injEq] at this
  subst this
  exact ⟨h6 (by simp), h5⟩

/-- the elements of the S-GW's request, with the fields they are for -/
def onward (g : UInt8 → Bool) (m : Message) (cf uf : IE) (w : Bytes) : List (Nat × Option IE) :=
  let x := fun k => (k, (m.fields k).head?)
  [x 0, x 1, x 2, x 4, x 5, x 6, (7, some cf), x 8, x 9, x 10, x 11, x 12, x 13, x 14, x 3, (18, some (bearerIE g uf)), x 22,
    (23, some (csidIE 1 w))]

theorem forwarded_eq (g : UInt8 → Bool) {p : Cfg} {w : Bytes} (hw : w.length = 4) (hp : p.s5uIP = ipString w) (m : Message) (cf uf : IE) :
    forwarded g p m (some cf) uf = ok ((onward g m cf uf w).map Prod.snd) := by
  unfold forwarded
  rw [qos_eq, bind_ok, bearer_eq, bind_ok, hp, csid_v4 hw, bind_ok]
  rfl

theorem parse5 {g : UInt8 → Bool} (h73 : g 73 = false) {d : Bytes} {m : Message} (hp : parseMsg g d = ok m)
    (hs : m.schema = Tab.createSessionRequest) {v : Vals} (hv : v.In g m) (h7 : ∃ i r, m.fields 8 = i :: r ∧ i.interfaceType = ok 7)
    (c : Conn) (hif : c.localIf = 6) (s b : Nat) (raddr : Addr) (k ku : UInt32) (x x' w : Bytes) :
    parseCreateSession c g s b raddr ((onward g m (fteidOf 6 0 k x) (fteidOf 4 2 ku x') w).map Prod.snd) =
      (Pgw.put { c with byTeid := c.byTeid.store k (some s), byImsi := c.byImsi.store v.imsi s } s b
        { v.sess5 raddr b k ku with teids := ((SyncMap.store (SyncMap.store [] 6 k) 6 k).store 7 v.pgw).store 4 ku } v.bearer5, ok ()) := by
  have T : ∀ {k : Nat} {t : UInt8} (_ : (k, t) ∈ passed) {i : IE} {r : List IE}, m.fields k = i :: r → i.typ = t :=
    fun hk i r e => (passed_typ hp hs hk (by rw [e]; simp)).1
  have S : ∀ {k : Nat} {t : UInt8} (_ : (k, t) ∈ passed) (_ : t ∉ ([1, 76, 75, 83, 71, 82, 87, 93] : List UInt8)) (i : IE),
      (m.fields k).head? = some i → i.typ ∉ ([1, 76, 75, 83, 71, 82, 87, 93] : List UInt8) := by
    intro k t hk ht i hi
    rw [(passed_typ hp hs hk (List.mem_of_mem_head? hi)).1]
    exact ht
  obtain ⟨⟨i0, r0, e0, f0⟩, ⟨i1, r1, e1, f1⟩, ⟨i2, r2, e2, f2⟩, ⟨i9, r9, e9, f9⟩, ⟨i4, r4, e4, f4⟩, ⟨i5, r5, e5, f5⟩,
    ⟨i7, r7, e7, f7⟩, ⟨i8, r8, e8, f8, g8⟩⟩ := hv
  obtain ⟨i8', r8', e8', k8⟩ := h7
  rw [e8] at e8'
  obtain ⟨rfl, rfl⟩ := List.cons.inj e8'
  have fr := fteidOf_reads 6 0 k x (by decide)
  have ur := fteidOf_reads 4 2 ku x' (by decide)
  unfold parseCreateSession onward
  simp only [List.map_cons, List.map_nil]
  rw [put_new, e0, e1, e2, e4, e5, e8, e9]
  simp only [List.head?_cons]
  refine (loop_imsi g _ _ _ _ _ _ (T (by simp [passed]) e0) f0).trans ?_
  refine (loop_msisdn g _ _ _ _ _ _ (T (by simp [passed]) e1) f1).trans ?_
  refine (loop_mei g _ _ _ _ _ _ (T (by simp [passed]) e2) f2).trans ?_
  refine (loop_plmn g _ _ _ _ _ _ (T (by simp [passed]) e4) f4).trans ?_
  refine (loop_rat g _ _ _ _ _ _ (T (by simp [passed]) e5) f5).trans ?_
  refine (loop_skip g _ _ _ _ (S (k := 6) (t := 77) (by simp [passed]) (by decide)) _).trans ?_
  refine (loop_own g _ _ _ _ _ _ rfl (by rw [hif]; exact fr.r_ifType) fr.r_teid).trans ?_
  refine (loop_other g _ _ _ _ _ _ (T (by simp [passed]) e8) k8 g8 (by simp [hif])).trans ?_
  refine (loop_apn g _ _ _ _ _ _ (T (by simp [passed]) e9) f9).trans ?_
  refine (loop_skip g _ _ _ _ (S (k := 10) (t := 128) (by simp [passed]) (by decide)) _).trans ?_
  refine (loop_skip g _ _ _ _ (S (k := 11) (t := 99) (by simp [passed]) (by decide)) _).trans ?_
  refine (loop_skip g _ _ _ _ (S (k := 12) (t := 79) (by simp [passed]) (by decide)) _).trans ?_
  refine (loop_skip g _ _ _ _ (S (k := 13) (t := 127) (by simp [passed]) (by decide)) _).trans ?_
  refine (loop_skip g _ _ _ _ (S (k := 14) (t := 72) (by simp [passed]) (by decide)) _).trans ?_
  refine (loop_skip g _ _ _ _ (S (k := 3) (t := 86) (by simp [passed]) (by decide)) _).trans ?_
  refine (loop_bearer g h73 _ _ _ _ _ _ rfl ur.r_ifType ur.r_teid).trans ?_
  refine (loop_skip g _ _ _ _ (S (k := 22) (t := 132) (by simp [passed]) (by decide)) _).trans ?_
  refine (loop_skip g _ _ _ _ (fun i hi => by obtain rfl := Option.some.inj hi; simp [csidIE]) _).trans ?_
  simp only [ieLoop, hif]
  rfl

/-! ### the request at the P-GW -/

theorem own_acts (g : UInt8 → Bool) (k ku : UInt32) (x x' w : Bytes) :
    Msg.newAct (ieOps g) Tab.createSessionRequest (fteidOf 6 0 k x) = .set 7 ∧
    Msg.newAct (ieOps g) Tab.createSessionRequest (bearerIE g (fteidOf 4 2 ku x')) = .app 18 ∧
    Msg.newAct (ieOps g) Tab.createSessionRequest (csidIE 1 w) = .set 23 := by
  have e1 : Msg.sel Tab.createSessionRequest.newRules Tab.createSessionRequest.newDefault (87 : UInt8).toNat ((0 : UInt8) &&& 0x0f).toNat = .set 7 := by decide
  have e2 : Msg.sel Tab.createSessionRequest.newRules Tab.createSessionRequest.newDefault (93 : UInt8).toNat ((0 : UInt8) &&& 0x0f).toNat = .app 18 := by decide
  have e3 : Msg.sel Tab.createSessionRequest.newRules Tab.createSessionRequest.newDefault (132 : UInt8).toNat ((1 : UInt8) &&& 0x0f).toNat = .set 23 := by decide
  exact ⟨e1, e2, e3⟩

theorem onward_fields {g : UInt8 → Bool} {d : Bytes} {m : Message} (hp : parseMsg g d = ok m)
    (hs : m.schema = Tab.createSessionRequest) (k ku : UInt32) (x x' w : Bytes) (j : Nat) :
    Msg.newFields (ieOps g) Tab.createSessionRequest ((onward g m (fteidOf 6 0 k x) (fteidOf 4 2 ku x') w).map Prod.snd) j =
      if j ∈ passed.map Prod.fst then m.fields j else if j = 7 then [fteidOf 6 0 k x]
      else if j = 18 then [bearerIE g (fteidOf 4 2 ku x')] else if j = 23 then [csidIE 1 w] else [] := by
  obtain ⟨a1, a2, a3⟩ := own_acts g k ku x x' w
  have hk : (onward g m (fteidOf 6 0 k x) (fteidOf 4 2 ku x') w).map Prod.fst = [0, 1, 2, 4, 5, 6, 7, 8, 9, 10, 11, 12, 13, 14, 3, 18, 22, 23] := rfl
  have hone : ∀ j ∈ passed.map Prod.fst, (m.fields j).head?.toList = m.fields j := by
    intro j hj
    have hm : ∀ j ∈ passed.map Prod.fst, j ∉ Tab.createSessionRequest.multi := by decide +kernel
    have := (C77_v2_start g d m hp).one j (by rw [hs]; exact hm j hj)
    cases e : m.fields j with
    | nil => rfl
    | cons i r =>
      rw [e] at this
      simp only [List.length_cons] at this
      have : r = [] := List.length_eq_zero_iff.1 (by omega)
      simp [this]
  have hpick := pick (Msg.newAct (ieOps g) Tab.createSessionRequest) (onward g m (fteidOf 6 0 k x) (fteidOf 4 2 ku x') w) (by rw [hk]; decide)
    ?_ Msg.Fields.empty (fun _ _ => rfl) j
  · refine Eq.trans hpick ?_
    by_cases hj : j ∈ passed.map Prod.fst
    · rw [if_pos hj]
      have : (onward g m (fteidOf 6 0 k x) (fteidOf 4 2 ku x') w).lookup j = some (m.fields j).head? := by
        simp only [passed, List.map_cons, List.map_nil, List.mem_cons, List.not_mem_nil, or_false] at hj
        rcases hj with rfl | rfl | rfl | rfl | rfl | rfl | rfl | rfl | rfl | rfl | rfl | rfl | rfl | rfl | rfl <;> rfl
      rw [this]
      exact hone j hj
    · rw [if_neg hj]
      by_cases h7 : j = 7
      · subst h7; rfl
      by_cases h18 : j = 18
      · subst h18; rfl
      by_cases h23 : j = 23
      · subst h23; rfl
      rw [if_neg h7, if_neg h18, if_neg h23]
      have : (onward g m (fteidOf 6 0 k x) (fteidOf 4 2 ku x') w).lookup j = none := by
        rw [List.lookup_eq_none_iff]
        intro q hq
        simp only [bne_iff_ne, ne_eq]
        intro e
        have : j ∈ (onward g m (fteidOf 6 0 k x) (fteidOf 4 2 ku x') w).map Prod.fst := e ▸ List.mem_map_of_mem (f := Prod.fst) hq
        rw [hk] at this
        simp only [passed, List.map_cons, List.map_nil, List.mem_cons, List.not_mem_nil, or_false, not_or] at hj this
        omega
      rw [this]
      rfl
  · intro q y hq
    have P : ∀ {k : Nat} {t : UInt8} (_ : (k, t) ∈ passed) {y : IE}, (m.fields k).head? = some y → 
        Msg.newAct (ieOps g) Tab.createSessionRequest y = .set k := fun hk y e => (passed_typ hp hs hk (List.mem_of_mem_head? e)).2
    simp only [onward, List.mem_cons, Prod.mk.injEq, List.not_mem_nil, or_false] at hq
    rcases hq with ⟨rfl, e⟩ | ⟨rfl, e⟩ | ⟨rfl, e⟩ | ⟨rfl, e⟩ | ⟨rfl, e⟩ | ⟨rfl, e⟩ | ⟨rfl, e⟩ | ⟨rfl, e⟩ | ⟨rfl, e⟩ | ⟨rfl, e⟩ | ⟨rfl, e⟩ |
      ⟨rfl, e⟩ | ⟨rfl, e⟩ | ⟨rfl, e⟩ | ⟨rfl, e⟩ | ⟨rfl, e⟩ | ⟨rfl, e⟩ | ⟨rfl, e⟩
    · exact Or.inl (P (t := 1) (by simp [passed]) e.symm)
    · exact Or.inl (P (t := 76) (by simp [passed]) e.symm)
    · exact Or.inl (P (t := 75) (by simp [passed]) e.symm)
    · exact Or.inl (P (t := 83) (by simp [passed]) e.symm)
    · exact Or.inl (P (t := 82) (by simp [passed]) e.symm)
    · exact Or.inl (P (t := 77) (by simp [passed]) e.symm)
    · obtain rfl := Option.some.inj e; exact Or.inl a1
    · exact Or.inl (P (t := 87) (by simp [passed]) e.symm)
    · exact Or.inl (P (t := 71) (by simp [passed]) e.symm)
    · exact Or.inl (P (t := 128) (by simp [passed]) e.symm)
    · exact Or.inl (P (t := 99) (by simp [passed]) e.symm)
    · exact Or.inl (P (t := 79) (by simp [passed]) e.symm)
    · exact Or.inl (P (t := 127) (by simp [passed]) e.symm)
    · exact Or.inl (P (t := 72) (by simp [passed]) e.symm)
    · exact Or.inl (P (t := 86) (by simp [passed]) e.symm)
    · obtain rfl := Option.some.inj e; exact Or.inr a2
    · exact Or.inl (P (t := 132) (by simp [passed]) e.symm)
    · obtain rfl := Option.some.inj e; exact Or.inl a3

/-! ### its size -/

theorem sum_encs (g : UInt8 → Bool) (xs : List IE) : (xs.map (IE.marshalLen g)).sum = (encs g xs).length := by
  induction xs with
  | nil => rfl
  | cons x xs ih => simp [encs, ih, marshalLen_enc]

/-- the elements of a message that was read are no longer than the datagram without its header -/
theorem parsed_size {g : UInt8 → Bool} {d : Bytes} {m : Message} (h : parseMsg g d = ok m) :
    8 + ((m.schema.orderF.flatMap m.fields).map (IE.marshalLen g)).sum ≤ d.length := by
  obtain ⟨t, _, hp, _, hf⟩ := parseMsg_ok g h
  obtain ⟨tail, hb, _⟩ := (C10_parse_total_faithful d).2 _ hp
  have hd : 8 + m.hdr.payload.length ≤ d.length := by
    rw [hb]
    unfold encH
    split <;> simp <;> omega
  rcases hf with ⟨_, _, hf⟩ | ⟨xs, hx, hf⟩
  · rw [hf]
    have : m.schema.orderF.flatMap (Msg.Fields.empty : Msg.Fields IE) = [] := by simp [Msg.Fields.empty]
    rw [this]
    simp; omega
  · have hu := (made_inv g (.received d m h)).1.2.1
    simp only [Msg.Schema.unGood, Bool.and_eq_true, decide_eq_true_eq] at hu
    have := Msg.sum_classify (ieOps g) m.schema.unRules m.schema.unDefault hu.1 (IE.marshalLen g) xs
    rw [hf]
    have e := ((C06_accepts_iff g _ _).mp hx).2
    rw [sum_encs g xs, ← e] at this
    omega

theorem sum_some {α : Type} (w : α → Nat) (l : List (Option α)) : ((l.filterMap id).map w).sum = (l.map (fun o => (o.toList.map w).sum)).sum := by
  induction l with
  | nil => rfl
  | cons o l ih =>
    cases o with
    | none => rw [List.filterMap_cons_none rfl, ih]; simp
    | some x => rw [List.filterMap_cons_some (f := id) (b := x) rfl, List.map_cons, List.sum_cons, ih]; simp

theorem sum_head {α : Type} (w : α → Nat) (l : List α) : (l.head?.toList.map w).sum ≤ (l.map w).sum := by
  cases l <;> simp

theorem sum_flatMap {α : Type} (w : α → Nat) (F : Nat → List α) (l : List Nat) :
    ((l.flatMap F).map w).sum = (l.map (fun k => ((F k).map w).sum)).sum := by
  induction l with
  | nil => rfl
  | cons o l ih => simp [ih]

/-- the fields that are passed on take no more than all of them -/
theorem passed_size {g : UInt8 → Bool} {d : Bytes} {m : Message} (hp : parseMsg g d = ok m) (hs : m.schema = Tab.createSessionRequest) :
    8 + (passed.map (fun q => ((m.fields q.1).map (IE.marshalLen g)).sum)).sum ≤ d.length := by
  have h := parsed_size hp
  rw [hs, sum_flatMap] at h
  have e : Tab.createSessionRequest.orderF.Perm (passed.map Prod.fst ++ Tab.createSessionRequest.orderF.filter (· ∉ passed.map Prod.fst)) :=
    List.isPerm_iff.mp (by decide +kernel)
  have := (e.map (fun k => ((m.fields k).map (IE.marshalLen g)).sum)).sum_nat
  rw [this, List.map_append, List.sum_append, List.map_map] at h
  have : ((fun k => ((m.fields k).map (IE.marshalLen g)).sum) ∘ Prod.fst) = fun q : Nat × UInt8 => ((m.fields q.1).map (IE.marshalLen g)).sum := rfl
  rw [this] at h
  omega

theorem fteid_size (g : UInt8 → Bool) (h : g 87 = false) (f n : UInt8) (k : UInt32) {w : Bytes} (hw : w.length = 4) :
    (fteidOf f n k (ipString w)).marshalLen g = 13 := by
  have e : (parseIP (ipString w)).bind to4 = some w := by
    obtain ⟨_, h4, hi, _⟩ := v4_text hw
    rw [(parseIP_iff _ _).mpr hi]
    match w, hw with
    | [p, q, r, s], _ => rfl
  rw [marshalLen_enc, length_enc, fteidOf, e]
  simp [body, newIE, IE.setLength, h, encFTEID, hw]

theorem csid_size (g : UInt8 → Bool) (h : g 132 = false) (n : UInt8) {w : Bytes} (hw : w.length = 4) : (csidIE n w).marshalLen g = 11 := by
  rw [marshalLen_enc, length_enc]
  simp [body, csidIE, newIE, IE.setLength, h, encCSID, hw]

theorem bearer_size (g : UInt8 → Bool) (h93 : g 93 = true) (h73 : g 73 = false) (h80 : g 80 = false) (uf : IE) :
    (bearerIE g uf).marshalLen g = 35 + uf.marshalLen g := by
  have e1 : (newEBI 5).marshalLen g = 5 := by
    rw [marshalLen_enc, length_enc]; simp [newEBI, newUint8IE, newIE, IE.setLength, body, h73]
  have e2 : qosIE.marshalLen g = 26 := by
    rw [marshalLen_enc, length_enc]; simp [qosIE, newIE, IE.setLength, body, h80]
  rw [bearerIE, IE.marshalLen]
  simp only [h93, if_true, marshalLens, e1, e2]
  omega

theorem new_wf {g : UInt8 → Bool} {t : UInt8} (h : g t = false) (n : UInt8) {p : Bytes} (hl : p.length < 65536) : wf g (newIE t n p) = true := by
  rw [wf_iff]
  refine ⟨toNat_ofNat16 hl, ?_, ?_⟩
  · simp [newIE, IE.setLength, body, h, IE.payload]
  · rw [if_neg (by show ¬ (g t = true); simp [h])]; rfl

/-- the S-GW takes these types for what the library does -/
structure Usual (g : UInt8 → Bool) : Prop where
  others : Pgw.Usual g
  qos : g 80 = false

theorem Usual.g87 {g : UInt8 → Bool} (h : Usual g) : g 87 = false := h.others.1 87 (by simp)
theorem Usual.g132 {g : UInt8 → Bool} (h : Usual g) : g 132 = false := h.others.1 132 (by simp)
theorem Usual.g73 {g : UInt8 → Bool} (h : Usual g) : g 73 = false := h.others.1 73 (by simp)
theorem Usual.g93 {g : UInt8 → Bool} (h : Usual g) : g 93 = true := h.others.2

theorem arith {S A : Nat → Nat} (H : ∀ k, A k ≤ S k) {n : Nat}
    (l : 8 + (S 0 + (S 1 + (S 2 + (S 4 + (S 5 + (S 6 + (S 8 + (S 9 + (S 10 + (S 11 + (S 12 + (S 13 + (S 14 + (S 3 + (S 22 + 0))))))))))))))) ≤ n)
    (hd : n ≤ 1424) :
    12 + (A 0 + (A 1 + (A 2 + (A 4 + (A 5 + (A 6 + (13 + (A 8 + (A 9 + (A 10 + (A 11 + (A 12 + (A 13 + (A 14 +
      (A 3 + (35 + 13 + (A 22 + (11 + 0)))))))))))))))))) ≤ 1500 := by
  have e1 : S 13 + (S 14 + (S 3 + (35 + 13 + (S 22 + (11 + 0))))) = S 13 + (S 14 + (S 3 + (S 22 + 0))) + 59 := by omega
  have e2 : ∀ t, S 9 + (S 10 + (S 11 + (S 12 + (t + 59)))) = S 9 + (S 10 + (S 11 + (S 12 + t))) + 59 := by omega
  have e3 : ∀ t, S 5 + (S 6 + (13 + (S 8 + (t + 59)))) = S 5 + (S 6 + (S 8 + t)) + 72 := by omega
  have e4 : ∀ t, 12 + (S 0 + (S 1 + (S 2 + (S 4 + (t + 72))))) = 8 + (S 0 + (S 1 + (S 2 + (S 4 + t)))) + 76 := by omega
  have e := e4 (S 5 + (S 6 + (S 8 + (S 9 + (S 10 + (S 11 + (S 12 + (S 13 + (S 14 + (S 3 + (S 22 + 0)))))))))))
  rw [← e3, ← e2, ← e1] at e
  refine Nat.le_trans ?_ (Nat.le_trans (Nat.le_of_eq e) (Nat.le_trans (Nat.add_le_add_right (Nat.le_trans l hd) 76) (by decide)))
  exact Nat.add_le_add (Nat.le_refl 12) (Nat.add_le_add (H 0) (Nat.add_le_add (H 1) (Nat.add_le_add (H 2) (Nat.add_le_add (H 4)
    (Nat.add_le_add (H 5) (Nat.add_le_add (H 6) (Nat.add_le_add (Nat.le_refl 13) (Nat.add_le_add (H 8) (Nat.add_le_add (H 9)
    (Nat.add_le_add (H 10) (Nat.add_le_add (H 11) (Nat.add_le_add (H 12) (Nat.add_le_add (H 13) (Nat.add_le_add (H 14) (Nat.add_le_add
    (H 3) (Nat.add_le_add (Nat.le_refl (35 + 13)) (Nat.add_le_add (H 22) (Nat.le_refl (11 + 0)))))))))))))))))))

theorem onward_size {g : UInt8 → Bool} (hg : Usual g) {d : Bytes} {m : Message} (hp : parseMsg g d = ok m)
    (hs : m.schema = Tab.createSessionRequest) (hd : d.length ≤ 1424) (k ku : UInt32) {x x' w : Bytes} (hx : x.length = 4) (hx' : x'.length = 4)
    (hw : w.length = 4) :
    12 + ((((onward g m (fteidOf 6 0 k (ipString x)) (fteidOf 4 2 ku (ipString x')) w).map Prod.snd).filterMap id).map (IE.marshalLen g)).sum ≤ 1500 := by
  have l := passed_size hp hs
  rw [sum_some]
  obtain ⟨S, hS⟩ : ∃ S : Nat → Nat, S = fun k => ((m.fields k).map (IE.marshalLen g)).sum := ⟨_, rfl⟩
  obtain ⟨A, hA⟩ : ∃ A : Nat → Nat, A = fun k => ((m.fields k).head?.toList.map (IE.marshalLen g)).sum := ⟨_, rfl⟩
  have H : ∀ k, A k ≤ S k := by rw [hS, hA]; exact fun k => sum_head (IE.marshalLen g) (m.fields k)
  have eS : ∀ k, ((m.fields k).map (IE.marshalLen g)).sum = S k := fun k => (congrFun hS k).symm
  have eA : ∀ k, ((m.fields k).head?.toList.map (IE.marshalLen g)).sum = A k := fun k => (congrFun hA k).symm
  have b1 := fteid_size g hg.g87 6 0 k hx
  have b2 := fteid_size g hg.g87 4 2 ku hx'
  have b3 := bearer_size g hg.g93 hg.g73 hg.qos (fteidOf 4 2 ku (ipString x'))
  have b4 := csid_size g hg.g132 1 hw
  simp only [passed, List.map_cons, List.map_nil, List.sum_cons, List.sum_nil, eS] at l
  simp only [onward, List.map_cons, List.map_nil, List.sum_cons, List.sum_nil, eA]
  have t : ∀ y : IE, (List.map (IE.marshalLen g) (some y).toList).sum = y.marshalLen g := fun y => by simp
  rw [t, t, t, b1, b3, b4, b2]
  exact arith H l hd

theorem onward_sendable {g : UInt8 → Bool} (hg : Usual g) {d : Bytes} {m : Message} (hp : parseMsg g d = ok m)
    (hs : m.schema = Tab.createSessionRequest) (hd : d.length ≤ 1424) (k ku : UInt32) {x x' w : Bytes} (hx : x.length = 4) (hx' : x'.length = 4)
    (hw : w.length = 4) :
    Sendable g Tab.createSessionRequest ((onward g m (fteidOf 6 0 k (ipString x)) (fteidOf 4 2 ku (ipString x')) w).map Prod.snd) := by
  have wu : wf g (fteidOf 4 2 ku (ipString x')) = true := new_wf hg.g87 _ (Nat.lt_of_le_of_lt (length_encFTEID' _ _ _) (by decide))
  refine ⟨by simp [Tab.all], ⟨?_, ?_⟩, ⟨?_, ?_, ?_⟩, ?_⟩
  · intro y hy
    have P : ∀ {k : Nat} {y : IE}, some y = (m.fields k).head? → wf g y = true := fun e =>
      received_wf g d m hp _ _ (List.mem_of_mem_head? e.symm)
    simp only [onward, List.map_cons, List.map_nil, List.mem_cons, List.not_mem_nil, or_false] at hy
    rcases hy with e | e | e | e | e | e | e | e | e | e | e | e | e | e | e | e | e | e
    · exact P e
    · exact P e
    · exact P e
    · exact P e
    · exact P e
    · exact P e
    · obtain rfl := Option.some.inj e
      exact new_wf hg.g87 _ (Nat.lt_of_le_of_lt (length_encFTEID' _ _ _) (by decide))
    · exact P e
    · exact P e
    · exact P e
    · exact P e
    · exact P e
    · exact P e
    · exact P e
    · exact P e
    · obtain rfl := Option.some.inj e
      have wk : wfs g [newEBI 5, fteidOf 4 2 ku (ipString x'), qosIE] = true := by
        rw [wfs_iff]
        intro z hz
        simp only [List.mem_cons, List.not_mem_nil, or_false] at hz
        rcases hz with rfl | rfl | rfl
        · exact new_wf hg.g73 _ (by simp)
        · exact wu
        · exact new_wf hg.qos _ (by simp)
      have l := bearer_size g hg.g93 hg.g73 hg.qos (fteidOf 4 2 ku (ipString x'))
      rw [fteid_size g hg.g87 _ _ _ hx', bearerIE, IE.marshalLen, if_pos hg.g93, ← length_rawEncs] at l
      rw [bearerIE, wf_grouped g hg.g93]
      exact ⟨toNat_ofNat16 (by omega), rawEncs_wf g _ wk, wk⟩
    · exact P e
    · obtain rfl := Option.some.inj e
      exact new_wf hg.g132 _ (by simp [encCSID, hw])
  · exact onward_size hg hp hs hd k ku hx hx' hw
  · intro e; exact absurd (congrArg Msg.Schema.typ e) (by decide)
  · intro e; exact absurd (congrArg Msg.Schema.typ e) (by decide)
  · intro _
    exact .inl ((onward_fields hp hs k ku _ _ w 64).trans rfl)
  · rintro (e | e) <;> exact absurd (congrArg Msg.Schema.typ e) (by decide)

/-! ### the whole step -/

/-- the addresses of the S-GW -/
structure OnV4 (p : Cfg) (w11 w5c w1u w5u : Bytes) : Prop where
  s11 : w11.length = 4 ∧ p.s11IP = ipString w11
  s5c : w5c.length = 4 ∧ p.s5cIP = ipString w5c
  s1u : w1u.length = 4 ∧ p.s1uIP = ipString w1u
  s5u : w5u.length = 4 ∧ p.s5uIP = ipString w5u

/-- the connection S11 afterwards -/
def after11 (c : Conn) (s b : Nat) (a : Addr) (k : UInt32) (v : Vals) : Conn :=
  Pgw.put { reserve (forget c v.imsi) k with
      byTeid := (reserve (forget c v.imsi) k).byTeid.store k (some s)
      byImsi := (reserve (forget c v.imsi) k).byImsi.store v.imsi s } s b
    { v.sess a b with teids := (v.sess a b).teids.store 11 k } v.bearer

/-- the connection S5-C afterwards -/
def after5 (c : Conn) (s b : Nat) (a : Addr) (k ku : UInt32) (v : Vals) : Conn :=
  Pgw.put { reserve c k with byTeid := (reserve c k).byTeid.store k (some s), byImsi := (reserve c k).byImsi.store v.imsi s } s b
    (v.sess5 a b k ku) v.bearer5

/-- the state afterwards -/
def afterCreate (st : State) (e : Env) (a pgw : Addr) (k k5 ku : UInt32) (v : Vals) (m : Message) (f11 : IE) : State :=
  { blank5 e.s5 e.b5 (blank11 e.s e.b st) with
    s11 := after11 st.s11 e.s e.b a k v
    s5 := after5 st.s5 e.s5 e.b5 pgw k5 ku v
    n5 := inc st.n5
    waiting := st.waiting ++ [.create e.s e.s5 (inc st.n5) a m f11 v.mme] }

theorem register_put (c : Conn) (s b : Nat) (a : Addr) (k : UInt32) (v : Vals) (hif : c.localIf = 11) :
    registerSession (reserve (Pgw.put (forget c v.imsi) s b (v.sess a b) v.bearer) k) k s = after11 c s b a k v := by
  have e : (reserve (forget c v.imsi) k).localIf = 11 := by
    rw [(Pgw.reserve_fixed _ k).2.2.1, (Pgw.forget_fixed c v.imsi).2.2.1, hif]
  rw [put_reserve, put_register]
  unfold after11
  generalize reserve (forget c v.imsi) k = c' at e ⊢
  rw [← e]
  rfl

theorem createS5_ok {g : UInt8 → Bool} {st : State} {s5 b5 : Nat} {raddr : Addr} {ies : List (Option IE)} {c₀ c : Conn} {n : UInt32} {out : Bytes}
    (e : st.s5 = c₀) (en : st.n5 = n) (h : parseCreateSession c₀ g s5 b5 raddr ies = (c, ok ()))
    (hs : sendMessageTo g n (newMessage g Tab.createSessionRequest 0 0 ies) raddr true = (inc n, [.sent raddr out], ok (inc n))) :
    createS5 g s5 b5 raddr ies true st = ({ st with s5 := c, n5 := inc n }, [(.s5, .sent raddr out)], ok (inc n)) := by
  unfold createS5 createSession
  subst e en
  rw [h]
  simp only [hs, bind_ok]
  rfl

theorem getTEID_some {c : Conn} {s : Nat} {f : UInt8} {t : UInt32} (h : (c.heap s).teids.load f = some t) : getTEID s f c = (c, [], ok t) := by
  unfold getTEID; rw [h]

theorem create_step {g : UInt8 → Bool} (hg : Usual g) {p : Cfg} {w11 w5c w1u w5u : Bytes} (hp4 : OnV4 p w11 w5c w1u w5u) {d : Bytes} {m : Message}
    (hp : parseMsg g d = ok m) (hs : m.schema = Tab.createSessionRequest) (hd : d.length ≤ 1424) {v : Vals} (hv : v.In g m)
    (h7 : ∃ i r, m.fields 8 = i :: r ∧ i.interfaceType = ok 7) {wp : Bytes} (hwp : wp.length = 4) (hip : v.ip = ipString wp)
    (st : State) (e : Env) (a : Addr) (if11 : st.s11.localIf = 11) (if5 : st.s5.localIf = 6)
    (hdr : Droppable st.s11 e.s v.imsi) {k k5 ku : UInt32} (hk : e.k11 = some k) (hk5 : e.k5 = some k5) (hku : e.k5u = some ku) (hw : e.w = true) :
    ∃ out m', handleCreate g p e a m st =
        (afterCreate st e a (text (ipString wp ++ colon :: portC)) k k5 ku v m (fteidOf 11 0 k p.s11IP),
          [(.s5, .sent (text (ipString wp ++ colon :: portC)) out)], ok ()) ∧
      parseMsg g (asRead out) = ok m' ∧ m'.schema = Tab.createSessionRequest ∧ m'.hdr.teidAcc = 0 ∧ m'.hdr.sequence = inc st.n5 ∧
      ∀ j, m'.fields j = if j ∈ passed.map Prod.fst then m.fields j else if j = 7 then [fteidOf 6 0 k5 p.s5cIP]
        else if j = 18 then [bearerIE g (fteidOf 4 2 ku p.s5uIP)] else if j = 23 then [csidIE 1 w5u] else [] := by
  have hport : colon ∉ portC ∧ lbr ∉ portC ∧ rbr ∉ portC := by decide
  have hres : resolve v.ip portC = ok (ipString wp ++ colon :: portC) := by rw [hip]; exact resolve_v4 hwp hport
  generalize hr : text (ipString wp ++ colon :: portC) = raddr
  have hsend := onward_sendable hg hp hs hd k5 ku hp4.s5c.1 hp4.s5u.1 hp4.s5u.1
  rw [← hp4.s5c.2, ← hp4.s5u.2] at hsend
  obtain ⟨out, m', p1, p2, p3, p4, p5, p6⟩ := Pgw.posted hsend 0 st.n5 raddr rfl
  refine ⟨out, m', ?_, p2, p3, p4, p5, fun j => ?_⟩
  · have hname : m.schema.name = "CreateSessionRequest" := by rw [hs]; rfl
    unfold handleCreate
    rw [if_neg (by simp [hname])]
    refine (put_bind _ _ _ _).trans ?_
    refine (on11_go (st := blank11 e.s e.b st) (c₀ := st.s11) rfl (read_put g st.s11 e.s e.b a m v hv hdr hres) _).trans ?_
    have e11 : (Pgw.put (forget st.s11 v.imsi) e.s e.b (v.sess a e.b) v.bearer).localIf = 11 := by
      show (forget st.s11 v.imsi).localIf = 11
      rw [(Pgw.forget_fixed _ _).2.2.1, if11]
    have s1 := sender_eq (Pgw.put (forget st.s11 v.imsi) e.s e.b (v.sess a e.b) v.bearer) k p.s11IP (by rw [e11]; decide)
    rw [e11] at s1
    rw [hk]
    refine (on11_go (by rfl) s1 _).trans ?_
    refine (val_bind (a := fteidOf 11 0 k p.s11IP) rfl _ _).trans ?_
    rw [mustTEID_of (fteidOf_reads 11 0 k _ (by decide)).r_teid]
    refine (on11_go (by rfl) (set_eq (register_put st.s11 e.s e.b a k v if11)) _).trans ?_
    have s2 := sender_eq st.s5 k5 p.s5cIP (by rw [if5]; decide)
    rw [if5] at s2
    rw [hk5]
    refine (on5_go (by rfl) s2 _).trans ?_
    rw [hku]
    refine (val_bind (user_eq 4 ku p.s5uIP (by decide)) _ _).trans ?_
    refine (val_bind (forwarded_eq g hp4.s5u.1 hp4.s5u.2 m (fteidOf 6 0 k5 p.s5cIP) (fteidOf 4 2 ku p.s5uIP)) _ _).trans ?_
    refine (put_bind _ _ _ _).trans ?_
    rw [hw, hr]
    have if5' : (reserve st.s5 k5).localIf = 6 := by rw [(Pgw.reserve_fixed _ _).2.2.1, if5]
    have hc := parse5 hg.g73 hp hs hv h7 (reserve st.s5 k5) if5' e.s5 e.b5 raddr k5 ku p.s5cIP p.s5uIP w5u
    refine bind_sent (createS5_ok (by rfl) (by rfl) hc p1) ?_
    rw [show (fteidOf 4 0 ku p.s5uIP).withInstance 2 = fteidOf 4 2 ku p.s5uIP from rfl,
      mustTEID_of (fteidOf_reads 4 2 ku _ (by decide)).r_teid,
      show mustInterfaceType (fteidOf 4 2 ku p.s5uIP) = 4 by unfold mustInterfaceType; rw [(fteidOf_reads 4 2 ku _ (by decide)).r_ifType]]
    refine (on5_go (by rfl) (set_eq (put_addTEID _ _ _ _ _ _ _)) _).trans ?_
    refine (on11_go (c₀ := after11 st.s11 e.s e.b a k v) (by rfl) (getTEID_some (t := v.mme) ?_) _).trans ?_
    · unfold after11; rw [put_heap]; rfl
    · rfl
  · rw [p6]
    exact onward_fields hp hs k5 ku _ _ _ j

end Verif.V2.Sgw
