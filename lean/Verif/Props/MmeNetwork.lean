import Verif.Props.Mme
/-
C103: an attach through the MME, the S-GW and the P-GW of examples/gw-tester.  A concrete run is in Props/MmeRuns.lean.
-/
namespace Verif.V2.Mme
open Res Send Conn NetIP Spec IPSpec Utils
open Pgw (fteidOf fteidOf_reads typ_of getByTEID_ok has_of put_heap put_brs)
open Pgw (Says)
open Sgw (text portC portU controlAddr userAddr has_field has_get' Forwarded Moves)

/-- the S-GW's acceptance: the MME has the S-GW's TEIDs, and the session is active -/
theorem accepted_step {g : UInt8 → Bool} {p : Cfg} {r : Attach} {st : State} {s b : Nat} {aS : Addr} {k : UInt32} (hne : r.imsi ≠ [])
    (hW : Waits st s b aS p r k) {m : Message} (hsc : m.schema = Tab.createSessionResponse) (ht : m.hdr.teidAcc = k) {ip w11 cAddr uAddr w1u : Bytes}
    {kS kP kuP k1 : UInt32} (hG : Sgw.Grants g m ip kS kP kuP k1 w11 cAddr uAddr w1u) :
    ∃ T, handleCreated g aS m st = ({ withC st (Pgw.put st.s11 s b { st.s11.heap s with teids := T, active := true } { st.s11.brs b with ebi := 5 }) with
        created := st.created + 1 }, [], ok ()) ∧ T.load 11 = some kS ∧ T.load 1 = some k1 ∧ T.load 10 = some k := by
  obtain ⟨i0, r0, h0, c0⟩ := hG.cause
  obtain ⟨i4, h4, c4⟩ := hG.sgw
  obtain ⟨i6, r6, h6, c6⟩ := hG.paa
  obtain ⟨i, bc, be, bp, bs, h11, hc, -, x2, x3, x4, x5, x6, x7⟩ := hG.bearer
  obtain ⟨T, t1, t2, t3, t4⟩ := read_created (g := g) (a := aS) (c := st.s11) (s := s) (b := b) (by rw [ht]; exact hW.found.1) hsc
    ⟨_, _, has_get' hsc (k := 0) (by decide) h0, c0⟩ hW.bearer.1
    (fun j hj => by rw [has_get' hsc (k := 6) (by decide) h6] at hj; cases hj; exact ⟨_, c6⟩)
    ⟨_, _, has_get' hsc (k := 4) (by decide) h4, c4.r_teid⟩ (by rw [hW.teids.1]; simp) (by rw [hW.subscriber.1]; exact hne)
    ⟨_, _, has_get' hsc (k := 11) (by decide) h11, hc⟩ x5 x6 x2 x3.r_typ x3.r_ifType x3.r_teid x4.r_typ x4.r_ifType x4.r_teid x7 (by decide)
  exact ⟨T, handle_created t1, t2, t3, by rw [t4 10 (by decide)]; exact hW.teids.1⟩

theorem moves_of {g : UInt8 → Bool} {m : Message} (hsc : m.schema = Tab.modifyBearerRequest) {ebi : UInt8} {itei : UInt32} {w : Bytes} (hw : w.length = 4)
    (h8 : m.fields 8 = [modIE g ebi (fteidOf 0 0 itei (ipString w))]) : Moves m 0 itei w := by
  have F := Sgw.fteid_v4 0 0 itei hw (by decide)
  refine ⟨_, [], has_of hsc (k := 8) (by decide) h8, ⟨fteidOf 0 0 itei (ipString w), by simp [modIE, IE.children], rfl⟩, ?_⟩
  intro j hj ht
  rw [show (modIE g ebi (fteidOf 0 0 itei (ipString w))).children = [newEBI ebi, fteidOf 0 0 itei (ipString w), newIE 126 0 [8, 77]] from rfl] at hj
  simp only [List.mem_cons, List.not_mem_nil, or_false] at hj
  rcases hj with rfl | rfl | rfl
  · exact absurd ht (by decide : ¬ (73 : UInt8) = 87)
  · exact ⟨F.r_ifType, F.r_teid, Sgw.fteid_ip F⟩
  · exact absurd ht (by decide : ¬ (126 : UInt8) = 87)

/-- the subscriber's session of the MME in the end -/
structure Served (st : State) (s : Nat) (aS : Addr) (p : Cfg) (r : Attach) (k kS k1 : UInt32) : Prop where
  found : getSessionByTEID st.s11 k aS = ok s ∧ getSessionByIMSI st.s11 r.imsi = ok s
  active : (st.s11.heap s).active = true
  subscriber : (st.s11.heap s).imsi = r.imsi ∧ (st.s11.heap s).msisdn = r.msisdn ∧ (st.s11.heap s).imei = r.imeisv ∧
    (st.s11.heap s).mcc = p.mcc ∧ (st.s11.heap s).mnc = p.mnc ∧ (st.s11.heap s).rat = 6
  /-- its own TEID, and the S-GW's for control messages and for user data -/
  teids : (st.s11.heap s).teids.load 10 = some k ∧ (st.s11.heap s).teids.load 11 = some kS ∧ (st.s11.heap s).teids.load 1 = some k1

/-- **C103** an attach through all three.  A call of the eNB makes the MME send a Create Session Request; the S-GW asks the P-GW, which answers,
and the S-GW answers the MME; the MME then sends a Modify Bearer Request with the eNB's address and TEID, the S-GW answers it, and the call is
answered, successfully, with the S-GW's address and TEID for user data.  From then on what the eNB sends to there leaves the S-GW for the
P-GW's address and TEID for user data, and what the P-GW sends to the S-GW's TEID it was told leaves for the address and TEID of the call.
All three have active sessions with the subscriber's values and each other's TEIDs, and no call and no handler waits that did not before.
Partial: IPv4, IMSIs with an odd number of digits, one event follows the other, and nothing is lost. -/
theorem C103_attach_partial (g : UInt8 → Bool) (hg : Usual g)
    -- the MME and the call
    (p : Cfg) (r : Attach) (mcc mnc w11 wS wP wE wU : Bytes) (hP : Proper p r mcc mnc w11 wS wP wE wU) (st : State) (h : Runs g p st)
    (id : Nat) (e e₁ e₂ e₃ e₄ : Env) (k : UInt32) (hk : e.k = some k) (hw : e.w = true) (hw₂ : e₂.w = true)
    -- the S-GW, which sees the MME at `aM`
    (pS : Sgw.Cfg) (w5c w1u w5u : Bytes) (hpS : Sgw.OnV4 pS wS w5c w1u w5u) (stS : Sgw.State) (hS : Sgw.Runs g pS stS)
    (ho1 : stS.s1u.opened stS.s5u.self = true) (ho5 : stS.s5u.opened stS.s1u.self = true) (aM : Addr)
    (f f₂ f₃ f₄ : Sgw.Env) (hf : ∀ imsi, stS.s11.byImsi.load imsi ≠ some f.s) (kS k5 ku k1 : UInt32) (hkS : f.k11 = some kS) (hk5 : f.k5 = some k5)
    (hku : f.k5u = some ku) (hk1 : f₃.k1u = some k1) (hfw : f.w = true) (hfw₃ : f₃.w = true) (hfw₄ : f₄.w = true)
    -- the P-GW, which sees the S-GW at `aG`
    (pp : Pgw.Cfg) (uAddr : Bytes) (hpp : Pgw.OnV4 pp wP uAddr) (c : Conn) (hc : Pgw.Runs g pp c) (s b : Nat) (hs : Pgw.Fresh c s)
    (kP kuP : UInt32) (hkP0 : kP ≠ 0) (hkP : c.byTeid.load kP = none) (aG : Addr) :
    ∃ st₁ o₁ sS₁ o₂ c' o₃ sS₂ sS₃ o₄ st₂ st₃ o₅ sS₄ o₆ st₄ st₅,
      step g p st e (.attach id r) = (st₁, [.s11 (.sent (controlAddr wS) o₁)], ok ()) ∧
      Sgw.step g pS stS f (.s11 aM (asRead o₁)) = (sS₁, [(.s5, .sent (controlAddr wP) o₂)], ok ()) ∧
      Pgw.serve g pp c s b (some kP) (some kuP) aG (asRead o₂) true = (c', [.sent aG o₃], ok ()) ∧
      Sgw.step g pS sS₁ f₂ (.s5 (controlAddr wP) (asRead o₃)) = (sS₂, [], ok ()) ∧
      Sgw.step g pS sS₂ f₃ (.wake stS.waiting.length) = (sS₃, [(.s11, .sent aM o₄)], ok ()) ∧
      step g p st₁ e₁ (.s11 (controlAddr wS) (asRead o₄)) = (st₂, [], ok ()) ∧
      step g p st₂ e₂ (.wake st.waiting.length) = (st₃, [.s11 (.sent (controlAddr wS) o₅)], ok ()) ∧
      Sgw.step g pS sS₃ f₄ (.s11 aM (asRead o₅)) = (sS₄, [(.s11, .sent aM o₆)], ok ()) ∧
      step g p st₃ e₃ (.s11 (controlAddr wS) (asRead o₆)) = (st₄, [], ok ()) ∧
      step g p st₄ e₄ (.wake st.waiting.length) = (st₅, [.done id (userAddr w1u) k1], ok ()) ∧
      Forwarded sS₄.s1u k1 stS.s5u.self (userAddr uAddr) kuP ∧ Forwarded sS₄.s5u ku stS.s1u.self (userAddr wE) r.itei ∧
      Served st₅ e.s (controlAddr wS) p r k kS k1 ∧ st₅.waiting = st.waiting ∧ st₅.created = st.created ∧ st₅.modified = st.modified ∧
      Sgw.Attached sS₄ f.s f.b f.s5 f.b5 aM (controlAddr wP) (request p r wP k) kS k5 ku k1 kP kuP uAddr ∧ sS₄.waiting = stS.waiting ∧
      (∃ kids, Pgw.Holds c' s b aG ((request p r wP k).onward k5 kids (ipString wU)) 5 kP kuP) ∧ (c'.heap s).teids.load 4 = some ku ∧
      Runs g p st₅ ∧ Sgw.Runs g pS sS₄ ∧ Pgw.Runs g pp c' := by
  have hne : r.imsi ≠ [] := by
    intro e
    have := hP.imsi.2.1
    rw [e] at this
    cases this
  -- the call
  obtain ⟨st₁, o₁, m₁, a1, a2, a3, a4, -, a6, a7, a8, a9, a10, a11, a12, a13, -⟩ := C102_attach_partial g hg p r mcc mnc w11 wS wP wE wU hP st h e id k hk hw
  have hr₁ : Runs g p (step g p st e (.attach id r)).1 := Runs.step st e _ h
  rw [a1] at hr₁
  have hlen : (asRead o₁).length ≤ 1424 := by
    unfold asRead; simp only [List.length_take]; omega
  -- the two gateways
  obtain ⟨sS₁, o₂, c', o₃, sS₂, sS₃, o₄, m₄, b1, b2, b3, b4, b5, b6, b7, -, b9, b10, b11, b12, b13, -, b15, b16, b17, b18⟩ :=
    Sgw.C99_attach_partial g hg.sgw pS wS w5c w1u w5u hpS stS hS f hf kS k5 ku hkS hk5 hku hfw aM (asRead o₁) m₁ a2 a3 hlen (by rw [a4]; exact Or.inl rfl)
      (request p r wP k) a7 (ipString wU) a8 pp wP uAddr hpp c hc s b hs kP kuP hkP0 hkP aG f₂ f₃ k1 hk1 hfw₃
  -- the answer at the MME
  have hI₁ := runs_inv hr₁
  have d4 := b5 st₁.s11 0 (controlAddr wS) (by rw [hI₁.handlers]; rfl) (Or.inr ⟨e.s, a9.found.1⟩) e₁.w
  obtain ⟨T, t1, t2, t3, t4⟩ := accepted_step hne a9 b6 b7 b9
  let st₂ : State := { withC st₁ (Pgw.put st₁.s11 e.s e.b { st₁.s11.heap e.s with teids := T, active := true } { st₁.s11.brs e.b with ebi := 5 }) with
    created := st₁.created + 1 }
  have H₂ : st₂.s11.heap e.s = { st₁.s11.heap e.s with teids := T, active := true } := put_heap _ _ _ _ _
  have B₂ : st₂.s11.brs e.b = { st₁.s11.brs e.b with ebi := 5 } := put_brs _ _ _ _ _
  have hst₂ : step g p st₁ e₁ (.s11 (controlAddr wS) (asRead o₄)) = (st₂, [], ok ()) := by
    simp only [step]
    rw [d4]
    exact t1
  have hr₂ : Runs g p (step g p st₁ e₁ (.s11 (controlAddr wS) (asRead o₄))).1 := Runs.step st₁ e₁ _ hr₁
  rw [hst₂] at hr₂
  have peer : (st₁.s11.heap e.s).peer = controlAddr wS := (getByTEID_ok.1 a9.found.1).2
  have found₂ : getSessionByTEID st₂.s11 k (controlAddr wS) = ok e.s :=
    getByTEID_ok.2 ⟨(getByTEID_ok.1 a9.found.1).1, by rw [H₂]; exact peer⟩
  -- the Modify Bearer Request
  let x : Waiting := ⟨.created, id, e.s, r.itei, 0⟩
  have hw₂' : st₂.waiting = st.waiting ++ [x] := a11
  let st₂' : State := { st₂ with created := st₁.created, waiting := st.waiting }
  obtain ⟨o₅, m₅, q1, q2, q3, q4, -, q6⟩ := modify_step hg (st := st₂') (s := e.s) (b := e.b) (t := kS) (itei := r.itei) hP.enb.1
    (by show (st₂.s11.heap e.s).teids.load 11 = some kS; rw [H₂]; exact t2) (by exact a10)
    (by show getDefaultBearer st₂.s11 e.s = some e.b; unfold getDefaultBearer; rw [H₂]; exact a9.bearer.1)
  have peer₂ : (st₂'.s11.heap e.s).peer = controlAddr wS := by show (st₂.s11.heap e.s).peer = _; rw [H₂]; exact peer
  rw [peer₂] at q1
  let st₃ : State := { st₂' with n := inc st₂'.n, waiting := st.waiting ++ [{ x with phase := .modified }] }
  have hst₃ : step g p st₂ e₂ (.wake st.waiting.length) = (st₃, [.s11 (.sent (controlAddr wS) o₅)], ok ()) := by
    simp only [step]
    rw [show st₂.waiting[st.waiting.length]? = some x from by rw [hw₂']; exact List.getElem?_concat_length]
    simp only [x]
    rw [if_neg (by exact Nat.succ_ne_zero _)]
    rw [next_created rfl]
    unfold afterCreated
    have e1 : ({ { st₂ with created := st₂.created - 1 } with waiting := st₂.waiting.eraseIdx st.waiting.length } : State) = st₂' := by
      show ({ st₂ with created := st₁.created + 1 - 1, waiting := st₂.waiting.eraseIdx st.waiting.length } : State) = _
      rw [hw₂']
      simp [List.eraseIdx_append_of_length_le, st₂']
    rw [hw₂]
    refine (congrArg (orFail _ _ _ _) e1).trans ?_
    exact orFail_ok q1
  have hr₃ : Runs g p (step g p st₂ e₂ (.wake st.waiting.length)).1 := Runs.step st₂ e₂ _ hr₂
  rw [hst₃] at hr₃
  -- at the S-GW
  obtain ⟨sS₄, o₆, m₆, u1, u2, u3, u4, -, u6, ⟨i, bc, be, bf, u7, u8, -, -, u11, u12, u13, u14⟩, u15, u16, u17, u18, -, u20⟩ :=
    Sgw.C100_modify_partial g hg.sgw pS wS w5c w1u w5u hpS sS₃ b17 f.s f.b f.s5 f.b5 aM (controlAddr wP) (request p r wP k) kS k5 ku k1 kP kuP uAddr
      hpp.user4 b12 (asRead o₅) m₅ q2 q3 q4 0 r.itei wE hP.enb.1 (moves_of q3 hP.enb.1 q6) (by decide) f₄ hfw₄ (by rw [b15, b16]; exact ho1) (by rw [b15, b16]; exact ho5)
  rw [b15] at u16
  rw [b16] at u15
  -- its answer at the MME
  have hI₃ := runs_inv hr₃
  have d6 := u2 st₃.s11 1 (controlAddr wS) (by rw [hI₃.handlers]; rfl) (Or.inr ⟨e.s, found₂⟩) e₃.w
  obtain ⟨i0, r0, h0, c0⟩ := u6
  have hm := handle_modified (g := g) (a := controlAddr wS) (st := st₃) (s := e.s) (by rw [u4]; exact found₂) u3
    ⟨_, _, has_field u3 (by decide +kernel) (k := 0) (by decide) h0, c0⟩ ⟨_, _, has_field u3 (by decide +kernel) (k := 5) (by decide) u7, u8⟩
    u12 u13 u11.r_typ u14 u11.r_ifType u11.r_teid (Sgw.fteid_ip u11)
  let st₄ : State := { st₃ with s11 := addTEID st₃.s11 e.s 1 k1, sgwIP := ipString w1u, modified := st₃.modified + 1 }
  have H₄ : st₄.s11.heap e.s = { st₁.s11.heap e.s with teids := T.store 1 k1, active := true } := by
    show (if e.s = e.s then { st₂.s11.heap e.s with teids := (st₂.s11.heap e.s).teids.store 1 k1 } else _) = _
    rw [if_pos rfl, H₂]
  have hst₄ : step g p st₃ e₃ (.s11 (controlAddr wS) (asRead o₆)) = (st₄, [], ok ()) := by
    simp only [step]
    rw [d6]
    exact hm
  have hr₄ : Runs g p (step g p st₃ e₃ (.s11 (controlAddr wS) (asRead o₆))).1 := Runs.step st₃ e₃ _ hr₃
  rw [hst₄] at hr₄
  -- the answer to the call
  let st₅ : State := { st₄ with modified := st₃.modified, waiting := st.waiting }
  have hst₅ : step g p st₄ e₄ (.wake st.waiting.length) = (st₅, [.done id (userAddr w1u) k1], ok ()) := by
    simp only [step]
    rw [show st₄.waiting[st.waiting.length]? = some { x with phase := .modified } from List.getElem?_concat_length]
    simp only [x]
    rw [if_neg (by exact Nat.succ_ne_zero _)]
    rw [next_modified rfl]
    unfold afterModified
    have e1 : ({ { st₄ with modified := st₄.modified - 1 } with waiting := st₄.waiting.eraseIdx st.waiting.length } : State) = st₅ := by
      show ({ st₄ with modified := st₃.modified + 1 - 1, waiting := (st.waiting ++ [{ x with phase := .modified }]).eraseIdx st.waiting.length } : State) = _
      simp [List.eraseIdx_append_of_length_le, st₅]
    refine (congrArg (orFail _ _ _ _) e1).trans ?_
    refine (orFail_ok (on_eq (Sgw.getTEID_some (t := k1) ?_))).trans ?_
    · show (st₄.s11.heap e.s).teids.load 1 = some k1
      rw [H₄]; simp [SyncMap.load_store]
    · rfl
  have hr₅ : Runs g p (step g p st₄ e₄ (.wake st.waiting.length)).1 := Runs.step st₄ e₄ _ hr₄
  rw [hst₅] at hr₅
  have H₅ : st₅.s11.heap e.s = { st₁.s11.heap e.s with teids := T.store 1 k1, active := true } := H₄
  refine ⟨st₁, o₁, sS₁, o₂, c', o₃, sS₂, sS₃, o₄, st₂, st₃, o₅, sS₄, o₆, st₄, st₅, a1, b1, b2, b3, b4, hst₂, hst₃, u1, hst₄, hst₅, u15, u16, ?_, rfl, a12, a13, u17,
    u18.trans b13, b10, b11, hr₅, u20, b18⟩
  refine ⟨⟨?_, ?_⟩, by rw [H₅], ?_, ?_⟩
  · exact getByTEID_ok.2 ⟨(getByTEID_ok.1 a9.found.1).1, by rw [H₅]; exact peer⟩
  · exact a9.found.2
  · rw [H₅]; exact a9.subscriber
  · rw [H₅]
    refine ⟨?_, ?_, ?_⟩
    · show (T.store 1 k1).load 10 = _
      rw [SyncMap.load_store, if_neg (by decide)]; exact t4
    · show (T.store 1 k1).load 11 = _
      rw [SyncMap.load_store, if_neg (by decide)]; exact t2
    · show (T.store 1 k1).load 1 = _
      rw [SyncMap.load_store, if_pos rfl]

end Verif.V2.Mme
