import Verif.Proofs.SgwKernel
/-
C110: the user plane of the S-GW of examples/gw-tester with kernel tunnels, together with the P-GW's (C106).  Model:
Model/SgwKernel.lean; what is assumed of the kernel is said there, in Model/PgwKernel.lean and in Model/Tunnel.lean.
-/
namespace Verif.V2.Sgw
open Res Send Conn NetIP V1.Tunnel Spec IPSpec
open Pgw (Says has_of typ_of getByTEID_ok seq_small fteidOf fteidOf_reads octets valOr LastFTEID)

/-- sgw.go:103-169: the connections with their handlers; both user plane connections got their device, and the routes and rules were made.
Of the kernel nothing is assumed but that there are no other rules for devices of these names. -/
structure Begins (k : KState) : Prop where
  st : ∃ heap11 heap5 s1u s5u, k.st = start heap11 heap5 s1u s5u
  u1 : ∃ f s, s.Ok ∧ enable f s dev1 = (k.u1, true)
  u5 : ∃ f s, s.Ok ∧ enable f s dev5 = (k.u5, true)
  net : ∃ f n a, Clean n ∧ addRoutes f n = (k.net, a, true)

/-- the states of the S-GW and the kernel after any number of events, any kernel calls and writes failing -/
inductive RunsK (g : UInt8 → Bool) (p : Cfg) : KState → Prop
  | start (k : KState) : Begins k → RunsK g p k
  | step (k : KState) (e : Env) (f : KFaults) (i : Input) : RunsK g p k → (∀ imsi, k.st.s11.byImsi.load imsi ≠ some e.s) →
      RunsK g p (stepK g p k e f i).1

theorem runsK_inv {g : UInt8 → Bool} {p : Cfg} {k : KState} (h : RunsK g p k) : KInv k := by
  induction h with
  | start k h =>
    obtain ⟨⟨_, _, _, _, h1⟩, ⟨_, _, h2, h3⟩, ⟨_, _, h4, h5⟩, ⟨_, _, _, h6, h7⟩⟩ := h
    exact ⟨by rw [h1]; exact inv_start _ _ _ _, devInv_enable h2 h3, devInv_enable h4 h5, addRoutes_out h6 h7⟩
  | step k e f i _ hf ih => exact stepK_inv g p ih e f i hf

/-- only a Create Session Request takes a new session object -/
theorem runsK_other {g : UInt8 → Bool} {p : Cfg} {k : KState} (h : RunsK g p k) (e : Env) (f : KFaults) (i : Input)
    (hi : ∀ n, stepK g p k { e with s := n } f i = stepK g p k e f i) : RunsK g p (stepK g p k e f i).1 := by
  obtain ⟨n, hn⟩ := unused k.st.s11
  rw [← hi n]
  exact RunsK.step k _ f i h hn

/-! ### which events matter -/

/-- **C110** nothing but a Modify Bearer Request for one of its sessions makes the S-GW touch the kernel; all else it does as without the
kernel -/
theorem C110_undisturbed (g : UInt8 → Bool) (p : Cfg) (k : KState) (h : RunsK g p k) (e : Env) (f : KFaults) (i : Input)
    (hi : ∀ a d m, i = .s11 a d → parseMsg g d = ok m → m.schema = Tab.modifyBearerRequest → ¬ Reaches k.st.s11 m.hdr.teidAcc a) :
    (stepK g p k e f i).1.u1 = k.u1 ∧ (stepK g p k e f i).1.u5 = k.u5 ∧ (stepK g p k e f i).1.net = k.net ∧
      (stepK g p k e f i).1.st = (step g p k.st e i).1 ∧ (stepK g p k e f i).2 = (step g p k.st e i).2 := by
  have hI := (runsK_inv h).st
  unfold stepK
  cases i with
  | s11 a d =>
    simp only
    split
    · exact ⟨rfl, rfl, rfl, rfl, rfl⟩
    · rename_i a' m u hs
      obtain ⟨h1, rfl, h2, h3⟩ := called_modify hI.s11 hs
      exact absurd h3 (hi a' d m rfl h1 h2)
    · exact ⟨rfl, rfl, rfl, rfl, rfl⟩
  | s5 a d =>
    simp only
    split
    · exact ⟨rfl, rfl, rfl, rfl, rfl⟩
    · exact ⟨rfl, rfl, rfl, rfl, rfl⟩
  | wake i => exact ⟨rfl, rfl, rfl, rfl, rfl⟩
  | expire i => exact ⟨rfl, rfl, rfl, rfl, rfl⟩

/-! ### attach -/

/-- **C110** an attach (`C99_attach_partial`, `C106_attach_partial`) leaves the S-GW's kernel as it was; the S-GW has noted the address of
the subscriber at both bearers, and the P-GW's kernel sends packets to that address to the S-GW's address and TEID for user data, and
takes packets from it, and from no other, out of G-PDUs with the TEID the P-GW has drawn.  Partial: as these. -/
theorem C110_attach_partial (g : UInt8 → Bool) (hg : Usual g) (p : Cfg) (w11 w5c w1u w5u : Bytes) (hp : OnV4 p w11 w5c w1u w5u) (k₀ : KState)
    (h : RunsK g p k₀) (e : Env) (hf : ∀ imsi, k₀.st.s11.byImsi.load imsi ≠ some e.s) (k k5 ku : UInt32) (hk : e.k11 = some k)
    (hk5 : e.k5 = some k5) (hku : e.k5u = some ku) (hw : e.w = true) (a : Addr) (d : Bytes) (m : Message) (hm : parseMsg g d = ok m)
    (hsc : m.schema = Tab.createSessionRequest) (hd : d.length ≤ 1424) (hr : Reaches k₀.st.s11 m.hdr.teidAcc a) (v : Request) (hv : Asks g m v)
    (ms : Bytes) (hms : ms.length = 4) (hip : Says m "PAA" IE.ipAddress (ipString ms))
    (pp : Pgw.Cfg) (cAddr uAddr : Bytes) (hpp : Pgw.OnV4 pp cAddr uAddr) (c : Conn) (n : Pgw.Kern) (hc : Pgw.RunsK g pp c n) (s b : Nat)
    (hs : Pgw.Fresh c s) (kP kuP : UInt32) (hk0 : kP ≠ 0) (hkP : c.byTeid.load kP = none) (hkuP : kuP.toNat ∉ n.sys.reserved) (aS : Addr)
    (e₂ e₃ : Env) (k1 : UInt32) (hk1 : e₃.k1u = some k1) (hw₃ : e₃.w = true) (f f₂ f₃ : KFaults) :
    ∃ k₁ out₁ c' n' out₂ r k₂ k₃ out₃ m₃, stepK g p k₀ e f (.s11 a d) = (k₁, [(.s5, .sent (controlAddr v.pgwAddr) out₁)], ok ()) ∧
      Pgw.serveK g pp .zero c n s b (some kP) kuP aS (asRead out₁) true = ((c', n'), [.sent aS out₂], r) ∧
      stepK g p k₁ e₂ f₂ (.s5 (controlAddr v.pgwAddr) (asRead out₂)) = (k₂, [], ok ()) ∧
      stepK g p k₂ e₃ f₃ (.wake k₀.st.waiting.length) = (k₃, [(.s11, .sent a out₃)], ok ()) ∧
      (∀ A x aS', A.handlers.load 33 = some (.app x) → Reaches A v.teid aS' →
        ∀ w, serveDatagram g A aS' (asRead out₃) w = ([.call x aS' m₃], ok ())) ∧
      m₃.hdr.sequence = m.hdr.sequence ∧ Grants g m₃ (ipString ms) k kP kuP k1 w11 cAddr uAddr w1u ∧
      Attached k₃.st e.s e.b e.s5 e.b5 a (controlAddr v.pgwAddr) v k k5 ku k1 kP kuP uAddr ∧ k₃.ip11 e.b = ipString ms ∧ k₃.ip5 e.b5 = ipString ms ∧
      k₃.u1 = k₀.u1 ∧ k₃.u5 = k₀.u5 ∧ k₃.net = k₀.net ∧ k₃.st.waiting = k₀.st.waiting ∧ k₃.st.q11 e.s = [] ∧
      n'.downlink ms = some (w5u, ku.toNat) ∧ (∀ src, n'.uplink kuP.toNat src ↔ src = ms) ∧
      (∃ kids, Pgw.Holds c' s b aS (v.onward k5 kids (ipString ms)) 5 kP kuP) ∧ RunsK g p k₃ ∧ Pgw.RunsK g pp c' n' := by
  have hI := runsK_inv h
  obtain ⟨hcR, hcK⟩ := Pgw.runsK_inv hg.others hpp hc
  obtain ⟨st₁, out₁, c', out₂, st₂, st₃, out₃, m₃, A1, A2, A3, A4, A5, _, _, A6, A7, A8, _, A9, A10, A11, _, _, _,
    ⟨m₁, be, bf, bq, B1, B2, B3, B4, B5, B6, B7, B8⟩, m₂, C0, C1, C2, C3, C4, C5, C6, C7, C8, C9⟩ :=
    attach_core g hg p w11 w5c w1u w5u hp k₀.st hI.st e hf k k5 ku hk hk5 hku hw a d m hm hsc hd hr v hv (ipString ms) hip pp cAddr uAddr hpp c hcR s b hs
      kP kuP hk0 hkP aS e₂ e₃ k1 hk1 hw₃
  have no : ∀ {i : IE} {t t' : UInt8} {P : Prop}, i.typ = t → t ≠ t' → i.typ = t' → P := fun h1 h2 h3 => absurd (h1.symm.trans h3) h2
  have hdr := drawn_of (b := b) (a := aS) (Pgw.runs_inv hg.others hpp.control hcR) hs hk0 hkP B1 B2 B8
  -- the P-GW
  obtain ⟨c₂, n', out', m', r, D1, _, _, _, _, _, _, _, D2, D3, _⟩ := Pgw.C106_attach_partial g hg.others pp cAddr uAddr hpp c n hc s b kP kuP aS (asRead out₁)
    hs hdr hkuP m₁ B1 B2 (by rw [B3]; exact Or.inl rfl) _ B8 5 (by
      intro i hi
      simp only [Request.onward, List.mem_cons, List.not_mem_nil, or_false] at hi
      rcases hi with rfl | rfl | rfl
      · exact fun _ => B5
      · exact no B6.r_typ (by decide)
      · exact no B7 (by decide)) (Or.inr ⟨be, by simp [Request.onward], B4⟩) (by
      intro i hi
      simp only [Request.onward, List.mem_cons, List.not_mem_nil, or_false] at hi
      rcases hi with rfl | rfl | rfl
      · exact no B4 (by decide)
      · intro _ hc; rw [B6.r_ifType] at hc; cases hc
      · exact no B7 (by decide)) bf ⟨[be], [bq], rfl, B6.r_typ, by
        intro j hj
        simp only [List.mem_cons, List.not_mem_nil, or_false] at hj
        subst hj
        rw [B7]; decide⟩ w5u ms ku hp.s5u.1 hms (fteid_ip B6) B6.r_teid rfl
  obtain ⟨E1, E2, _⟩ := Pgw.serveK_control g pp .zero c n s b (some kP) kuP aS (asRead out₁) true
  have hrun := Pgw.RunsK.datagram c n s b kP kuP aS (asRead out₁) .zero hc hs hdr hkuP
  rw [A2, D1] at E1 E2
  obtain rfl : c₂ = c' := E1
  obtain rfl : out' = out₂ := by simpa using E2
  rw [D1] at hrun
  -- the S-GW
  have F1 : stepK g p k₀ e f (.s11 a d) = _ := stepK_create C0 A1
  have hR₁ := RunsK.step k₀ e f (.s11 a d) h hf
  rw [F1] at hR₁
  have F2 := stepK_created (f := f₂) (k := { k₀ with st := st₁, ip11 := setIP k₀.ip11 e.b [], ip5 := setIP k₀.ip5 e.b5 [] }) C1 A3
  rw [paa5_eq C2 (by rw [C3]; exact C6.s5.1) C6.bearers.2.2.1 C4 C5] at F2
  have hR₂ := runsK_other hR₁ e₂ f₂ (.s5 (controlAddr v.pgwAddr) (asRead out')) (fun _ => rfl)
  rw [F2] at hR₂
  have F3 := stepK_wake (f := f₃) (k := { k₀ with st := st₂, ip11 := setIP k₀.ip11 e.b [], ip5 := setPAA (setIP k₀.ip5 e.b5 []) (some (e.b5, ipString ms)) }) A4
  rw [wakeIP_eq C7 C8 C2 C9 C5] at F3
  have hR₃ := runsK_other hR₂ e₃ f₃ (.wake k₀.st.waiting.length) (fun _ => rfl)
  rw [F3] at hR₃
  exact ⟨_, out₁, c₂, n', out', r, _, _, out₃, m₃, F1, D1, F2, F3, A5, A6, A7, A9, by simp [setIP], by simp [setPAA, setIP], rfl, rfl, rfl, A10, A11, D2, D3,
    A8, hR₃, hrun⟩

/-! ### Modify Bearer -/

/-- **C110** after an attach the MME names the eNodeB.  When no kernel call fails, one answer goes to the MME, as without the kernel
(`C100_modify_partial`), and from then on user data flows: a G-PDU with the TEID the eNodeB was given and a packet from the subscriber's
address leaves for the P-GW's address and TEID, one with the TEID the P-GW was given and a packet to the subscriber's address leaves for
the eNodeB's.  The two TEIDs are for this address only and this address has no other TEIDs.  Other subscribers keep what they had, if
these TEIDs were not in use for them.  Partial: as `C100_modify_partial`. -/
theorem C110_modify_partial (g : UInt8 → Bool) (hg : Usual g) (p : Cfg) (w11 w5c w1u w5u : Bytes) (hp : OnV4 p w11 w5c w1u w5u) (k₀ : KState)
    (h : RunsK g p k₀) (s b s5 b5 : Nat) (a aP : Addr) (v : Request) (k k5 ku k1 kP kuP : UInt32) (uAddr : Bytes) (hu : uAddr.length = 4)
    (hA : Attached k₀.st s b s5 b5 a aP v k k5 ku k1 kP kuP uAddr) (ms : Bytes) (hms : ms.length = 4) (h11 : k₀.ip11 b = ipString ms)
    (h5 : k₀.ip5 b5 = ipString ms) (d : Bytes) (m : Message) (hm : parseMsg g d = ok m)
    (hsc : m.schema = Tab.modifyBearerRequest) (ht : m.hdr.teidAcc = k) (f : UInt8) (tE : UInt32) (wE : Bytes) (hwE : wE.length = 4)
    (hM : Moves m f tE wE) (hf : f ∉ [1, 10, 11]) (e : Env) (hw : e.w = true) :
    ∃ k' out m', stepK g p k₀ e .zero (.s11 a d) = (k', [(.s11, .sent a out)], ok ()) ∧
      (∀ A n aS, A.handlers.load 35 = some (.app n) → Reaches A v.teid aS → ∀ w, serveDatagram g A aS (asRead out) w = ([.call n aS m'], ok ())) ∧
      m'.schema = Tab.modifyBearerResponse ∧ m'.hdr.sequence = m.hdr.sequence ∧ Says m' "Cause" (IE.cause g) 16 ∧
      (∃ i bc be bf, Has m' "BearerContextsModified" [i] ∧ i.children = [bc, be, bf] ∧ bc.cause g = ok 16 ∧ FTEIDReads bf 1 k1 (some w1u) none) ∧
      k'.forwards dev1 k1.toNat ms dev5 uAddr kuP.toNat ∧ k'.forwards dev5 ku.toNat ms dev1 wE tE.toNat ∧
      (∀ x, (k'.takes dev1 k1.toNat x → x = ms) ∧ (k'.takes dev5 ku.toNat x → x = ms)) ∧
      (∀ t, (k'.takes dev1 t ms → t = k1.toNat) ∧ (k'.takes dev5 t ms → t = ku.toNat)) ∧
      (∀ x, x ≠ ms → ¬ k₀.takes dev1 k1.toNat x → ¬ k₀.takes dev5 ku.toNat x → ∀ d t d' addr t',
        k'.forwards d t x d' addr t' ↔ k₀.forwards d t x d' addr t') ∧
      Attached k'.st s b s5 b5 a aP v k k5 ku k1 kP kuP uAddr ∧ k'.st.waiting = k₀.st.waiting ∧ k'.st.q11 = k₀.st.q11 ∧ RunsK g p k' := by
  have hI := runsK_inv h
  obtain ⟨st', out, m', y0, y1, y2, y3, y4, y5, y6, y7, y8, y9⟩ := modify_core g hg p w11 w5c w1u w5u hp k₀ hI s b s5 b5 a aP v k k5 ku k1 kP kuP uAddr hu hA ms
    hms h11 h5 d m hm hsc ht f tE wE hwE hM hf e hw
  obtain ⟨u₁, hu1⟩ : ∃ u₁, call KFaults.zero.u1 k₀.u1 (.override ⟨wE, ms, tE.toNat, k1.toNat⟩) = (u₁, .done true) :=
    ⟨_, Prod.ext rfl (hI.u1.override_zero _)⟩
  obtain ⟨u₅, hu5⟩ : ∃ u₅, call KFaults.zero.u5 k₀.u5 (.override ⟨uAddr, ms, kuP.toNat, ku.toNat⟩) = (u₅, .done true) :=
    ⟨_, Prod.ext rfl (hI.u5.override_zero _)⟩
  have hstep := y9 .zero _ _ _ _ hu1 hu5
  rw [if_pos rfl, if_pos rfl] at hstep
  have hrun := runsK_other h e .zero (.s11 a d) (fun n => by
    rw [stepK_modify (e := { e with s := n }) y0, stepK_modify y0]; rfl)
  rw [hstep] at hrun
  obtain ⟨z1, z2, z3, z4, z5⟩ := tunnels_after hI st' .zero _ _ _ _ _ _ _ hu1 hu5 rfl
  exact ⟨_, out, m', hstep, y1, y2, y3, y4, y5, z1, z2, z3, z4, z5, y6, y7, y8, hrun⟩

/-- **C110** whatever kernel calls fail, the MME gets an answer only when user data flows in both directions.  Partial: as
`C110_modify_partial`. -/
theorem C110_answer_partial (g : UInt8 → Bool) (hg : Usual g) (p : Cfg) (w11 w5c w1u w5u : Bytes) (hp : OnV4 p w11 w5c w1u w5u) (k₀ : KState)
    (h : RunsK g p k₀) (s b s5 b5 : Nat) (a aP : Addr) (v : Request) (k k5 ku k1 kP kuP : UInt32) (uAddr : Bytes) (hu : uAddr.length = 4)
    (hA : Attached k₀.st s b s5 b5 a aP v k k5 ku k1 kP kuP uAddr) (ms : Bytes) (hms : ms.length = 4) (h11 : k₀.ip11 b = ipString ms)
    (h5 : k₀.ip5 b5 = ipString ms) (d : Bytes) (m : Message) (hm : parseMsg g d = ok m)
    (hsc : m.schema = Tab.modifyBearerRequest) (ht : m.hdr.teidAcc = k) (f : UInt8) (tE : UInt32) (wE : Bytes) (hwE : wE.length = 4)
    (hM : Moves m f tE wE) (hf : f ∉ [1, 10, 11]) (e : Env) (hw : e.w = true) (fl : KFaults) :
    ∃ k' ev r, stepK g p k₀ e fl (.s11 a d) = (k', ev, r) ∧ Attached k'.st s b s5 b5 a aP v k k5 ku k1 kP kuP uAddr ∧
      (ev = [] ∧ r = err .other ∨ (∃ out, ev = [(.s11, .sent a out)]) ∧ r = ok () ∧
        k'.forwards dev1 k1.toNat ms dev5 uAddr kuP.toNat ∧ k'.forwards dev5 ku.toNat ms dev1 wE tE.toNat) := by
  have hI := runsK_inv h
  obtain ⟨st', out, m', _, _, _, _, _, _, y6, _, _, y9⟩ := modify_core g hg p w11 w5c w1u w5u hp k₀ hI s b s5 b5 a aP v k k5 ku k1 kP kuP uAddr hu hA ms
    hms h11 h5 d m hm hsc ht f tE wE hwE hM hf e hw
  obtain ⟨o₁, ho1⟩ := C69_returns fl.u1 k₀.u1 (.override ⟨wE, ms, tE.toNat, k1.toNat⟩)
  obtain ⟨o₅, ho5⟩ := C69_returns fl.u5 k₀.u5 (.override ⟨uAddr, ms, kuP.toNat, ku.toNat⟩)
  have hstep := y9 fl _ _ _ _ (Prod.ext rfl ho1) (Prod.ext rfl ho5)
  cases o₁ with
  | false => exact ⟨_, _, _, hstep, y6, Or.inl ⟨rfl, rfl⟩⟩
  | true =>
    cases o₅ with
    | false => exact ⟨_, _, _, hstep, y6, Or.inl ⟨rfl, rfl⟩⟩
    | true =>
      obtain ⟨z1, z2, _⟩ := tunnels_after hI st' fl _ _ _ _ _ _ _ (Prod.ext rfl ho1) (Prod.ext rfl ho5) rfl
      exact ⟨_, _, _, hstep, y6, Or.inr ⟨⟨out, rfl⟩, rfl, z1, z2⟩⟩

/-- departure: when the tunnel to the P-GW cannot be made, the MME is not told: nothing is sent, the session stays as it was, and so does
the tunnel to the eNodeB that was made before.  The eNodeB's packets are taken out of the G-PDUs and go nowhere. -/
theorem C110_fails_wrong (g : UInt8 → Bool) (hg : Usual g) (p : Cfg) (w11 w5c w1u w5u : Bytes) (hp : OnV4 p w11 w5c w1u w5u) (k₀ : KState)
    (h : RunsK g p k₀) (s b s5 b5 : Nat) (a aP : Addr) (v : Request) (k k5 ku k1 kP kuP : UInt32) (uAddr : Bytes) (hu : uAddr.length = 4)
    (hA : Attached k₀.st s b s5 b5 a aP v k k5 ku k1 kP kuP uAddr) (ms : Bytes) (hms : ms.length = 4) (h11 : k₀.ip11 b = ipString ms)
    (h5 : k₀.ip5 b5 = ipString ms) (d : Bytes) (m : Message) (hm : parseMsg g d = ok m)
    (hsc : m.schema = Tab.modifyBearerRequest) (ht : m.hdr.teidAcc = k) (f : UInt8) (tE : UInt32) (wE : Bytes) (hwE : wE.length = 4)
    (hM : Moves m f tE wE) (hf : f ∉ [1, 10, 11]) (e : Env) (hw : e.w = true) (hno : ∀ t, ¬ k₀.takes dev5 t ms) :
    ∃ k', stepK g p k₀ e ⟨fun _ => false, fun _ => true⟩ (.s11 a d) = (k', [], err .other) ∧
      Attached k'.st s b s5 b5 a aP v k k5 ku k1 kP kuP uAddr ∧ k'.takes dev1 k1.toNat ms ∧ k'.wraps dev1 ms = some (wE, tE.toNat) ∧
      ∀ t d' addr t', ¬ k'.forwards dev1 t ms d' addr t' := by
  have hI := runsK_inv h
  obtain ⟨st', out, m', _, _, _, _, _, _, y6, _, _, y9⟩ := modify_core g hg p w11 w5c w1u w5u hp k₀ hI s b s5 b5 a aP v k k5 ku k1 kP kuP uAddr hu hA ms
    hms h11 h5 d m hm hsc ht f tE wE hwE hM hf e hw
  have z1 := hI.u1.override_zero ⟨wE, ms, tE.toNat, k1.toNat⟩
  have hstep := y9 ⟨fun _ => false, fun _ => true⟩ _ _ _ _ (Prod.ext rfl z1) (override_none hI.u5.enabled _)
  have m1 := hI.u1.override_ok (fun _ => false) ⟨wE, ms, tE.toNat, k1.toNat⟩ z1
  have i1 := hI.u1.override (fun _ => false) ⟨wE, ms, tE.toNat, k1.toNat⟩
  refine ⟨_, hstep, y6, ⟨_, (m1 _).2 (Or.inl rfl), rfl, rfl⟩, ?_, ?_⟩
  · unfold KState.wraps
    rw [show KState.tunnels _ dev1 = ((call (fun _ => false) k₀.u1 (.override ⟨wE, ms, tE.toNat, k1.toNat⟩)).1.dev dev1).getD [] from rfl]
    rw [(Pgw.find_ms i1.distinct ms ⟨wE, ms, tE.toNat, k1.toNat⟩).2 ⟨(m1 _).2 (Or.inl rfl), rfl⟩]
    rfl
  · rintro t d' addr t' ⟨_, q2, q3⟩
    have q2 : k₀.net.out dev1 = some d' := q2
    rw [hI.net.1] at q2
    cases q2
    unfold KState.wraps at q3
    rw [Option.map_eq_some_iff] at q3
    obtain ⟨q, q4, _⟩ := q3
    have q5 : q ∈ k₀.tunnels dev5 := List.mem_of_find?_eq_some q4
    exact hno q.itei ⟨q, q5, rfl, by simpa using List.find?_some q4⟩

/-! ### from the eNodeB to the network behind the P-GW and back -/

/-- **C110** attach and Modify Bearer one after the other, from any state the two programs and their kernels can reach, no kernel call
failing: a packet of the subscriber in a G-PDU with the TEID the MME was told for the eNodeB leaves the S-GW for the P-GW's address with a
TEID out of which the P-GW takes packets of this subscriber and of no other; and the P-GW sends packets for the subscriber to the S-GW
with a TEID with which the S-GW sends them on to the eNodeB's address and TEID.  Partial: as the parts. -/
theorem C110_through_partial (g : UInt8 → Bool) (hg : Usual g) (p : Cfg) (w11 w5c w1u w5u : Bytes) (hp : OnV4 p w11 w5c w1u w5u) (k₀ : KState)
    (h : RunsK g p k₀) (e : Env) (hf : ∀ imsi, k₀.st.s11.byImsi.load imsi ≠ some e.s) (k k5 ku : UInt32) (hk : e.k11 = some k)
    (hk5 : e.k5 = some k5) (hku : e.k5u = some ku) (hw : e.w = true) (a : Addr) (d : Bytes) (m : Message) (hm : parseMsg g d = ok m)
    (hsc : m.schema = Tab.createSessionRequest) (hd : d.length ≤ 1424) (hr : Reaches k₀.st.s11 m.hdr.teidAcc a) (v : Request) (hv : Asks g m v)
    (ms : Bytes) (hms : ms.length = 4) (hip : Says m "PAA" IE.ipAddress (ipString ms))
    (pp : Pgw.Cfg) (cAddr uAddr : Bytes) (hpp : Pgw.OnV4 pp cAddr uAddr) (c : Conn) (n : Pgw.Kern) (hc : Pgw.RunsK g pp c n) (s b : Nat)
    (hs : Pgw.Fresh c s) (kP kuP : UInt32) (hk0 : kP ≠ 0) (hkP : c.byTeid.load kP = none) (hkuP : kuP.toNat ∉ n.sys.reserved) (aS : Addr)
    (e₂ e₃ : Env) (k1 : UInt32) (hk1 : e₃.k1u = some k1) (hw₃ : e₃.w = true) (f f₂ f₃ : KFaults)
    (e₄ : Env) (hw₄ : e₄.w = true) (d₄ : Bytes) (m₄ : Message) (hm₄ : parseMsg g d₄ = ok m₄) (hsc₄ : m₄.schema = Tab.modifyBearerRequest)
    (ht₄ : m₄.hdr.teidAcc = k) (fE : UInt8) (tE : UInt32) (wE : Bytes) (hwE : wE.length = 4) (hM : Moves m₄ fE tE wE) (hfT : fE ∉ [1, 10, 11]) :
    ∃ k₁ out₁ c' n' out₂ r k₂ k₃ out₃ m₃ k₄ out₄ m₄', stepK g p k₀ e f (.s11 a d) = (k₁, [(.s5, .sent (controlAddr v.pgwAddr) out₁)], ok ()) ∧
      Pgw.serveK g pp .zero c n s b (some kP) kuP aS (asRead out₁) true = ((c', n'), [.sent aS out₂], r) ∧
      stepK g p k₁ e₂ f₂ (.s5 (controlAddr v.pgwAddr) (asRead out₂)) = (k₂, [], ok ()) ∧
      stepK g p k₂ e₃ f₃ (.wake k₀.st.waiting.length) = (k₃, [(.s11, .sent a out₃)], ok ()) ∧
      stepK g p k₃ e₄ .zero (.s11 a d₄) = (k₄, [(.s11, .sent a out₄)], ok ()) ∧
      (∀ A x aS', Reaches A v.teid aS' →
        (A.handlers.load 33 = some (.app x) → ∀ w, serveDatagram g A aS' (asRead out₃) w = ([.call x aS' m₃], ok ())) ∧
        (A.handlers.load 35 = some (.app x) → ∀ w, serveDatagram g A aS' (asRead out₄) w = ([.call x aS' m₄'], ok ()))) ∧
      Grants g m₃ (ipString ms) k kP kuP k1 w11 cAddr uAddr w1u ∧ Says m₄' "Cause" (IE.cause g) 16 ∧
      -- up
      k₄.forwards dev1 k1.toNat ms dev5 uAddr kuP.toNat ∧ (∀ src, n'.uplink kuP.toNat src ↔ src = ms) ∧
      -- down
      n'.downlink ms = some (w5u, ku.toNat) ∧ k₄.forwards dev5 ku.toNat ms dev1 wE tE.toNat ∧
      -- the other subscribers
      (∀ x, x ≠ ms → ¬ k₀.takes dev1 k1.toNat x → ¬ k₀.takes dev5 ku.toNat x → ∀ d t d' addr t',
        k₄.forwards d t x d' addr t' ↔ k₀.forwards d t x d' addr t') ∧ RunsK g p k₄ ∧ Pgw.RunsK g pp c' n' := by
  obtain ⟨k₁, out₁, c', n', out₂, r, k₂, k₃, out₃, m₃, A1, A2, A3, A4, A5, _, A6, A7, A8, A9, A10, A11, A12, _, _, A13, A14, _, A15, A16⟩ :=
    C110_attach_partial g hg p w11 w5c w1u w5u hp k₀ h e hf k k5 ku hk hk5 hku hw a d m hm hsc hd hr v hv ms hms hip pp cAddr uAddr hpp c n hc s b hs kP kuP
      hk0 hkP hkuP aS e₂ e₃ k1 hk1 hw₃ f f₂ f₃
  obtain ⟨k₄, out₄, m₄', B1, B2, _, _, B3, _, B4, B5, _, _, B6, _, _, _, B7⟩ := C110_modify_partial g hg p w11 w5c w1u w5u hp k₃ A15 _ _ _ _ a _ v k k5 ku k1
    kP kuP uAddr hpp.user4 A7 ms hms A8 A9 d₄ m₄ hm₄ hsc₄ ht₄ fE tE wE hwE hM hfT e₄ hw₄
  have T : ∀ d, k₃.tunnels d = k₀.tunnels d := fun d => by unfold KState.tunnels; rw [A10, A11]
  have K : ∀ d t x, k₃.takes d t x = k₀.takes d t x := fun d t x => by unfold KState.takes; rw [T]
  have W : ∀ d x, k₃.wraps d x = k₀.wraps d x := fun d x => by unfold KState.wraps; rw [T]
  refine ⟨k₁, out₁, c', n', out₂, r, k₂, k₃, out₃, m₃, k₄, out₄, m₄', A1, A2, A3, A4, B1, fun A x aS' hR => ⟨fun hh => A5 A x aS' hh hR,
    fun hh => B2 A x aS' hh hR⟩, A6, B3, B4, A14, A13, B5, ?_, B7, A16⟩
  intro x hx n1 n5 d t d' addr t'
  rw [B6 x hx (by rw [K]; exact n1) (by rw [K]; exact n5)]
  unfold KState.forwards
  rw [K, W, A12]

/-! ### what is not taken back -/

/-- departure: a session that is deleted leaves its tunnels behind.  After the detach (`C100_detach_partial`) no session is left, and every
packet goes where it went before: the kernel still forwards for the subscriber who has left. -/
theorem C110_detach_wrong (g : UInt8 → Bool) (hg : Usual g) (p : Cfg) (k₀ : KState) (h : RunsK g p k₀) (s b s5 b5 : Nat) (a aP : Addr) (v : Request)
    (k k5 ku k1 kP kuP : UInt32) (hk0 : k ≠ 0) (hk50 : k5 ≠ 0) (uAddr : Bytes) (hA : Attached k₀.st s b s5 b5 a aP v k k5 ku k1 kP kuP uAddr)
    (hq : k₀.st.q11 s = []) (d : Bytes) (m : Message) (hm : parseMsg g d = ok m) (hsc : m.schema = Tab.deleteSessionRequest) (ht : m.hdr.teidAcc = k)
    (pp : Pgw.Cfg) (cAddr uAddr' : Bytes) (hpp : Pgw.OnV4 pp cAddr uAddr') (c : Conn) (hc : Pgw.Runs g pp c) (j : Nat) (aS : Addr)
    (hj : getSessionByTEID c kP aS = ok j) (hj6 : (c.heap j).teids.load 6 = some k5) (s' b' : Nat) (kk kku : UInt32)
    (e e₂ e₃ : Env) (hw : e.w = true) (hw₃ : e₃.w = true) (f f₂ f₃ : KFaults) :
    ∃ k₁ out₁ c' out₂ k₂ k₃ out₃, stepK g p k₀ e f (.s11 a d) = (k₁, [(.s5, .sent aP out₁)], ok ()) ∧
      Pgw.serve g pp c s' b' (some kk) (some kku) aS (asRead out₁) true = (c', [.sent aS out₂], ok ()) ∧
      stepK g p k₁ e₂ f₂ (.s5 aP (asRead out₂)) = (k₂, [], ok ()) ∧
      stepK g p k₂ e₃ f₃ (.wake k₀.st.waiting.length) = (k₃, [(.s11, .sent a out₃)], ok ()) ∧
      (∀ a', getSessionByTEID k₃.st.s11 k a' = err .notFound) ∧ getSessionByIMSI k₃.st.s11 v.imsi = err .notFound ∧
      (∀ a', getSessionByTEID k₃.st.s5 k5 a' = err .notFound) ∧ getSessionByIMSI k₃.st.s5 v.imsi = err .notFound ∧
      (∀ dv t x d' addr t', k₃.forwards dv t x d' addr t' ↔ k₀.forwards dv t x d' addr t') := by
  have hI := runsK_inv h
  obtain ⟨st₁, out₁, m₁, c', out₂, st₂, st₃, out₃, m₃, D1, _, _, _, _, D2, D3, D4, _, _, _, _, _, _, _, _, D5, D6, D7, D8, _⟩ :=
    detach_core g hg p k₀.st hI.st s b s5 b5 a aP v k k5 ku k1 kP kuP hk0 hk50 uAddr hA hq d m hm hsc ht pp cAddr uAddr' hpp c hc j aS hj hj6 s' b' kk kku
      e e₂ e₃ hw hw₃
  obtain ⟨E1, E2, E3, E4, E5⟩ := C110_undisturbed g p k₀ h e f (.s11 a d) (by
    intro a' d' m' hi hm' hsc'
    cases hi
    rw [hm] at hm'; cases hm'
    rw [hsc] at hsc'
    exact absurd (congrArg Msg.Schema.name hsc') (by decide))
  have R₁ := runsK_other h e f (.s11 a d) (fun n => by
    have hs : serveDatagram g k₀.st.s11 a d e.w = ([.call 2 a m], ok ()) := by
      refine serve_reaches hm ?_ (by rw [ht]; exact Or.inr ⟨s, hA.found11.1⟩) _
      rw [hI.st.s11.handlers, typ_of hm, hsc]; rfl
    unfold stepK step
    simp only [hs]
    rfl)
  rw [D1] at E4 E5
  generalize hk₁ : stepK g p k₀ e f (.s11 a d) = x₁ at E1 E2 E3 E4 E5 R₁
  obtain ⟨k₁, y₁⟩ := x₁
  simp only at E1 E2 E3 E4 E5 R₁
  obtain ⟨F1, F2, F3, F4, F5⟩ := C110_undisturbed g p k₁ R₁ e₂ f₂ (.s5 aP (asRead out₂)) (by intro _ _ _ hi; cases hi)
  have R₂ := runsK_other R₁ e₂ f₂ (.s5 aP (asRead out₂)) (fun _ => rfl)
  rw [E4, D3] at F4 F5
  generalize hk₂ : stepK g p k₁ e₂ f₂ (.s5 aP (asRead out₂)) = x₂ at F1 F2 F3 F4 F5 R₂
  obtain ⟨k₂, y₂⟩ := x₂
  simp only at F1 F2 F3 F4 F5 R₂
  obtain ⟨G1, G2, G3, G4, G5⟩ := C110_undisturbed g p k₂ R₂ e₃ f₃ (.wake k₀.st.waiting.length) (by intro _ _ _ hi; cases hi)
  rw [F4, D4] at G4 G5
  generalize hk₃ : stepK g p k₂ e₃ f₃ (.wake k₀.st.waiting.length) = x₃ at G1 G2 G3 G4 G5
  obtain ⟨k₃, y₃⟩ := x₃
  simp only at G1 G2 G3 G4 G5
  subst E5 F5 G5
  refine ⟨k₁, out₁, c', out₂, k₂, k₃, out₃, rfl, D2, hk₂, hk₃, by rw [G4]; exact D5, by rw [G4]; exact D6, by rw [G4]; exact D7, by rw [G4]; exact D8, ?_⟩
  intro dv t x d' addr t'
  have T : ∀ d, k₃.tunnels d = k₀.tunnels d := fun d => by unfold KState.tunnels; rw [G1, G2, F1, F2, E1, E2]
  unfold KState.forwards KState.takes KState.wraps
  rw [T, T, G3, F3, E3]

/-- departure: `close` never takes back what `addRoutes` made.  The route to the S1-U device is left, and there is an error each time; the
route to the S5-U device and the rules that were made are gone.  (The kernel drops the route when the device goes.) -/
theorem C110_close_wrong (f : Nat → Bool) (n n' : Net) (a : Added) (h : addRoutes f n = (n', a, true)) :
    (takeBack a n').1.table 2001 = none ∧ (takeBack a n').1.table 2005 = some dev1 ∧ (takeBack a n').1.rules = n.rules ∧ (takeBack a n').2 = 1 :=
  takeBack_of h

end Verif.V2.Sgw
