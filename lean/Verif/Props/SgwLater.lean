import Verif.Props.Sgw
import Verif.Proofs.SgwLater
import Verif.Props.UConn
/-
C100: what follows an attach through the S-GW of examples/gw-tester, or takes its place: Modify Bearer and user data, Delete Session,
a P-GW that refuses or does not answer.
-/
namespace Verif.V2.Sgw
open Res Send Conn NetIP Spec IPSpec
open Pgw (Says has_of typ_of getByTEID_ok seq_small fteidOf fteidOf_reads)

theorem has_field {m : Message} {sc : Msg.Schema} (h : m.schema = sc) (nd : sc.fields.Nodup) {k : Nat} {name : String} {l : List IE}
    (hk : sc.fields[k]? = some name) (hh : Has m name l) : m.fields k = l := by
  obtain ⟨j, hj, rfl⟩ := hh
  rw [h] at hj
  have hlt : k < sc.fields.length := by
    rcases Nat.lt_or_ge k sc.fields.length with h | h
    · exact h
    · rw [List.getElem?_eq_none h] at hk; cases hk
  rw [(List.getElem?_inj hlt nd).1 (hk.trans hj.symm)]

theorem gone_not_found {g : UInt8 → Bool} {c : Conn} {k : UInt32} (hk : k ≠ 0) (hv : c.validation = true)
    (h : ∀ a, getSessionByTEID c k a = err .notFound) : Gone g c k := by
  intro a b m w hp e
  refine C94_stranger g c a b m hp hv ?_ w
  rw [e]
  rintro (h' | ⟨s', h'⟩)
  · exact hk h'
  · rw [h a] at h'; cases h'

/-! ### the P-GW does not answer, or refuses -/

/-- the answer to the MME if there is none of the P-GW -/
def Fails (g : UInt8 → Bool) (m m' : Message) (teid : UInt32) (out : Bytes) : Prop :=
  (∀ A n aS, A.handlers.load 33 = some (.app n) → Reaches A teid aS → ∀ w, serveDatagram g A aS (asRead out) w = ([.call n aS m'], ok ())) ∧
  m'.schema = Tab.createSessionResponse ∧ m'.hdr.teidAcc = teid ∧ m'.hdr.sequence = m.hdr.sequence ∧ Says m' "Cause" (IE.cause g) 73

theorem someone (c : Conn) (t : UInt8) (u : UInt32) : ∃ (A : Conn) (n : Nat) (aP : Addr), A.handlers.load t = some (.app n) ∧ Reaches A u aP := by
  refine ⟨{ c with handlers := [(t, .app 0)], byTeid := [(u, some 0)] }, 0, (c.heap 0).peer, by simp [SyncMap.load], Or.inr ⟨0, ?_⟩⟩
  rw [getByTEID_ok]
  exact ⟨by simp [SyncMap.load], rfl⟩

theorem give_up {g : UInt8 → Bool} (hg : Usual g) (p : Cfg) {st : State} (hi : Inv none st) {i : Nat} {s s5 : Nat} {q : UInt32} {a : Addr} {m : Message}
    {f : IE} {mme k : UInt32} (hw : st.waiting[i]? = some (.create s s5 q a m f mme)) {d : Bytes} (hm : parseMsg g d = ok m)
    (hk : (st.s11.heap s).teids.load 11 = some k) (hk0 : k ≠ 0) (e : Env) (he : e.w = true) :
    ∃ st' out m', step g p st e (.expire i) = (st', [(.s11, .sent a out)], err .other) ∧ Fails g m m' mme out ∧
      (∀ a', getSessionByTEID st'.s11 k a' = err .notFound) ∧ getSessionByIMSI st'.s11 (st.s11.heap s).imsi = err .notFound ∧ Gone g st'.s11 k ∧
      st'.s5 = st.s5 ∧ st'.waiting = st.waiting.eraseIdx i := by
  have hg2 : g 2 = false := hg.others.1 2 (by simp)
  obtain ⟨out, m', h1, h2⟩ := fail_step hg2 hm { st with waiting := st.waiting.eraseIdx i } e he a (s := s) (k := k) mme
    (by show (st.s11.heap s).teids.load st.s11.localIf = _; rw [hi.s11.localIf]; exact hk)
  have nf := fun a' => (without_gone (c := st.s11) (s := s) k a').1
  obtain ⟨A, n, aP, hA1, hA2⟩ := someone st.s11 33 mme
  obtain ⟨_, q1, q2, q3, q4⟩ := h2 A n aP hA1 hA2
  obtain ⟨x, x1, x2⟩ := (create_answer g hg2 73).2
  refine ⟨with11 { st with waiting := st.waiting.eraseIdx i } (without st.s11 s k), out, m', ?_, ⟨fun A n aS h3 h4 => (h2 A n aS h3 h4).1, q1, q2, q3, ⟨x, [], has_of q1 (k := 0) (by decide) (by rw [q4]; exact x1), x2⟩⟩,
    nf, (without_gone (c := st.s11) (s := s) k "").2, gone_not_found hk0 (by exact hi.s11.validation) nf, rfl, rfl⟩
  simp only [step, hw]
  exact h1

/-- **C100** the P-GW does not answer a request that was sent on: the S-GW answers the MME, with the TEID and sequence number it expects and
the cause No Resources Available, and the session is gone on S11.  Departure: it is still there on S5, where nothing removes it. -/
theorem C100_timeout_partial (g : UInt8 → Bool) (hg : Usual g) (p : Cfg) (w11 w5c w1u w5u : Bytes) (hp : OnV4 p w11 w5c w1u w5u) (st : State)
    (h : Runs g p st) (e : Env) (hf : ∀ imsi, st.s11.byImsi.load imsi ≠ some e.s) (k k5 ku : UInt32) (hk : e.k11 = some k) (hk0 : k ≠ 0)
    (hk5 : e.k5 = some k5) (hku : e.k5u = some ku) (hw : e.w = true) (a : Addr) (d : Bytes) (m : Message) (hm : parseMsg g d = ok m)
    (hsc : m.schema = Tab.createSessionRequest) (hd : d.length ≤ 1424) (hr : Reaches st.s11 m.hdr.teidAcc a) (v : Request) (hv : Asks g m v)
    (e₂ : Env) (hw₂ : e₂.w = true) :
    ∃ st₁ out₁ st₂ out₂ m₂, step g p st e (.s11 a d) = (st₁, [(.s5, .sent (controlAddr v.pgwAddr) out₁)], ok ()) ∧
      step g p st₁ e₂ (.expire st.waiting.length) = (st₂, [(.s11, .sent a out₂)], err .other) ∧ Fails g m m₂ v.teid out₂ ∧
      (∀ a', getSessionByTEID st₂.s11 k a' = err .notFound) ∧ getSessionByIMSI st₂.s11 v.imsi = err .notFound ∧ Gone g st₂.s11 k ∧
      getSessionByTEID st₂.s5 k5 (controlAddr v.pgwAddr) = ok e.s5 ∧ getSessionByIMSI st₂.s5 v.imsi = ok e.s5 ∧ st₂.waiting = st.waiting := by
  obtain ⟨out₁, m₁, h1, -⟩ := create_core hg hp (runs_inv h) e hf hk hk5 hku hw a hm hsc hd hr hv
  have hA := asked_of st e a (controlAddr v.pgwAddr) v k k5 ku m (fteidOf 11 0 k p.s11IP)
  have hi₁ : Inv none (step g p st e (.s11 a d)).1 := runs_inv (Runs.step st e _ h hf)
  rw [h1] at hi₁
  have hwait : (afterCreate st e a (controlAddr v.pgwAddr) k k5 ku v.vals m (fteidOf 11 0 k p.s11IP)).waiting =
      st.waiting ++ [.create e.s e.s5 (inc st.n5) a m (fteidOf 11 0 k p.s11IP) v.teid] := rfl
  obtain ⟨st₂, out₂, m₂, r1, r2, r3, r4, r5, r6, r7⟩ := give_up hg p hi₁ (i := st.waiting.length) (by rw [hwait]; exact List.getElem?_concat_length) hm hA.teids11.1 hk0 e₂ hw₂
  refine ⟨_, out₁, st₂, out₂, m₂, h1, r1, r2, r3, ?_, r5, ?_, ?_, ?_⟩
  · rw [← (hA.subscriber _ (Or.inl rfl)).1]; exact r4
  · rw [r6]; exact hA.s5.1
  · rw [r6]; exact hA.s5.2
  · rw [r7, hwait]; simp [List.eraseIdx_append_of_length_le]

/-- **C100** the P-GW answers with another cause than Request Accepted: the S-GW removes its session on S5 and sends nothing; when the time
is over, it answers the MME.  Departure: that answer has the cause No Resources Available, not the P-GW's, and comes only then. -/
theorem C100_refused_partial (g : UInt8 → Bool) (hg : Usual g) (p : Cfg) (w11 w5c w1u w5u : Bytes) (hp : OnV4 p w11 w5c w1u w5u) (st : State)
    (h : Runs g p st) (e : Env) (hf : ∀ imsi, st.s11.byImsi.load imsi ≠ some e.s) (k k5 ku : UInt32) (hk : e.k11 = some k) (hk0 : k ≠ 0)
    (hk5 : e.k5 = some k5) (hk50 : k5 ≠ 0) (hku : e.k5u = some ku) (hw : e.w = true) (a : Addr) (d : Bytes) (m : Message) (hm : parseMsg g d = ok m)
    (hsc : m.schema = Tab.createSessionRequest) (hd : d.length ≤ 1424) (hr : Reaches st.s11 m.hdr.teidAcc a) (v : Request) (hv : Asks g m v)
    (d₁ : Bytes) (m₁ : Message) (hm₁ : parseMsg g d₁ = ok m₁) (hsc₁ : m₁.schema = Tab.createSessionResponse) (ht₁ : m₁.hdr.teidAcc = k5)
    (cause : UInt8) (hc : Says m₁ "Cause" (IE.cause g) cause) (hc16 : cause ≠ 16) (e₁ e₂ : Env) (hw₂ : e₂.w = true) :
    ∃ st₁ out₁ st₂ st₃ out₃ m₃, step g p st e (.s11 a d) = (st₁, [(.s5, .sent (controlAddr v.pgwAddr) out₁)], ok ()) ∧
      step g p st₁ e₁ (.s5 (controlAddr v.pgwAddr) d₁) = (st₂, [], err .other) ∧
      (∀ a', getSessionByTEID st₂.s5 k5 a' = err .notFound) ∧ getSessionByIMSI st₂.s5 v.imsi = err .notFound ∧ Gone g st₂.s5 k5 ∧
      step g p st₂ e₂ (.expire st.waiting.length) = (st₃, [(.s11, .sent a out₃)], err .other) ∧ Fails g m m₃ v.teid out₃ ∧
      (∀ a', getSessionByTEID st₃.s11 k a' = err .notFound) ∧ getSessionByIMSI st₃.s11 v.imsi = err .notFound ∧ Gone g st₃.s11 k ∧
      st₃.s5 = st₂.s5 ∧ st₃.waiting = st.waiting := by
  obtain ⟨out₁, m', h1, -⟩ := create_core hg hp (runs_inv h) e hf hk hk5 hku hw a hm hsc hd hr hv
  have hA := asked_of st e a (controlAddr v.pgwAddr) v k k5 ku m (fteidOf 11 0 k p.s11IP)
  have hi₁ : Inv none (step g p st e (.s11 a d)).1 := runs_inv (Runs.step st e _ h hf)
  rw [h1] at hi₁
  have hwait : (afterCreate st e a (controlAddr v.pgwAddr) k k5 ku v.vals m (fteidOf 11 0 k p.s11IP)).waiting =
      st.waiting ++ [.create e.s e.s5 (inc st.n5) a m (fteidOf 11 0 k p.s11IP) v.teid] := rfl
  simp only at hi₁
  generalize afterCreate st e a (controlAddr v.pgwAddr) k k5 ku v.vals m (fteidOf 11 0 k p.s11IP) = st₁ at h1 hA hi₁ hwait
  have h5 : (st₁.s5.heap e.s5).teids.load st₁.s5.localIf = some k5 := by rw [hi₁.s5.localIf]; exact hA.teids5.1
  obtain ⟨i, r, hi, hci⟩ := hc
  have hs5 : serveDatagram g st₁.s5 (controlAddr v.pgwAddr) d₁ e₁.w = ([.call 0 (controlAddr v.pgwAddr) m₁], ok ()) :=
    serve_reaches hm₁ (by rw [hi₁.s5.handlers, typ_of hm₁, hsc₁]; rfl) (by rw [ht₁]; exact Or.inr ⟨e.s5, hA.s5.1⟩) _
  have hst := refused_step (g := g) (a := controlAddr v.pgwAddr) (m := m₁) (by rw [ht₁]; exact hA.s5.1) hsc₁ ⟨i, r, has_get' hsc₁ (k := 0) (by decide) hi, hci⟩ hc16 h5
  have nf := fun a' => (without_gone (c := st₁.s5) (s := e.s5) k5 a').1
  obtain ⟨st₃, out₃, m₃, r1, r2, r3, r4, r5, r6, r7⟩ := give_up hg p (st := with5 st₁ (without st₁.s5 e.s5 k5))
    ⟨hi₁.s11, ⟨hi₁.s5.localIf, hi₁.s5.validation, hi₁.s5.handlers⟩⟩ (i := st.waiting.length)
    (by show st₁.waiting[st.waiting.length]? = _; rw [hwait]; exact List.getElem?_concat_length) hm hA.teids11.1 hk0 e₂ hw₂
  refine ⟨st₁, out₁, _, st₃, out₃, m₃, h1, ?_, nf, ?_, gone_not_found hk50 (by exact hi₁.s5.validation) nf, r1, r2, r3, ?_, r5, r6, ?_⟩
  · simp only [step]
    rw [hs5]
    exact hst
  · rw [← (hA.subscriber _ (Or.inr rfl)).1]; exact (without_gone (c := st₁.s5) (s := e.s5) k5 "").2
  · rw [← (hA.subscriber _ (Or.inl rfl)).1]; exact r4
  · rw [r7]
    show st₁.waiting.eraseIdx _ = _
    rw [hwait]; simp [List.eraseIdx_append_of_length_le]

/-! ### Modify Bearer and user data -/

/-- a Modify Bearer Request says where the eNodeB takes user data: all F-TEIDs of its first Bearer Context, and there is one, are of
interface type `f` and name this TEID and this IPv4 address -/
def Moves (m : Message) (f : UInt8) (teid : UInt32) (addr : Bytes) : Prop :=
  ∃ i r, Has m "BearerContextsToBeModified" (i :: r) ∧ (∃ j ∈ i.children, j.typ = 87) ∧
    ∀ j ∈ i.children, j.typ = 87 → j.interfaceType = ok f ∧ j.teid = ok teid ∧ j.ipAddress = ok (ipString addr)

/-- G-PDUs of 11 to 1500 octets received by `u` with TEID `k` leave on connection `n` to `addr`, with TEID `k'` and otherwise the same -/
def Forwarded (u : V1.UConn.UConn) (k : UInt32) (n : Nat) (addr : Bytes) (k' : UInt32) : Prop :=
  ∀ a f l0 l1 r, 3 ≤ r.length → r.length ≤ 1492 → V1.UConn.serve u true a ([f, 255, l0, l1] ++ be32 k ++ r) true =
    ([.sent n (text addr) ([f, 255, l0, l1] ++ be32 k' ++ r)], ok ())

/-- **C100** after an attach the MME names the eNodeB.  One answer goes to the MME, with the TEID and sequence number it expects, Request
Accepted, and the S-GW's TEID and address for user data.  From then on user data flows: what the eNodeB sends to the TEID it was given
leaves for the P-GW's TEID and address, and what the P-GW sends to its one leaves for the eNodeB's.  The sessions stay as they are.
Departure: the EBI in the answer is 0.  Partial: IPv4, an interface type the S-GW does not use itself, both sockets open. -/
theorem C100_modify_partial (g : UInt8 → Bool) (hg : Usual g) (p : Cfg) (w11 w5c w1u w5u : Bytes) (hp : OnV4 p w11 w5c w1u w5u) (st : State)
    (h : Runs g p st) (s b s5 b5 : Nat) (a aP : Addr) (v : Request) (k k5 ku k1 kP kuP : UInt32) (uAddr : Bytes) (hu : uAddr.length = 4)
    (hA : Attached st s b s5 b5 a aP v k k5 ku k1 kP kuP uAddr) (d : Bytes) (m : Message) (hm : parseMsg g d = ok m)
    (hsc : m.schema = Tab.modifyBearerRequest) (ht : m.hdr.teidAcc = k) (f : UInt8) (tE : UInt32) (wE : Bytes) (hwE : wE.length = 4)
    (hM : Moves m f tE wE) (hf : f ∉ [1, 10, 11]) (e : Env) (hw : e.w = true)
    (ho1 : st.s1u.opened st.s5u.self = true) (ho5 : st.s5u.opened st.s1u.self = true) :
    ∃ st' out m', step g p st e (.s11 a d) = (st', [(.s11, .sent a out)], ok ()) ∧
      (∀ A n aS, A.handlers.load 35 = some (.app n) → Reaches A v.teid aS → ∀ w, serveDatagram g A aS (asRead out) w = ([.call n aS m'], ok ())) ∧
      m'.schema = Tab.modifyBearerResponse ∧ m'.hdr.teidAcc = v.teid ∧ m'.hdr.sequence = m.hdr.sequence ∧ Says m' "Cause" (IE.cause g) 16 ∧
      (∃ i bc be bf, Has m' "BearerContextsModified" [i] ∧ i.children = [bc, be, bf] ∧ bc.cause g = ok 16 ∧ be.ebi g = ok 0 ∧
        FTEIDReads bf 1 k1 (some w1u) none ∧ bc.typ = 2 ∧ be.typ = 73 ∧ bf.instance' = 0) ∧
      Forwarded st'.s1u k1 st.s5u.self (userAddr uAddr) kuP ∧ Forwarded st'.s5u ku st.s1u.self (userAddr wE) tE ∧
      Attached st' s b s5 b5 a aP v k k5 ku k1 kP kuP uAddr ∧ st'.waiting = st.waiting ∧ st'.q11 = st.q11 ∧ Runs g p st' := by
  have hi := runs_inv h
  obtain ⟨i, r, h8, hx, hk⟩ := hM
  have h8 := has_field hsc (by decide +kernel) (k := 8) (by decide) h8
  simp only [List.mem_cons, List.not_mem_nil, or_false, not_or] at hf
  obtain ⟨x, out, m', y1, y2, y3, y4, y5⟩ := modify_step hg hp.s1u hm hsc (st := st) (e := e) hw (a := a) (s := s) (s5 := s5) (b := b) (b5 := b5)
    (by rw [ht]; exact hA.found11.1) (by rw [(hA.subscriber _ (Or.inl rfl)).1]; exact hA.found5.2) hA.bearer11.1 hA.bearer5.1 h8 hwE hk hx
    ⟨hf.2.1, hf.1⟩ hA.teids11.2.1 hA.teids11.2.2 hA.teids5.2.2.1 hu hA.bearer5.2.2.2.2
  obtain ⟨A, n, aS, hA1, hA2⟩ := someone st.s11 35 v.teid
  obtain ⟨_, q1, q2, q3, q4⟩ := y5 A n aS hA1 hA2
  rw [hA.bearer11.2.2, hp.s1u.2] at q4
  rw [hA.bearer5.2.2.2.1] at y4
  obtain ⟨-, F0, F5, c0, c1⟩ := modify_answer hg 0 k1 hp.s1u.1
  have hs : serveDatagram g st.s11 a d e.w = ([.call 1 a m], ok ()) := by
    refine serve_reaches hm ?_ (by rw [ht]; exact Or.inr ⟨s, hA.found11.1⟩) _
    rw [hi.s11.handlers, typ_of hm, hsc]; rfl
  have hstep : ∀ n, step g p st { e with s := n } (.s11 a d) = handleModify g p e a m st := by
    intro n
    simp only [step]
    rw [hs]
    rfl
  have hrun := runs_other h e (.s11 a d) (fun n => (hstep n).trans (hstep e.s).symm)
  rw [show step g p st e (.s11 a d) = _ from (hstep e.s).trans y4] at hrun
  refine ⟨relays (state11 st s b x { st.s11.brs b with teidOut := tE } (some (ipString wE ++ colon :: portU))) k1 ku kuP tE
      (ipString uAddr ++ colon :: portU) (ipString wE ++ colon :: portU), out, m', ?_, fun A n aS h3 h4 => (y5 A n aS h3 h4).1, q1, q2, q3, ?_, ?_, ?_, ?_, ?_, rfl, rfl, hrun⟩
  · exact (hstep e.s).trans y4
  · exact ⟨_, [], has_of q1 (k := 0) (by decide) (by rw [q4]; exact F0), c0⟩
  · exact ⟨_, _, _, _, has_of q1 (k := 5) (by decide) (by rw [q4]; exact F5), rfl, c0, c1, fteid_v4 1 0 k1 hp.s1u.1 (by decide), rfl, rfl,
      (by decide : ((0 : UInt8) &&& 0x0f) &&& 0x0f = 0)⟩
  · intro a' f' l0 l1 r' h1 h2
    exact (V1.UConn.C37_relay_partial _ a' f' l0 l1 k1 r' ⟨kuP, text (userAddr uAddr), st.s5u.self⟩
      (by exact (SyncMap.load_store _ _ _ _).trans (if_pos rfl)) (by exact ho1) h1 h2).1
  · intro a' f' l0 l1 r' h1 h2
    exact (V1.UConn.C37_relay_partial _ a' f' l0 l1 ku r' ⟨tE, text (userAddr wE), st.s1u.self⟩
      (by exact (SyncMap.load_store _ _ _ _).trans (if_pos rfl)) (by exact ho5) h1 h2).1
  · generalize hst : relays (state11 st s b x { st.s11.brs b with teidOut := tE } (some (ipString wE ++ colon :: portU))) k1 ku kuP tE
      (ipString uAddr ++ colon :: portU) (ipString wE ++ colon :: portU) = st'
    have H11 : st'.s11.heap s = x := by rw [← hst]; exact Pgw.put_heap _ _ _ _ _
    have B11 : st'.s11.brs b = { st.s11.brs b with teidOut := tE } := by rw [← hst]; exact Pgw.put_brs _ _ _ _ _
    have E5 : st'.s5 = st.s5 := by rw [← hst]; rfl
    have R5 : st'.r5 = st.r5 := by rw [← hst]; rfl
    have hl : ∀ f', f' ≠ f → (st'.s11.heap s).teids.load f' = (st.s11.heap s).teids.load f' := by rw [H11]; exact y2
    refine ⟨⟨?_, ?_⟩, by rw [E5]; exact hA.found5, ⟨?_, by rw [E5]; exact hA.active.2⟩, ?_, ⟨?_, ?_, ?_⟩, by rw [E5]; exact hA.teids5, ⟨?_, ?_, ?_⟩,
      by rw [E5, R5]; exact hA.bearer5, ⟨by rw [H11, y3]; exact hA.only.1, by rw [E5]; exact hA.only.2⟩⟩
    · refine getByTEID_ok.2 ⟨?_, ?_⟩
      · rw [← hst]; exact (getByTEID_ok.1 hA.found11.1).1
      · rw [H11, y3]; exact (getByTEID_ok.1 hA.found11.1).2
    · rw [Pgw.getByIMSI_eq (c := st.s11) (by rw [← hst]; rfl)]; exact hA.found11.2
    · rw [H11, y3]; exact hA.active.1
    · rintro z (rfl | rfl)
      · have := hA.subscriber _ (Or.inl rfl)
        rw [H11, y3]; exact this
      · have := hA.subscriber _ (Or.inr rfl)
        rw [E5]; exact this
    · rw [hl 11 (fun e => hf.2.2 e.symm)]; exact hA.teids11.1
    · rw [hl 10 (fun e => hf.2.1 e.symm)]; exact hA.teids11.2.1
    · rw [hl 1 (fun e => hf.1 e.symm)]; exact hA.teids11.2.2
    · unfold getDefaultBearer; rw [H11, y3]; exact hA.bearer11.1
    · rw [B11]; exact hA.bearer11.2.1
    · rw [B11]; exact hA.bearer11.2.2

/-! ### Delete Session -/

theorem detach_core (g : UInt8 → Bool) (hg : Usual g) (p : Cfg) (st : State) (hi : Inv none st) (s b s5 b5 : Nat) (a aP : Addr) (v : Request)
    (k k5 ku k1 kP kuP : UInt32) (hk0 : k ≠ 0) (hk50 : k5 ≠ 0) (uAddr : Bytes) (hA : Attached st s b s5 b5 a aP v k k5 ku k1 kP kuP uAddr)
    (hq : st.q11 s = []) (d : Bytes) (m : Message) (hm : parseMsg g d = ok m) (hsc : m.schema = Tab.deleteSessionRequest) (ht : m.hdr.teidAcc = k)
    (pp : Pgw.Cfg) (cAddr uAddr' : Bytes) (hpp : Pgw.OnV4 pp cAddr uAddr') (c : Conn) (hc : Pgw.Runs g pp c) (j : Nat) (aS : Addr)
    (hj : getSessionByTEID c kP aS = ok j) (hj6 : (c.heap j).teids.load 6 = some k5) (s' b' : Nat) (kk kku : UInt32)
    (e e₂ e₃ : Env) (hw : e.w = true) (hw₃ : e₃.w = true) :
    ∃ st₁ out₁ m₁ c' out₂ st₂ st₃ out₃ m₃, step g p st e (.s11 a d) = (st₁, [(.s5, .sent aP out₁)], ok ()) ∧
      parseMsg g (asRead out₁) = ok m₁ ∧ m₁.schema = Tab.deleteSessionRequest ∧ m₁.hdr.teidAcc = kP ∧ Says m₁ "LinkedEBI" (IE.ebi g) 5 ∧
      Pgw.serve g pp c s' b' (some kk) (some kku) aS (asRead out₁) true = (c', [.sent aS out₂], ok ()) ∧
      step g p st₁ e₂ (.s5 aP (asRead out₂)) = (st₂, [], ok ()) ∧
      step g p st₂ e₃ (.wake st.waiting.length) = (st₃, [(.s11, .sent a out₃)], ok ()) ∧
      (∀ A n aS', A.handlers.load 37 = some (.app n) → Reaches A v.teid aS' →
        ∀ w, serveDatagram g A aS' (asRead out₃) w = ([.call n aS' m₃], ok ())) ∧
      m₃.schema = Tab.deleteSessionResponse ∧ m₃.hdr.teidAcc = v.teid ∧ m₃.hdr.sequence = m.hdr.sequence ∧ Says m₃ "Cause" (IE.cause g) 16 ∧
      Gone g st₃.s11 k ∧ Gone g st₃.s5 k5 ∧ Gone g c' kP ∧
      (∀ a', getSessionByTEID st₃.s11 k a' = err .notFound) ∧ getSessionByIMSI st₃.s11 v.imsi = err .notFound ∧
      (∀ a', getSessionByTEID st₃.s5 k5 a' = err .notFound) ∧ getSessionByIMSI st₃.s5 v.imsi = err .notFound ∧
      (∀ a', getSessionByTEID c' kP a' = err .notFound) ∧ getSessionByIMSI c' (c.heap j).imsi = err .notFound ∧
      st₃.waiting = st.waiting ∧ st₃.q11 s = [] := by
  have im11 := (hA.subscriber _ (Or.inl rfl)).1
  have im5 := (hA.subscriber _ (Or.inr rfl)).1
  obtain ⟨out₁, m₁, h1, h2, h3, h4, h5, h6⟩ := delete_step hg.g73 (st := st) (e := e) hw (a := a) hsc (s := s) (s5 := s5) (b5 := b5)
    (by rw [ht]; exact hA.found11.1) (by rw [im11]; exact hA.found5.2) hA.teids5.2.1 hA.bearer5.1 hA.teids11.2.1
  have hpeer : (st.s5.heap s5).peer = aP := (getByTEID_ok.1 hA.found5.1).2
  rw [hpeer] at h1
  rw [hA.bearer5.2.2.1] at h6
  obtain ⟨c', u, out₂, m₂, r1, r2, r3, r4, r5, r6, r7, r8, r9, r10, r11, -, -, rl⟩ :=
    Pgw.C98_delete g hg.others pp cAddr uAddr' hpp c hc s' b' kk kku aS (asRead out₁) m₁ h2 h3 j (by rw [h4]; exact hj)
  obtain rfl : u = k5 := by rw [hj6] at r2; exact (Option.some.inj r2).symm
  rw [h4] at r8 r10
  -- the P-GW's answer on S5
  let st₁ := afterDelete st s a m v.teid
  have hs5 : serveDatagram g st₁.s5 aP (asRead out₂) e₂.w = ([.call 1 aP m₂], ok ()) :=
    r3 _ 1 _ (by show st.s5.handlers.load 37 = _; rw [hi.s5.handlers]; rfl) (Or.inr ⟨s5, hA.found5.1⟩) _
  have hp₂ : parseMsg g (asRead out₂) = ok m₂ := ((C35_reaches_partial g _ _ _ _ 1 aP m₂).1.1 (by rw [hs5]; simp)).1
  have hl5 : (st.s5.heap s5).teids.load st.s5.localIf = some u := by rw [hi.s5.localIf]; exact hA.teids5.1
  have hd5 := deleted_step (st := st₁) (a := aP) (m := m₂) (s := s) (s5 := s5) (by rw [r5]; exact hA.found5.1)
    (by show getSessionByIMSI st.s11 (st.s5.heap s5).imsi = _; rw [im5]; exact hA.found11.2) (by show (st.q11 s).length < _; rw [hq]; decide) hl5
  let st₂ := afterDeleted st₁ s s5 u m₂
  -- the waiting handler
  let x := Waiting.delete s (inc st.n5) a m v.teid
  have hwait : st₂.waiting = st.waiting ++ [x] := rfl
  have hqq : x.queue st₂ = [m₂] := by
    show (if s = s then st.q11 s ++ [m₂] else _) = _
    rw [if_pos rfl, hq]; rfl
  let st₂' := x.pop { st₂ with waiting := st₂.waiting.eraseIdx st.waiting.length }
  have hl11 : (st₂'.s11.heap s).teids.load st₂'.s11.localIf = some k := by
    show (st.s11.heap s).teids.load st.s11.localIf = some k
    rw [hi.s11.localIf]; exact hA.teids11.1
  have hlen : (asRead out₂).length ≤ 1496 := by
    have : (asRead out₂).length ≤ out₂.length := by unfold asRead; simp only [List.length_take]; omega
    omega
  obtain ⟨out₃, m₃, q1, q2, q3, q4, q5, q6, q7⟩ := finishDelete_step hp₂ r4 hlen st₂' hw₃ a m (seq_small hm) v.teid hl11
  have hread : asRead out₃ = out₃ := List.take_of_length_le (by omega)
  have nf11 := fun a' => (without_gone (c := st.s11) (s := s) k a').1
  have nf5 := fun a' => (without_gone (c := st.s5) (s := s5) u a').1
  refine ⟨st₁, out₁, m₁, c', out₂, st₂, with11 st₂' (without st.s11 s k), out₃, m₃, ?_, h2, h3, h4, ⟨_, [], has_of h3 (k := 1) (by decide) h6, ?_⟩, r1, ?_, ?_, ?_, q4, q5, q6, ?_,
    gone_not_found hk0 (by exact hi.s11.validation) nf11, gone_not_found hk50 (by exact hi.s5.validation) nf5, r10, nf11, ?_, nf5, ?_, r8, r9, ?_, ?_⟩
  · have hs : serveDatagram g st.s11 a d e.w = ([.call 2 a m], ok ()) := by
      refine serve_reaches hm ?_ (by rw [ht]; exact Or.inr ⟨s, hA.found11.1⟩) _
      rw [hi.s11.handlers, typ_of hm, hsc]; rfl
    simp only [step, hs]
    exact h1
  · exact (ebi_request g hg.g73 5).2.2
  · simp only [step]
    rw [hs5]
    exact hd5
  · have hget : st₂.waiting[st.waiting.length]? = some x := by rw [hwait]; simp
    simp only [step]
    rw [hget]
    simp only [hqq]
    rw [if_neg (by rw [r6, h5]; simp [x, Waiting.seq])]
    exact q1
  · intro A n aS' hA1 hA2 w
    rw [hread]
    exact serve_reaches q3 (by rw [typ_of q3, q4]; exact hA1) (by rw [q5]; exact hA2) w
  · obtain ⟨i, r, hi0, hc0⟩ := r7
    refine ⟨i, r, has_of q4 (k := 0) (by decide) ?_, hc0⟩
    rw [q7]; exact has_field r4 (by decide +kernel) (k := 0) (by decide) hi0
  · rw [← im11]; exact (without_gone (c := st.s11) (s := s) k "").2
  · rw [← im5]; exact (without_gone (c := st.s5) (s := s5) u "").2
  · show st₂.waiting.eraseIdx st.waiting.length = _
    rw [hwait]
    simp [List.eraseIdx_append_of_length_le]
  · show (if s = s then (st₂.q11 s).drop 1 else _) = _
    rw [if_pos rfl]
    rw [show st₂.q11 s = [m₂] from hqq]; rfl

/-- **C100** a detach.  The MME's Delete Session Request makes the S-GW send one datagram to the P-GW, with the P-GW's TEID and EBI 5; the
P-GW answers it and removes its session, that answer makes the S-GW remove the session on S5, and the waiting handler then answers the MME
with the TEID and sequence number it expects and the P-GW's cause, Request Accepted, and removes the session on S11.  In the end nothing
sent to any of the three TEIDs is handled or answered.  Partial: the session's queue has no older messages, one datagram is handled after
the other, and nothing is lost. -/
theorem C100_detach_partial (g : UInt8 → Bool) (hg : Usual g) (p : Cfg) (st : State) (h : Runs g p st) (s b s5 b5 : Nat) (a aP : Addr) (v : Request)
    (k k5 ku k1 kP kuP : UInt32) (hk0 : k ≠ 0) (hk50 : k5 ≠ 0) (uAddr : Bytes) (hA : Attached st s b s5 b5 a aP v k k5 ku k1 kP kuP uAddr)
    (hq : st.q11 s = []) (d : Bytes) (m : Message) (hm : parseMsg g d = ok m) (hsc : m.schema = Tab.deleteSessionRequest) (ht : m.hdr.teidAcc = k)
    (pp : Pgw.Cfg) (cAddr uAddr' : Bytes) (hpp : Pgw.OnV4 pp cAddr uAddr') (c : Conn) (hc : Pgw.Runs g pp c) (j : Nat) (aS : Addr)
    (hj : getSessionByTEID c kP aS = ok j) (hj6 : (c.heap j).teids.load 6 = some k5) (s' b' : Nat) (kk kku : UInt32)
    (e e₂ e₃ : Env) (hw : e.w = true) (hw₃ : e₃.w = true) :
    ∃ st₁ out₁ m₁ c' out₂ st₂ st₃ out₃ m₃, step g p st e (.s11 a d) = (st₁, [(.s5, .sent aP out₁)], ok ()) ∧
      parseMsg g (asRead out₁) = ok m₁ ∧ m₁.schema = Tab.deleteSessionRequest ∧ m₁.hdr.teidAcc = kP ∧ Says m₁ "LinkedEBI" (IE.ebi g) 5 ∧
      Pgw.serve g pp c s' b' (some kk) (some kku) aS (asRead out₁) true = (c', [.sent aS out₂], ok ()) ∧
      step g p st₁ e₂ (.s5 aP (asRead out₂)) = (st₂, [], ok ()) ∧
      step g p st₂ e₃ (.wake st.waiting.length) = (st₃, [(.s11, .sent a out₃)], ok ()) ∧
      (∀ A n aS', A.handlers.load 37 = some (.app n) → Reaches A v.teid aS' →
        ∀ w, serveDatagram g A aS' (asRead out₃) w = ([.call n aS' m₃], ok ())) ∧
      m₃.schema = Tab.deleteSessionResponse ∧ m₃.hdr.teidAcc = v.teid ∧ m₃.hdr.sequence = m.hdr.sequence ∧ Says m₃ "Cause" (IE.cause g) 16 ∧
      Gone g st₃.s11 k ∧ Gone g st₃.s5 k5 ∧ Gone g c' kP ∧
      (∀ a', getSessionByTEID st₃.s11 k a' = err .notFound) ∧ getSessionByIMSI st₃.s11 v.imsi = err .notFound ∧
      (∀ a', getSessionByTEID st₃.s5 k5 a' = err .notFound) ∧ getSessionByIMSI st₃.s5 v.imsi = err .notFound ∧
      (∀ a', getSessionByTEID c' kP a' = err .notFound) ∧ getSessionByIMSI c' (c.heap j).imsi = err .notFound ∧
      st₃.waiting = st.waiting ∧ st₃.q11 s = [] :=
  detach_core g hg p st (runs_inv h) s b s5 b5 a aP v k k5 ku k1 kP kuP hk0 hk50 uAddr hA hq d m hm hsc ht pp cAddr uAddr' hpp c hc j aS hj hj6 s' b' kk kku
    e e₂ e₃ hw hw₃

/-! ### from attach to detach -/

/-- **C100** a subscriber comes, sends and receives, and leaves: attach, Modify Bearer and detach one after the other, from any state the two
programs can reach.  The MME gets three answers, each with its TEID, the sequence number of the request and Request Accepted; the TEIDs and
addresses for user data in them are those between which user data then flows; and in the end nothing is left of the subscriber.
Partial: as for the three parts; the MME's later requests have the TEID the first answer gave. -/
theorem C100_life_partial (g : UInt8 → Bool) (hg : Usual g) (p : Cfg) (w11 w5c w1u w5u : Bytes) (hp : OnV4 p w11 w5c w1u w5u) (st : State)
    (h : Runs g p st) (ho1 : st.s1u.opened st.s5u.self = true) (ho5 : st.s5u.opened st.s1u.self = true)
    (pp : Pgw.Cfg) (cAddr uAddr : Bytes) (hpp : Pgw.OnV4 pp cAddr uAddr) (c : Conn) (hc : Pgw.Runs g pp c)
    -- the attach
    (e e₂ e₃ : Env) (hf : ∀ imsi, st.s11.byImsi.load imsi ≠ some e.s) (k k5 ku k1 : UInt32) (hk : e.k11 = some k) (hk5 : e.k5 = some k5)
    (hku : e.k5u = some ku) (hk1 : e₃.k1u = some k1) (hk0 : k ≠ 0) (hk50 : k5 ≠ 0) (hw : e.w = true) (hw₃ : e₃.w = true)
    (a : Addr) (d : Bytes) (m : Message) (hm : parseMsg g d = ok m)
    (hsc : m.schema = Tab.createSessionRequest) (hd : d.length ≤ 1424) (hr : Reaches st.s11 m.hdr.teidAcc a) (v : Request) (hv : Asks g m v)
    (ip : Bytes) (hip : Says m "PAA" IE.ipAddress ip)
    (s b : Nat) (hs : Pgw.Fresh c s) (kP kuP : UInt32) (hkP0 : kP ≠ 0) (hkP : c.byTeid.load kP = none) (aS : Addr)
    -- the Modify Bearer Request
    (e₄ : Env) (hw₄ : e₄.w = true) (d₄ : Bytes) (m₄ : Message) (hm₄ : parseMsg g d₄ = ok m₄) (hsc₄ : m₄.schema = Tab.modifyBearerRequest)
    (ht₄ : m₄.hdr.teidAcc = k) (f : UInt8) (tE : UInt32) (wE : Bytes) (hwE : wE.length = 4) (hM : Moves m₄ f tE wE) (hfT : f ∉ [1, 10, 11])
    -- the detach
    (e₅ e₆ e₇ : Env) (hw₅ : e₅.w = true) (hw₇ : e₇.w = true) (d₅ : Bytes) (m₅ : Message) (hm₅ : parseMsg g d₅ = ok m₅)
    (hsc₅ : m₅.schema = Tab.deleteSessionRequest) (ht₅ : m₅.hdr.teidAcc = k) (s' b' : Nat) (kk kku : UInt32) :
    ∃ st₁ out₁ c₁ out₂ st₂ st₃ out₃ m₃ st₄ out₄ m₄' st₅ out₅ c₂ out₆ st₆ st₇ out₇ m₇,
      step g p st e (.s11 a d) = (st₁, [(.s5, .sent (controlAddr v.pgwAddr) out₁)], ok ()) ∧
      Pgw.serve g pp c s b (some kP) (some kuP) aS (asRead out₁) true = (c₁, [.sent aS out₂], ok ()) ∧
      step g p st₁ e₂ (.s5 (controlAddr v.pgwAddr) (asRead out₂)) = (st₂, [], ok ()) ∧
      step g p st₂ e₃ (.wake st.waiting.length) = (st₃, [(.s11, .sent a out₃)], ok ()) ∧
      step g p st₃ e₄ (.s11 a d₄) = (st₄, [(.s11, .sent a out₄)], ok ()) ∧
      step g p st₄ e₅ (.s11 a d₅) = (st₅, [(.s5, .sent (controlAddr v.pgwAddr) out₅)], ok ()) ∧
      Pgw.serve g pp c₁ s' b' (some kk) (some kku) aS (asRead out₅) true = (c₂, [.sent aS out₆], ok ()) ∧
      step g p st₅ e₆ (.s5 (controlAddr v.pgwAddr) (asRead out₆)) = (st₆, [], ok ()) ∧
      step g p st₆ e₇ (.wake st.waiting.length) = (st₇, [(.s11, .sent a out₇)], ok ()) ∧
      -- what the MME gets
      (∀ A n aS', Reaches A v.teid aS' →
        (A.handlers.load 33 = some (.app n) → ∀ w, serveDatagram g A aS' (asRead out₃) w = ([.call n aS' m₃], ok ())) ∧
        (A.handlers.load 35 = some (.app n) → ∀ w, serveDatagram g A aS' (asRead out₄) w = ([.call n aS' m₄'], ok ())) ∧
        (A.handlers.load 37 = some (.app n) → ∀ w, serveDatagram g A aS' (asRead out₇) w = ([.call n aS' m₇], ok ()))) ∧
      (m₃.hdr.sequence = m.hdr.sequence ∧ m₄'.hdr.sequence = m₄.hdr.sequence ∧ m₇.hdr.sequence = m₅.hdr.sequence) ∧
      Grants g m₃ ip k kP kuP k1 w11 cAddr uAddr w1u ∧ Says m₄' "Cause" (IE.cause g) 16 ∧ Says m₇ "Cause" (IE.cause g) 16 ∧
      -- user data, before the detach
      Forwarded st₄.s1u k1 st.s5u.self (userAddr uAddr) kuP ∧ Forwarded st₄.s5u ku st.s1u.self (userAddr wE) tE ∧
      (c₁.heap s).teids.load 4 = some ku ∧
      -- in the end
      Gone g st₇.s11 k ∧ Gone g st₇.s5 k5 ∧ Gone g c₂ kP ∧ getSessionByIMSI st₇.s11 v.imsi = err .notFound ∧
      getSessionByIMSI st₇.s5 v.imsi = err .notFound ∧ getSessionByIMSI c₂ v.imsi = err .notFound ∧ st₇.waiting = st.waiting := by
  obtain ⟨st₁, out₁, c₁, out₂, st₂, st₃, out₃, m₃, A1, A2, A3, A4, A5, A6, A7, A8, A9, ⟨kids, A10⟩, A11, A12, A13, A14, A15, A16, A17, A18⟩ :=
    C99_attach_partial g hg p w11 w5c w1u w5u hp st h e hf k k5 ku hk hk5 hku hw a d m hm hsc hd hr v hv ip hip pp cAddr uAddr hpp c hc s b hs kP kuP
      hkP0 hkP aS e₂ e₃ k1 hk1 hw₃
  obtain ⟨st₄, out₄, m₄', B1, B2, B3, B4, B5, B6, -, B7, B8, B9, B10, B11, B12⟩ :=
    C100_modify_partial g hg p w11 w5c w1u w5u hp st₃ A17 _ _ _ _ a _ v k k5 ku k1 kP kuP uAddr hpp.user4 A12 d₄ m₄ hm₄ hsc₄ ht₄ f tE wE hwE hM hfT e₄ hw₄
      (by rw [A15, A16]; exact ho1) (by rw [A15, A16]; exact ho5)
  obtain ⟨st₅, out₅, m₅', c₂, out₆, st₆, st₇, out₇, m₇, D1, -, -, -, -, D2, D3, D4, D5, D6, D7, D8, D9, D10, D11, D12, -, D13, -, D14, -, D15, D16, -⟩ :=
    C100_detach_partial g hg p st₄ B12 _ _ _ _ a _ v k k5 ku k1 kP kuP hk0 hk50 uAddr B9 (by rw [B11]; exact A14) d₅ m₅ hm₅ hsc₅ ht₅ pp cAddr uAddr hpp
      c₁ A18 s aS A10.byTEID A10.teids.2.2 s' b' kk kku e₅ e₆ e₇ hw₅ hw₇
  refine ⟨st₁, out₁, c₁, out₂, st₂, st₃, out₃, m₃, st₄, out₄, m₄', st₅, out₅, c₂, out₆, st₆, st₇, out₇, m₇, A1, A2, A3, A4, B1, D1, D2, D3, ?_, ?_, ?_, A9,
    B6, D9, ?_, ?_, A11, D10, D11, D12, D13, D14, ?_, ?_⟩
  · rw [← A13, ← B10]; exact D4
  · exact fun A n aS' hR => ⟨fun hh => A5 A n aS' hh hR, fun hh => B2 A n aS' hh hR, fun hh => D5 A n aS' hh hR⟩
  · exact ⟨A8, B5, D8⟩
  · rw [← A16]; exact B7
  · rw [← A15]; exact B8
  · have := A10.subscriber
    rw [← show (c₁.heap s).imsi = v.imsi from this.1]; exact D15
  · rw [D16, B10, A13]

end Verif.V2.Sgw
