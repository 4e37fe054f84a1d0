import Verif.Proofs.MmeInv
/-
C102: the MME of examples/gw-tester, towards the eNB that calls it and the S-GW.  Concrete runs are in Props/MmeRuns.lean.
-/
namespace Verif.V2.Mme
open Res Send Conn NetIP Spec IPSpec Utils
open Pgw (H drop getTEID fteidOf fteidOf_reads typ_of getByTEID_ok has_of)
open Pgw (Says)
open Sgw (text portC portU controlAddr without without_gone drop_eq gone_not_found has_field)

/-- the states of the MME after any number of events: calls with any arguments, datagrams of any octets from anyone, goroutines that go on
because of a message or because their time is over; writes may fail -/
inductive Runs (g : UInt8 → Bool) (p : Cfg) : State → Prop
  | start (heap : Nat → Sess) : Runs g p (start heap)
  | step (st : State) (e : Env) (i : Input) : Runs g p st → Runs g p (step g p st e i).1

theorem runs_inv {g : UInt8 → Bool} {p : Cfg} {st : State} (h : Runs g p st) : Inv st.s11 := by
  induction h with
  | start => exact ⟨rfl, rfl, rfl⟩
  | step st e i _ ih => exact step_inv g p st e i ih

/-! ### every call is answered once -/

/-- `Runs`, with the calls that were made and all that the MME did, until it crashes -/
inductive History (g : UInt8 → Bool) (p : Cfg) : State → List Nat → List Out → Prop
  | start (heap : Nat → Sess) : History g p (start heap) [] []
  | step (st : State) (ids : List Nat) (outs : List Out) (e : Env) (i : Input) : History g p st ids outs → Alive (step g p st e i).2.2 →
    History g p (step g p st e i).1 (ids ++ begins i) (outs ++ (step g p st e i).2.1)

/-- **C102** however calls, datagrams and time-outs follow one another: a call has been answered or is waiting, and never both -/
theorem C102_answers (g : UInt8 → Bool) (p : Cfg) (st : State) (ids : List Nat) (outs : List Out) (h : History g p st ids outs) (id : Nat) :
    answers id outs + pending id st.waiting = ids.count id := by
  induction h with
  | start => rfl
  | step st ids outs e i _ ha ih =>
    have := step_count g p st e i ha id
    rw [answers_append, List.count_append]
    omega

/-- **C102** so a call that is made once is never answered twice -/
theorem C102_once (g : UInt8 → Bool) (p : Cfg) (st : State) (ids : List Nat) (outs : List Out) (h : History g p st ids outs) (id : Nat)
    (hid : ids.count id ≤ 1) : answers id outs ≤ 1 := by
  have := C102_answers g p st ids outs h id
  omega

/-! ### Attach -/

/-- the session the MME has of a subscriber while it waits for the S-GW -/
structure Waits (st : State) (s b : Nat) (aS : Addr) (p : Cfg) (r : Attach) (k : UInt32) : Prop where
  found : getSessionByTEID st.s11 k aS = ok s ∧ getSessionByIMSI st.s11 r.imsi = ok s
  inactive : (st.s11.heap s).active = false
  subscriber : (st.s11.heap s).imsi = r.imsi ∧ (st.s11.heap s).msisdn = r.msisdn ∧ (st.s11.heap s).imei = r.imeisv ∧
    (st.s11.heap s).mcc = p.mcc ∧ (st.s11.heap s).mnc = p.mnc ∧ (st.s11.heap s).rat = 6
  /-- the MME's own TEID is known, and none of the S-GW -/
  teids : (st.s11.heap s).teids.load 10 = some k ∧ (st.s11.heap s).teids.load 11 = none ∧ (st.s11.heap s).teids.load 1 = none
  bearer : getDefaultBearer st.s11 s = some b ∧ (st.s11.brs b).ebi = 5 ∧ (st.s11.brs b).apn = p.apn

theorem waits_after {p : Cfg} {r : Attach} {mcc mnc : Bytes} (st : State) (e : Env) (id : Nat)
    (x : Bytes) (raddr : Addr) (k : UInt32) :
    Waits (afterAttach p st e id r mcc mnc x raddr k) e.s e.b raddr p r k := by
  have H : (afterAttach p st e id r mcc mnc x raddr k).s11.heap e.s = sessOf p r raddr e.b k := Pgw.put_heap _ _ _ _ _
  have B : (afterAttach p st e id r mcc mnc x raddr k).s11.brs e.b = bearerOf p := Pgw.put_brs _ _ _ _ _
  refine ⟨⟨?_, ?_⟩, ?_, ?_, ?_, ?_⟩
  · refine getByTEID_ok.2 ⟨?_, by rw [H]; rfl⟩
    show ((reserve st.s11 k).byTeid.store k (some e.s)).load k = some (some e.s)
    simp [SyncMap.load_store]
  · unfold getSessionByIMSI
    have : (afterAttach p st e id r mcc mnc x raddr k).s11.byImsi.load r.imsi = some e.s := by
      show ((reserve st.s11 k).byImsi.store r.imsi e.s).load r.imsi = some e.s
      simp [SyncMap.load_store]
    rw [this]
  · rw [H]; rfl
  · rw [H]; exact ⟨rfl, rfl, rfl, rfl, rfl, rfl⟩
  · rw [H]
    exact ⟨rfl, rfl, rfl⟩
  · refine ⟨?_, by rw [B]; rfl, by rw [B]; rfl⟩
    unfold getDefaultBearer
    rw [H]; rfl

/-- what the MME asks the S-GW for -/
def request (p : Cfg) (r : Attach) (wP : Bytes) (k : UInt32) : Sgw.Request :=
  ⟨r.imsi, r.msisdn, r.imeisv, p.apn, p.mcc, p.mnc, 6, k, 0, wP⟩

/-- **C102** a call with complete values makes the MME send one datagram, to the S-GW: a Create Session Request with TEID 0 and the next
sequence number, with the subscriber's numbers and address from the call, the network, name and P-GW of the configuration and the MME's new
TEID.  The call waits, unanswered; the session is found by that TEID and by the IMSI and is not active.  Partial: IPv4, IMSIs with an odd
number of digits (C44), an access point name of at most 100 octets. -/
theorem C102_attach_partial (g : UInt8 → Bool) (hg : Usual g) (p : Cfg) (r : Attach) (mcc mnc w11 wS wP wE wU : Bytes)
    (hP : Proper p r mcc mnc w11 wS wP wE wU) (st : State) (h : Runs g p st) (e : Env) (id : Nat) (k : UInt32) (hk : e.k = some k) (hw : e.w = true) :
    ∃ st' out m, step g p st e (.attach id r) = (st', [.s11 (.sent (controlAddr wS) out)], ok ()) ∧
      parseMsg g (asRead out) = ok m ∧ m.schema = Tab.createSessionRequest ∧ m.hdr.teidAcc = 0 ∧ m.hdr.sequence = inc st.n ∧ out.length ≤ 412 ∧
      Sgw.Asks g m (request p r wP k) ∧ Says m "PAA" IE.ipAddress (ipString wU) ∧
      Waits st' e.s e.b (controlAddr wS) p r k ∧ st'.enbIP = ipString wE ∧
      st'.waiting = st.waiting ++ [⟨.created, id, e.s, r.itei, 0⟩] ∧ st'.created = st.created ∧ st'.modified = st.modified ∧
      (∀ j, j ≠ e.s → st'.s11.heap j = st.s11.heap j) := by
  obtain ⟨out, m, h1, h2, h3, h4, h5, h6, h7⟩ := attach_step hg hP st (runs_inv h).localIf e id hk hw
  have F : ∀ j o, (items g p mcc mnc r k w11 wU).lookup j = some (some o) → m.fields j = [o] := by
    intro j o hj
    rw [h6, items_fields, hj]; rfl
  obtain ⟨r0, r1, r2, r9, r4, r5, r12⟩ := reads hg hP
  have fr := fteidOf_reads 10 0 k p.s11IP (by decide)
  have ur := fteidOf_reads 7 1 0 p.pgwIP (by decide)
  have up : (fteidOf 7 1 0 p.pgwIP).ipAddress = ok (ipString wP) := by
    rw [hP.pgw.2]; exact Sgw.fteid_ip (Sgw.fteid_v4 7 1 0 hP.pgw.1 (by decide))
  have S : ∀ {α : Type} {f : IE → Res α} {v : α} {n : String} {j : Nat} {o : IE}, Tab.createSessionRequest.fields[j]? = some n →
      (items g p mcc mnc r k w11 wU).lookup j = some (some o) → f o = ok v → Says m n f v :=
    fun hn hj hv => ⟨_, [], has_of h3 hn (F _ _ hj), hv⟩
  refine ⟨_, out, m, h1, h2, h3, h4, h5, h7, ⟨S (j := 0) (by decide) rfl r0, S (j := 1) (by decide) rfl r1, S (j := 2) (by decide) rfl r2,
    S (j := 9) (by decide) rfl r9, S (j := 4) (by decide) rfl r4, S (j := 5) (by decide) rfl r5, S (j := 7) (by decide) rfl fr.r_teid,
    ⟨_, [], has_of h3 (k := 8) (by decide) (F 8 _ rfl), up, ur.r_teid, ur.r_ifType⟩, hP.pgw.1⟩, S (j := 12) (by decide) rfl r12,
    waits_after st e id _ _ k, rfl, rfl, rfl, rfl, fun j hj => ?_⟩
  show (if j = e.s then _ else (reserve st.s11 k).heap j) = _
  rw [if_neg hj, (Pgw.reserve_fixed _ _).1]

/-- **C102** departure: what the eNB says about its tracking area and cell has no effect, the MME tells the S-GW constants -/
theorem C102_location_wrong (g : UInt8 → Bool) (p : Cfg) (st : State) (e : Env) (id : Nat) (r : Attach) (mcc mnc : Bytes) (tai tai' eci eci' : UInt32) :
    step g p st e (.attach id { r with location := some ⟨mcc, mnc, tai, eci⟩ }) =
      step g p st e (.attach id { r with location := some ⟨mcc, mnc, tai', eci'⟩ }) := by
  simp only [step]
  cases hs : splitHostPort r.s1uAddr with
  | none => rw [attach_none (by exact hs), attach_none (by exact hs)]
  | some q => rw [attach_some (by exact hs) rfl, attach_some (by exact hs) rfl]; rfl

/-- **C102** departure: a call without a location ends the MME -/
theorem C102_nowhere_wrong (g : UInt8 → Bool) (p : Cfg) (st : State) (e : Env) (id : Nat) (r : Attach) (x y : Bytes)
    (h : splitHostPort r.s1uAddr = some (x, y)) (hl : r.location = none) : (step g p st e (.attach id r)).2 = ([], .panic) := by
  simp only [step]
  rw [attach_nowhere h hl]

/-- **C102** a call that names no address and port for user data fails at once, nothing is sent -/
theorem C102_no_address (g : UInt8 → Bool) (p : Cfg) (st : State) (e : Env) (id : Nat) (r : Attach) (h : splitHostPort r.s1uAddr = none) :
    (step g p st e (.attach id r)).2 = ([.failed id], ok ()) ∧ (step g p st e (.attach id r)).1.waiting = st.waiting ∧
      (step g p st e (.attach id r)).1.s11 = st.s11 := by
  simp only [step]
  rw [attach_none h]
  exact ⟨rfl, rfl, rfl⟩

/-! ### no answer, or a refusal -/

theorem fail_bind {id errs : Nat} (f : Unit → G Unit) (st : State) (h : errs = 0) :
    (fail id errs >>= f) st = ((f () st).1, .failed id :: (f () st).2.1, (f () st).2.2) := by
  show G.bind _ _ _ = _
  unfold G.bind fail
  rw [if_pos h]
  rfl

theorem unanswered {g : UInt8 → Bool} {e : Env} {st : State} {i : Nat} {x : Waiting} (hp : x.phase = .created)
    (hs : (st.s11.heap x.s).teids.load 11 = none) :
    next g e i x st = ((fail x.id x.errs { st with waiting := st.waiting.eraseIdx i }).1, (fail x.id x.errs { st with waiting := st.waiting.eraseIdx i }).2.1,
      (fail x.id x.errs { st with waiting := st.waiting.eraseIdx i }).2.2) := by
  have hm : modifyBearer g x.s x.itei e.w { st with waiting := st.waiting.eraseIdx i } = ({ st with waiting := st.waiting.eraseIdx i }, [], err .notFound) := by
    unfold modifyBearer
    refine bind_err ?_
    unfold on getTEID
    simp only [hs]
    rfl
  rw [next_created hp]
  unfold afterCreated orFail
  rw [hm]
  rfl

/-- **C102** the S-GW does not answer in time: the call fails, and its goroutine ends.  (Departure: the session stays.) -/
theorem C102_timeout (g : UInt8 → Bool) (p : Cfg) (st : State) (e : Env) (i id s : Nat) (itei : UInt32)
    (hi : st.waiting[i]? = some ⟨.created, id, s, itei, 0⟩) (hs : (st.s11.heap s).teids.load 11 = none) :
    step g p st e (.expire i) = ({ st with waiting := st.waiting.eraseIdx i }, [.failed id], ok ()) := by
  simp only [step]
  rw [hi]
  simp only
  rw [fail_bind _ _ rfl, unanswered (x := ⟨.created, id, s, itei, 0 + 1⟩) rfl hs]
  rfl

/-- **C102** departure: the answers wake whoever waits.  A call whose own request is unanswered takes the answer to another subscriber's,
finds no TEID of the S-GW and fails -/
theorem C102_token_wrong (g : UInt8 → Bool) (p : Cfg) (st : State) (e : Env) (i id s : Nat) (itei : UInt32)
    (hi : st.waiting[i]? = some ⟨.created, id, s, itei, 0⟩) (hs : (st.s11.heap s).teids.load 11 = none) (hc : st.created ≠ 0) :
    step g p st e (.wake i) = ({ st with waiting := st.waiting.eraseIdx i, created := st.created - 1 }, [.failed id], ok ()) := by
  simp only [step]
  rw [hi]
  simp only
  rw [if_neg hc, unanswered rfl (by exact hs)]
  rfl

theorem hbind_err {α β : Type} {x : H α} {f : α → H β} {c c' : Conn} {ev : List Ev} {e : Err} (h : x c = (c', ev, err e)) :
    (x >>= f) c = (c', ev, err e) := by
  show Pgw.H.bind x f c = _
  unfold Pgw.H.bind; rw [h]

/-- **C102** the S-GW refuses: the session is removed, nothing is sent, and nothing later sent to its TEID is handled or answered.  The call
hears of it when its time is over. -/
theorem C102_refused (g : UInt8 → Bool) (p : Cfg) (st : State) (h : Runs g p st) (i id s b : Nat) (itei : UInt32) (aS : Addr) (r : Attach) (k : UInt32)
    (hk0 : k ≠ 0) (hW : Waits st s b aS p r k) (hi : st.waiting[i]? = some ⟨.created, id, s, itei, 0⟩) (d : Bytes) (m : Message)
    (hm : parseMsg g d = ok m) (hsc : m.schema = Tab.createSessionResponse) (ht : m.hdr.teidAcc = k) (v : UInt8)
    (hc : Says m "Cause" (IE.cause g) v) (hv : v ≠ 16) (e e' : Env) :
    ∃ st₁ st₂, step g p st e (.s11 aS d) = (st₁, [], err .other) ∧ (∀ a, getSessionByTEID st₁.s11 k a = err .notFound) ∧
      getSessionByIMSI st₁.s11 r.imsi = err .notFound ∧ Gone g st₁.s11 k ∧ st₁.waiting = st.waiting ∧ st₁.created = st.created ∧
      step g p st₁ e' (.expire i) = (st₂, [.failed id], ok ()) ∧ st₂.waiting = st.waiting.eraseIdx i := by
  have hI := runs_inv h
  obtain ⟨j, l, hj, hjc⟩ := hc
  have hj := has_field hsc (by decide +kernel) (k := 0) (by decide) hj
  have hs : serveDatagram g st.s11 aS d e.w = ([.call 0 aS m], ok ()) := by
    refine serve_reaches hm ?_ (by rw [ht]; exact Or.inr ⟨s, hW.found.1⟩) _
    rw [hI.handlers, typ_of hm, hsc]; rfl
  have hd : drop s st.s11 = (without st.s11 s k, [], ok ()) := drop_eq (by rw [hI.localIf]; exact hW.teids.1)
  have hr : readCreated g aS m st.s11 = (without st.s11 s k, [], err .other) := by
    unfold readCreated
    simp only [ht, hW.found.1]
    refine (Pgw.read_bind _ _ _).trans ?_
    rw [if_neg (by rw [hsc]; simp [Tab.createSessionResponse])]
    refine hbind_err ?_
    unfold causeOf
    refine (Pgw.need_bind hj _ _).trans ?_
    refine (Pgw.lift_bind hjc _ _).trans ?_
    rw [if_pos hv]
    exact (Pgw.bind_eq' hd).trans rfl
  have nf := fun a => (without_gone (c := st.s11) (s := s) k a).1
  refine ⟨withC st (without st.s11 s k), _, ?_, nf, ?_, gone_not_found hk0 (by exact hI.validation) nf, rfl, rfl,
    C102_timeout g p (withC st (without st.s11 s k)) e' i id s itei hi (by exact hW.teids.2.1), rfl⟩
  · simp only [step]
    rw [hs]
    simp only
    unfold handleCreated
    refine bind_err ?_
    unfold on
    rw [hr]; rfl
  · rw [← hW.subscriber.1]; exact (without_gone (c := st.s11) (s := s) k "").2

/-! ### crash -/

/-- **C102** departure: a Create Session Response with TEID 0, which everyone can send, ends the MME -/
theorem C102_crash_wrong (g : UInt8 → Bool) (p : Cfg) (st : State) (h : Runs g p st) (a : Addr) (d : Bytes) (m : Message)
    (hm : parseMsg g d = ok m) (hsc : m.schema = Tab.createSessionResponse) (ht : m.hdr.teidAcc = 0) (h0 : st.s11.byTeid.load 0 = none) (e : Env) :
    (step g p st e (.s11 a d)).2 = ([], .panic) := by
  have hI := runs_inv h
  have hs : serveDatagram g st.s11 a d e.w = ([.call 0 a m], ok ()) := by
    refine serve_reaches hm ?_ (by rw [ht]; exact Or.inl rfl) _
    rw [hI.handlers, typ_of hm, hsc]; rfl
  simp only [step]
  rw [hs]
  simp only
  unfold handleCreated
  have hr : on (readCreated g a m) st = (st, [], .panic) := by
    unfold on readCreated
    rw [ht]
    unfold getSessionByTEID
    rw [h0]
    rfl
  rw [bind_panic hr]

end Verif.V2.Mme
