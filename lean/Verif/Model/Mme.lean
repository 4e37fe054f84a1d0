import Verif.Model.Sgw
import Verif.Model.Typed.Indication
import Verif.Model.Typed.Time
/-
The MME of examples/gw-tester (examples/gw-tester/mme/mme.go:70-330, handlers.go), a program on top of one gtpv2.Conn (S11 towards the
S-GW); the eNB asks it by remote calls (Attach).

The goroutine of a call is cut where it waits: at `<-m.created` and at `<-m.modified`.  Each piece is one step (simplification: the other
interleavings of the goroutines, and the data races on `m.enb` and `m.sgw`, are not modelled; Attach and the first piece of its
goroutine are one step).  The channels `created` and `modified` are counters of what was sent and not taken: they have one place, and a
handler that finds it taken has nothing more to do than to send.

Simplifications: logging and the counters of Prometheus are left out, and SubscriberIP of a bearer, which nobody reads; `m.enb.tai` and
`m.enb.eci` (mme.go:198-199) are left out, nobody reads them; a *net.UDPAddr is the text it prints as; the TEID of NewSenderFTEID is
drawn by the environment as in Model/Pgw.lean.
-/
namespace Verif.V2.Mme
open Res Send Conn NetIP
open Pgw (H lift set read need drop getTEID deref activateH)
open Sgw (text portC portU resolve senderFTEID someBearer)

/-- what the MME does: something with S11, or an answer to the call `id` -/
inductive Out where
  | s11 (e : Ev)
  /-- mme.go:234-238, 245: success, the S-GW's address and TEID for user data -/
  | done (id : Nat) (addr : Bytes) (teid : UInt32)
  /-- mme.go:190, 243: an error -/
  | failed (id : Nat)

/-- where the goroutine of a call waits: mme.go:208-213 and 221-226 -/
inductive Phase where
  | created
  | modified
  deriving DecidableEq, Repr

/-- a waiting goroutine: the call, its session, the eNB's TEID, and how many errors it has sent to the call (mme.go:193, 212, 225) -/
structure Waiting where
  phase : Phase
  id : Nat
  s : Nat
  itei : UInt32
  errs : Nat
  deriving DecidableEq, Repr

/-- mme.go:35-68 `mme` -/
structure State where
  s11 : Conn
  /-- the sequence counter of the connection -/
  n : UInt32
  created : Nat
  modified : Nat
  /-- `m.enb` -/
  mcc : Bytes
  mnc : Bytes
  enbIP : Bytes
  /-- `m.sgw.s1uIP` -/
  sgwIP : Bytes
  waiting : List Waiting
  /-- goroutines that never end -/
  stuck : Nat

/-- mme.go:70-84 from the configuration -/
structure Cfg where
  mcc : Bytes
  mnc : Bytes
  apn : Bytes
  s11IP : Bytes
  sgwIP : Bytes
  pgwIP : Bytes

/-- s1mme.pb.go `Location` -/
structure Location where
  mcc : Bytes
  mnc : Bytes
  tai : UInt32
  eci : UInt32

/-- s1mme.pb.go `AttachRequest`; a nil pointer is `none` -/
structure Attach where
  imsi : Bytes
  msisdn : Bytes
  imeisv : Bytes
  s1uAddr : Bytes
  srcIP : Bytes
  itei : UInt32
  location : Option Location

/-- what the environment supplies: free addresses for a session and a bearer, the TEID drawn, whether writes succeed -/
structure Env where
  s : Nat
  b : Nat
  k : Option UInt32
  w : Bool

/-- a piece of a handler of the MME -/
def G (α : Type) := State → State × List Out × Res α

def G.pure {α : Type} (a : α) : G α := fun st => (st, [], ok a)
def G.bind {α β : Type} (x : G α) (f : α → G β) : G β := fun st =>
  match x st with
  | (st, ev, ok a) => ((f a st).1, ev ++ (f a st).2.1, (f a st).2.2)
  | (st, ev, err e) => (st, ev, err e)
  | (st, ev, .panic) => (st, ev, .panic)
  | (st, ev, .diverge) => (st, ev, .diverge)

instance : Monad G where
  pure := G.pure
  bind := G.bind

/-- a piece that only uses the connection -/
def on {α : Type} (x : H α) : G α := fun st =>
  match x st.s11 with
  | (c, ev, r) => ({ st with s11 := c }, ev.map .s11, r)
/-- an assignment -/
def put (f : State → State) : G Unit := fun st => (f st, [], ok ())
/-- read the state -/
def ask {α : Type} (f : State → α) : G α := fun st => (st, [], ok (f st))
/-- `v, err := r; if err != nil { return err }` -/
def val {α : Type} (r : Res α) : G α := fun st => (st, [], r)

/-! ### what the S-GW sends -/

/-- handlers.go:37-52: the Cause of a Create Session Response -/
def causeOf (g : UInt8 → Bool) (s : Nat) (m : Message) : H Unit := do
  let i ← need (m.fields 0)
  let v ← lift (i.cause g)
  if v ≠ 16 then do drop s; lift (err .other) else pure ()

/-- handlers.go:54-59: the address of the subscriber -/
def paaOf (b : Option Nat) (m : Message) : H Unit :=
  match (m.fields 6).head? with
  | none => pure ()
  | some i => do
    let _ ← lift (someBearer b)
    let _ ← lift i.ipAddress
    pure ()

/-- handlers.go:82-103: one child of the Bearer Context; a wrong EBI is stored as 0 -/
def child (g : UInt8 → Bool) (s : Nat) (b : Option Nat) (i : IE) : H Unit :=
  if i.typ = 73 then do
    let b ← lift (someBearer b)
    match i.ebi g with
    | ok v => set (fun c => updateBearer c b (fun x => { x with ebi := v }))
    | err e => do
      set (fun c => updateBearer c b (fun x => { x with ebi := 0 }))
      lift (err e)
    | .panic => lift .panic
    | .diverge => lift .diverge
  else if i.typ = 87 then
    if i.instance' ≠ 0 then pure () else do
    let it ← lift i.interfaceType
    let t ← lift i.teid
    set (fun c => addTEID c s it t)
  else pure ()

def children (g : UInt8 → Bool) (s : Nat) (b : Option Nat) : List IE → H Unit
  | [] => pure ()
  | i :: l => do
    child g s b i
    children g s b l

/-- `if err := x; err != nil { c.RemoveSession(session); return err }` -/
def orDrop {α : Type} (s : Nat) (x : H α) : H α := Sgw.orDrop s x

/-- handlers.go:24-111: what a Create Session Response does to the connection.  If there is no session, the session of line 24 is nil,
and RemoveSession (gtpv2/conn.go:707-708) reads a member of it -/
def readCreated (g : UInt8 → Bool) (a : Addr) (m : Message) : H Unit := fun c =>
  match getSessionByTEID c m.hdr.teidAcc a with
  | ok s => (do
      let b ← read (fun c => getDefaultBearer c s)
      if m.schema.name ≠ "CreateSessionResponse" then lift .panic else
      causeOf g s m
      paaOf b m
      let i ← need (m.fields 4)
      let t ← lift i.teid
      set (fun c => addTEID c s 11 t)
      let _ ← orDrop s (getTEID s 11)
      let _ ← orDrop s (getTEID s 10)
      let i ← need (m.fields 11)
      children g s b i.children
      orDrop s (activateH s) : H Unit) c
  | err _ => (c, [], .panic)
  | .panic => (c, [], .panic)
  | .diverge => (c, [], .diverge)

/-- handlers.go:17-119 `handleCreateSessionResponse` -/
def handleCreated (g : UInt8 → Bool) (a : Addr) (m : Message) : G Unit := do
  on (readCreated g a m)
  put (fun st => { st with created := st.created + 1 })

/-- handlers.go:150-170: one child of the Bearer Context; a wrong address is stored as the empty text -/
def childM (s : Nat) (i : IE) : G Unit :=
  if i.typ = 87 then
    if i.instance' ≠ 0 then pure () else do
    let it ← val i.interfaceType
    let t ← val i.teid
    on (set (fun c => addTEID c s it t))
    match i.ipAddress with
    | ok ip => put (fun st => { st with sgwIP := ip })
    | err e => do
      put (fun st => { st with sgwIP := [] })
      val (err e)
    | .panic => val .panic
    | .diverge => val .diverge
  else pure ()

def childrenM (s : Nat) : List IE → G Unit
  | [] => pure ()
  | i :: l => do
    childM s i
    childrenM s l

/-- handlers.go:121-178 `handleModifyBearerResponse` -/
def handleModified (g : UInt8 → Bool) (a : Addr) (m : Message) : G Unit := do
  let s ← ask (fun st => getSessionByTEID st.s11 m.hdr.teidAcc a)
  let s ← val s
  if m.schema.name ≠ "ModifyBearerResponse" then val .panic else
  let i ← on (need (m.fields 0))
  let v ← val (i.cause g)
  if v ≠ 16 then val (err .other) else
  let i ← on (need (m.fields 5))
  childrenM s i.children
  put (fun st => { st with modified := st.modified + 1 })

/-- handlers.go:180-194 `handleDeleteSessionResponse` -/
def handleDeleted (a : Addr) (m : Message) : G Unit := do
  let s ← ask (fun st => getSessionByTEID st.s11 m.hdr.teidAcc a)
  let s ← val s
  on (drop s)

/-! ### what the eNB asks for -/

/-- mme.go:277-286: the location; what the eNB says about TAI and ECI is not in it -/
def location (mcc mnc : Bytes) : Res (Option IE) :=
  newULI (some ⟨mcc, mnc, 0x1111, 0x2222⟩) (some ⟨mcc, mnc, 0x1111, 0x3333⟩) (some ⟨mcc, mnc, 0x1111, 0x4444⟩) (some ⟨mcc, mnc, 0x5555⟩)
    (some (newECGI mcc mnc 0x66666666)) (some ⟨mcc, mnc, 0x1111⟩) (some ⟨mcc, mnc, 0x11111111⟩) (some ⟨mcc, mnc, 0x22222222⟩)

/-- mme.go:290 -/
def pgwFTEID (ip : Bytes) : Res IE := do
  let i ← newFTEIDText 7 0 ip []
  let i ← deref i
  ok (i.withInstance 1)

/-- mme.go:272-304: the arguments of CreateSession; `cf` is that of line 289 -/
def elements (g : UInt8 → Bool) (p : Cfg) (mcc mnc : Bytes) (r : Attach) (cf : Option IE) : Res (List (Option IE)) := do
  let imsi ← newIMSI r.imsi
  let msisdn ← newMSISDN r.msisdn
  let mei ← newMEI r.imeisv
  let uli ← location mcc mnc
  let pf ← pgwFTEID p.pgwIP
  let apn ← Plain.newName ⟨"AccessPointName", 71, [71]⟩ p.apn
  let paa ← newPAAText r.srcIP
  let ambr ← newAMBR 0 0
  let qos ← newBearerQoS 0 2 0 255 0xffffffff 0xffffffff 0xffffffff 0xffffffff
  let bc ← newBearerContext g [some (newEBI 5), qos]
  let csid ← newCSIDText p.s11IP [1]
  let sn ← newPLMN 83 p.mcc p.mnc
  ok [imsi, msisdn, mei, uli, some (Plain.new8 ⟨"RATType", 82, [82]⟩ 6), some (newIndicationOctets [0, 0, 0, 0, 0, 0, 0]), cf, some pf,
    some apn, some (Plain.new8 ⟨"SelectionMode", 128, [128]⟩ 0), some (Plain.new8 ⟨"PDNType", 99, [99, 79]⟩ 1), paa,
    some (Plain.new8 ⟨"APNRestriction", 127, [127]⟩ 0), ambr, bc, csid, sn, some (newUETimeZone 36 0)]

/-- mme.go:255-313 `CreateSession`; the session is the one at `e.s`.  (Line 289 is evaluated among the other arguments: only a panic
of an earlier one would keep it from drawing the TEID.) -/
def createSession (g : UInt8 → Bool) (p : Cfg) (e : Env) (r : Attach) : G Unit := do
  let raddr ← val (resolve p.sgwIP portC)
  let cf ← on (senderFTEID e.k p.s11IP)
  let mcc ← ask State.mcc
  let mnc ← ask State.mnc
  let ies ← val (elements g p mcc mnc r cf)
  fun st =>
    match Conn.createSession st.s11 g st.n e.s e.b (text raddr) ies e.w with
    | (c, n, ev, r) => ({ st with s11 := c, n := n }, ev.map .s11, r >>= fun _ => ok ())

/-- an error is sent to the call: the first one is its answer, the second stays in the channel, with the third the goroutine is stuck -/
def fail (id errs : Nat) : G Unit := fun st =>
  if errs = 0 then (st, [.failed id], ok ())
  else if errs = 1 then (st, [], ok ())
  else ({ st with stuck := st.stuck + 1 }, [], ok ())

/-- `if err := x; err != nil { errCh <- err; return }`, and then `k` -/
def orFail {α : Type} (id errs : Nat) (x : G α) (k : α → G Unit) : G Unit := fun st =>
  match x st with
  | (st, ev, ok a) => ((k a st).1, ev ++ (k a st).2.1, (k a st).2.2)
  | (st, ev, err _) => ((fail id errs st).1, ev ++ (fail id errs st).2.1, (fail id errs st).2.2)
  | (st, ev, .panic) => (st, ev, .panic)
  | (st, ev, .diverge) => (st, ev, .diverge)

/-- mme.go:178-208 `Attach` until the first wait -/
def attach (g : UInt8 → Bool) (p : Cfg) (e : Env) (id : Nat) (r : Attach) : G Unit :=
  match splitHostPort r.s1uAddr with
  | none => fun st => ({ st with enbIP := [] }, [.failed id], ok ())
  | some (h, _) =>
    match r.location with
    | none => fun st => ({ st with enbIP := h }, [], .panic)
    | some l => do
      put (fun st => { st with enbIP := h, mcc := l.mcc, mnc := l.mnc })
      orFail id 0 (createSession g p e r) fun _ =>
        put (fun st => { st with waiting := st.waiting ++ [⟨.created, id, e.s, r.itei, 0⟩] })

/-- mme.go:315-333 `ModifyBearer` -/
def modifyBearer (g : UInt8 → Bool) (s : Nat) (itei : UInt32) (w : Bool) : G Unit := do
  let t ← on (getTEID s 11)
  let enb ← ask State.enbIP
  let f ← val (newFTEIDText 0 itei enb [])
  let b ← ask (fun st => getDefaultBearer st.s11 s)
  let b ← val (someBearer b)
  let ebi ← ask (fun st => (st.s11.brs b).ebi)
  let bc ← val (newBearerContext g [some (newEBI ebi), f, some (Plain.new16 ⟨"PortNumber", 126, [126]⟩ 2125)])
  fun st =>
    match Conn.modifyBearer st.s11 s g st.n t [some (newIndicationOctets [0, 0, 0, 0, 0, 0, 0]), bc] w with
    | (n, ev, r) => ({ st with n := n }, ev.map .s11, r >>= fun _ => ok ())

/-- mme.go:215-221: after the first wait; `i` is the place of the goroutine -/
def afterCreated (g : UInt8 → Bool) (e : Env) (i : Nat) (x : Waiting) : G Unit := fun st =>
  orFail x.id x.errs (modifyBearer g x.s x.itei e.w)
    (fun _ => put (fun st => { st with waiting := st.waiting ++ [{ x with phase := .modified }] }))
    { st with waiting := st.waiting.eraseIdx i }

/-- mme.go:228-238: after the second wait; a call that has returned takes no answer -/
def afterModified (i : Nat) (x : Waiting) : G Unit := fun st =>
  orFail x.id x.errs (on (getTEID x.s 1))
    (fun t st =>
      if x.errs = 0 then (st, [.done x.id (st.sgwIP ++ colon :: portU) t], ok ()) else ({ st with stuck := st.stuck + 1 }, [], ok ()))
    { st with waiting := st.waiting.eraseIdx i }

/-- mme.go:71-84, 122, 131-135: at the start -/
def start (heap : Nat → Sess) : State where
  s11 := { newConn 10 0 heap with handlers := ((defaultHandlers.store 33 (.app 0)).store 35 (.app 1)).store 37 (.app 2) }
  n := 0
  created := 0
  modified := 0
  mcc := []
  mnc := []
  enbIP := []
  sgwIP := []
  waiting := []
  stuck := 0

/-- what can happen -/
inductive Input where
  /-- a datagram from `a` on S11 -/
  | s11 (a : Addr) (d : Bytes)
  /-- the call `id` -/
  | attach (id : Nat) (r : Attach)
  /-- the i-th goroutine takes what it waits for (mme.go:209, 222) -/
  | wake (i : Nat)
  /-- its time is over (mme.go:211-212, 224-225): an error is sent, and it goes on -/
  | expire (i : Nat)

/-- the goroutine goes on -/
def next (g : UInt8 → Bool) (e : Env) (i : Nat) (x : Waiting) : G Unit :=
  match x.phase with
  | .created => afterCreated g e i x
  | .modified => afterModified i x

/-- one step; a goroutine that cannot go on stays blocked -/
def step (g : UInt8 → Bool) (p : Cfg) (st : State) (e : Env) : Input → State × List Out × Res Unit
  | .s11 a d =>
    match serveDatagram g st.s11 a d e.w with
    | ([.call 0 a m], ok _) => handleCreated g a m st
    | ([.call 1 a m], ok _) => handleModified g a m st
    | ([.call 2 a m], ok _) => handleDeleted a m st
    | (ev, r) => (st, ev.map .s11, r)
  | .attach id r => attach g p e id r st
  | .wake i =>
    match st.waiting[i]? with
    | none => (st, [], ok ())
    | some x =>
      match x.phase with
      | .created => if st.created = 0 then (st, [], ok ()) else next g e i x { st with created := st.created - 1 }
      | .modified => if st.modified = 0 then (st, [], ok ()) else next g e i x { st with modified := st.modified - 1 }
  | .expire i =>
    match st.waiting[i]? with
    | none => (st, [], ok ())
    | some x => (do
        fail x.id x.errs
        next g e i { x with errs := x.errs + 1 } : G Unit) st

end Verif.V2.Mme
