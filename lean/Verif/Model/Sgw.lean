import Verif.Model.Pgw
import Verif.Model.UConn
import Verif.Model.IPText
import Verif.Model.Typed.QoS
/-
The S-GW of examples/gw-tester (examples/gw-tester/sgw/sgw.go:103-133, s11_handlers.go, s5_handlers.go), a program on top of two
gtpv2.Conn (S11 towards the MME, S5-C towards the P-GW) and two gtpv1.UPlaneConn (S1-U and S5-U).

A handler that waits for a message (Session.WaitMessage) is cut in two there: the first half leaves an entry in `waiting`, and `wake`
or `expire` runs the second half.  Each half is one step (simplification: other interleavings of the goroutines are not modelled;
the queues themselves are in Model/V2Queue.lean, their 1000 places are kept here).

Simplifications: the kernel module is off (`useKernelGTP` false; Model/SgwKernel.lean has it on); logging and the counters of Prometheus
are left out; SubscriberIP and ChargingID of a bearer, which only the kernel module and nobody use, are not kept; a *net.UDPAddr is the
text it prints as; TEIDs are drawn by the environment as in Model/Pgw.lean.
-/
namespace Verif.V2.Sgw
open Res Send Conn NetIP
open Pgw (H lift set read need dropIMSI drop respond getTEID deref mustTEID activateH)

/-- which control connection -/
inductive Port where
  | s11
  | s5
  deriving DecidableEq, Repr

/-- a handler that is blocked in WaitMessage, with the variables it still needs -/
inductive Waiting where
  /-- s11_handlers.go:163: the sessions, the sequence number it waits for, the MME's address and request, the S-GW's F-TEID, the MME's
  TEID -/
  | create (s s5 : Nat) (seq : UInt32) (a : Addr) (m : Message) (fteid : IE) (mme : UInt32)
  /-- s11_handlers.go:387 -/
  | delete (s : Nat) (seq : UInt32) (a : Addr) (m : Message) (mme : UInt32)
  /-- s5_handlers.go:259: the sessions, the P-GW's address, request and TEID, the EBI -/
  | bearer (s5 s : Nat) (seq : UInt32) (a : Addr) (m : Message) (pgw : UInt32) (ebi : IE)

/-- sgw.go:23-43 `sgw`; `n11`, `n5` are the sequence counters of the connections, `r11`, `r5` the remote addresses of their bearers,
`q11`, `q5` the message queues of their sessions -/
structure State where
  s11 : Conn
  s5 : Conn
  n11 : UInt32
  n5 : UInt32
  r11 : Nat → Option Bytes
  r5 : Nat → Option Bytes
  q11 : Nat → List Message
  q5 : Nat → List Message
  s1u : V1.UConn.UConn
  s5u : V1.UConn.UConn
  waiting : List Waiting

/-- sgw.go:32 the addresses of the S-GW, as text -/
structure Cfg where
  s11IP : Bytes
  s5cIP : Bytes
  s1uIP : Bytes
  s5uIP : Bytes

/-- what the environment supplies: free addresses for sessions and bearers, the TEIDs drawn, whether writes succeed, the order of
sync.Map.Range -/
structure Env where
  s : Nat
  b : Nat
  s5 : Nat
  b5 : Nat
  k11 : Option UInt32
  k5 : Option UInt32
  k5u : Option UInt32
  k1u : Option UInt32
  w : Bool
  o11 : Order
  o5 : Order

/-- a piece of a handler of the S-GW -/
def G (α : Type) := State → State × List (Port × Ev) × Res α

def G.pure {α : Type} (a : α) : G α := fun st => (st, [], ok a)
def G.bind {α β : Type} (x : G α) (f : α → G β) : G β := fun st =>
  match x st with
  | (st, ev, ok a) => ((f a st).1, ev ++ (f a st).2.1, (f a st).2.2)
  | (st, ev, err e) => (st, ev, err e)
  | (st, ev, .panic) => (st, ev, .panic)
  | (st, ev, .diverge) => (st, ev, .diverge)

instance : Monad G where
  pure := G.pure
  bind := G.bind

/-- a piece that only uses the connection S11 -/
def on11 {α : Type} (x : H α) : G α := fun st =>
  match x st.s11 with
  | (c, ev, r) => ({ st with s11 := c }, ev.map (fun e => (.s11, e)), r)
/-- … the connection S5-C -/
def on5 {α : Type} (x : H α) : G α := fun st =>
  match x st.s5 with
  | (c, ev, r) => ({ st with s5 := c }, ev.map (fun e => (.s5, e)), r)
/-- `v, err := r; if err != nil { return err }` -/
def val {α : Type} (r : Res α) : G α := fun st => (st, [], r)
/-- an assignment -/
def put {α : Type} (f : State → State) (a : α) : G α := fun st => (f st, [], ok a)
/-- read the state -/
def ask {α : Type} (f : State → α) : G α := fun st => (st, [], ok (f st))

/-- the characters of a text -/
def text (x : Bytes) : String := String.ofList (x.map (fun c => Char.ofNat c.toNat))

/-- ":2123" and ":2152" (gtpv2/constants.go:19-20) -/
def portC : Bytes := [50, 49, 50, 51]
def portU : Bytes := [50, 49, 53, 50]

/-- `net.ResolveUDPAddr("udp", ip + ":" + port)` and the text of the result; a host that is no address is not found -/
def resolve (ip port : Bytes) : Res Bytes :=
  match splitHostPort (ip ++ colon :: port) with
  | none => err .other
  | some (h, p) =>
    match parseIP h with
    | none => err .other
    | some a => ok (joinHostPort (ipString a) p)

/-! ### Create Session Request (S11) -/

/-- s11_handlers.go:23-124: read the request into the new session `s` and its bearer `b`; the P-GW's address -/
def readRequest (g : UInt8 → Bool) (s b : Nat) (a : Addr) (m : Message) : H Bytes := do
  set (fun c => newSession c s b a)
  let i ← need (m.fields 8)
  let ip ← lift i.ipAddress
  let t ← lift i.teid
  set (fun c => addTEID c s 7 t)
  let i ← need (m.fields 7)
  let t ← lift i.teid
  set (fun c => addTEID c s 10 t)
  let raddr ← lift (resolve ip portC)
  let i ← need (m.fields 0)
  let imsi ← lift i.imsi
  dropIMSI imsi
  set (fun c => update c s (fun x => { x with imsi := imsi }))
  let i ← need (m.fields 1)
  let v ← lift i.msisdn
  set (fun c => update c s (fun x => { x with msisdn := v }))
  let i ← need (m.fields 2)
  let v ← lift i.mei
  set (fun c => update c s (fun x => { x with imei := v }))
  let i ← need (m.fields 9)
  let v ← lift (apnOf g i)
  set (fun c => updateBearer c b (fun x => { x with apn := v }))
  let i ← need (m.fields 4)
  let p ← lift i.plmn
  set (fun c => update c s (fun x => { x with mcc := p.1 }))
  let p ← lift i.plmn
  set (fun c => update c s (fun x => { x with mnc := p.2 }))
  let i ← need (m.fields 5)
  let v ← lift (ratOf g i)
  set (fun c => update c s (fun x => { x with rat := v }))
  pure raddr

/-- `c.NewSenderFTEID(ip, "")` (gtpv2/conn.go:748-774); nil if no TEID was found -/
def senderFTEID (k : Option UInt32) (ip : Bytes) : H (Option IE) := do
  match k with
  | none => pure none
  | some k => do
    set (fun c => reserve c k)
    let f ← read (fun c => c.localIf)
    lift (newFTEIDText f k ip [])

/-- `u.NewFTEID(ifType, ip, "")` (gtpv1/u-conn.go:682-709), on which a method is called (s11_handlers.go:130, 211); the table it enters
the TEID in is only used by itself -/
def userFTEID (f : UInt8) (k : Option UInt32) (ip : Bytes) : Res IE := do
  match k with
  | none => .panic
  | some k => do
    let i ← newFTEIDText f k ip []
    deref i

/-- s11_handlers.go:134-144: the arguments of CreateSession -/
def forwarded (g : UInt8 → Bool) (p : Cfg) (m : Message) (cf : Option IE) (uf : IE) : Res (List (Option IE)) := do
  let qos ← newBearerQoS 1 2 1 0xff 0 0 0 0
  let bc ← newBearerContext g [some (newEBI 5), some uf, qos]
  let f ← newCSIDText p.s5uIP [1]
  let f ← deref f
  let x := fun k => (m.fields k).head?
  ok [x 0, x 1, x 2, x 4, x 5, x 6, cf, x 8, x 9, x 10, x 11, x 12, x 13, x 14, x 3, bc, x 22, some (f.withInstance 1)]

/-- `s.s5cConn.CreateSession(raddr, ies…)` -/
def createS5 (g : UInt8 → Bool) (s5 b5 : Nat) (raddr : Addr) (ies : List (Option IE)) (w : Bool) : G UInt32 := fun st =>
  match createSession st.s5 g st.n5 s5 b5 raddr ies w with
  | (c, n, ev, ok (_, q)) => ({ st with s5 := c, n5 := n }, ev.map (fun e => (.s5, e)), ok q)
  | (c, n, ev, err e) => ({ st with s5 := c, n5 := n }, ev.map (fun e => (.s5, e)), err e)
  | (c, n, ev, .panic) => ({ st with s5 := c, n5 := n }, ev.map (fun e => (.s5, e)), .panic)
  | (c, n, ev, .diverge) => ({ st with s5 := c, n5 := n }, ev.map (fun e => (.s5, e)), .diverge)

/-- a new bearer has no remote address, a new session an empty queue -/
def blank11 (s b : Nat) (st : State) : State :=
  { st with r11 := fun i => if i = b then none else st.r11 i, q11 := fun i => if i = s then [] else st.q11 i }
def blank5 (s b : Nat) (st : State) : State :=
  { st with r5 := fun i => if i = b then none else st.r5 i, q5 := fun i => if i = s then [] else st.q5 i }

/-- f-teid.go:215-218 `MustInterfaceType` -/
def mustInterfaceType (i : IE) : UInt8 :=
  match i.interfaceType with
  | ok t => t
  | _ => 0

/-- s11_handlers.go:17-162 `handleCreateSessionRequest` until WaitMessage; a missing TEID of the MME (s11_handlers.go:158-161) cannot
happen, it was stored in line 53 -/
def handleCreate (g : UInt8 → Bool) (p : Cfg) (e : Env) (a : Addr) (m : Message) : G Unit := do
  if m.schema.name ≠ "CreateSessionRequest" then val .panic else
  put (blank11 e.s e.b) ()
  let raddr ← on11 (readRequest g e.s e.b a m)
  let f11 ← on11 (senderFTEID e.k11 p.s11IP)
  let f11 ← val (deref f11)
  on11 (set (fun c => registerSession c (mustTEID f11) e.s))
  let cf ← on5 (senderFTEID e.k5 p.s5cIP)
  let uf ← val (userFTEID 4 e.k5u p.s5uIP)
  let uf := uf.withInstance 2
  let ies ← val (forwarded g p m cf uf)
  put (blank5 e.s5 e.b5) ()
  let seq ← createS5 g e.s5 e.b5 (text raddr) ies e.w
  on5 (set (fun c => addTEID c e.s5 (mustInterfaceType uf) (mustTEID uf)))
  let mme ← on11 (getTEID e.s 10)
  put (fun st => { st with waiting := st.waiting ++ [.create e.s e.s5 seq a m f11 mme] }) ()

/-- s11_handlers.go:164-180: no answer of the P-GW -/
def failCreate (g : UInt8 → Bool) (e : Env) (s : Nat) (a : Addr) (m : Message) (mme : UInt32) : G Unit := fun st =>
  match respondTo g a m (newMessage g Tab.createSessionResponse mme 0 [some (newCause 73 0 0 0 none)]) e.w with
  | (ev, .panic) => (st, ev.map (fun x => (.s11, x)), .panic)
  | (ev, .diverge) => (st, ev.map (fun x => (.s11, x)), .diverge)
  | (ev, _) => (do
      on11 (fun c => (c, ev, ok ()))
      on11 (drop s)
      val (err .other) : G Unit) st

/-- `if err := …; err != nil { s11Conn.RemoveSession(s11Session); return err }` -/
def orDrop {α : Type} (s : Nat) (x : H α) : H α := fun c =>
  match x c with
  | (c, ev, err e) =>
    match drop s c with
    | (c, _, ok _) => (c, ev, err e)
    | (c, _, err e) => (c, ev, err e)
    | (c, _, .panic) => (c, ev, .panic)
    | (c, _, .diverge) => (c, ev, .diverge)
  | r => r

/-- the first element of a slice -/
def first (l : List IE) : Res IE :=
  match l with
  | i :: _ => ok i
  | [] => .panic

/-- s11_handlers.go:202-208: the P-GW's answer is changed for the MME -/
def relayed (g : UInt8 → Bool) (p : Cfg) (m : Message) (f11 uf : IE) (mme : UInt32) : Res Message := do
  let f ← newCSIDText p.s1uIP [1]
  let f ← deref f
  let bc ← first (m.fields 11)
  let bc ← bc.add g [some uf]
  let bc ← bc.remove g 94 0
  let F := Msg.upd (Msg.upd (Msg.upd m.fields 4 [f11]) 17 [f.withInstance 1]) 11 (bc :: (m.fields 11).drop 1)
  ok (setLength g { m with fields := F, hdr := m.hdr.setTEID mme })

/-- s11_handlers.go:182-241: the P-GW has answered -/
def finishCreate (g : UInt8 → Bool) (p : Cfg) (e : Env) (s s5 : Nat) (a : Addr) (req : Message) (f11 : IE) (mme : UInt32) (m : Message) :
    G Unit := do
  if m.schema.name ≠ "CreateSessionResponse" then
    on11 (do drop s; lift (err .other))
  else
  match (m.fields 6).head? with
  | none => pure ()
  | some i => do
    let b ← ask (fun st => getDefaultBearer st.s11 s)
    match b with
    | none => val .panic
    | some _ => do
      let _ ← val i.ipAddress
      pure ()
  let uf ← val (userFTEID 1 e.k1u p.s1uIP)
  let r ← val (relayed g p m f11 uf mme)
  on11 (set (fun c => addTEID c s (mustInterfaceType f11) (mustTEID f11)))
  on11 (set (fun c => addTEID c s (mustInterfaceType uf) (mustTEID uf)))
  on11 (orDrop s (respond g a req r e.w))
  let pgw ← ask (fun st => (st.s5.heap s5).teids.load 7)
  let sgw ← ask (fun st => (st.s5.heap s5).teids.load 6)
  match pgw, sgw with
  | some _, some _ => on11 (orDrop s (activateH s))
  | _, _ => on11 (orDrop s (lift (err .notFound)))

/-! ### Create Session Response (S5-C) -/

/-- s11_handlers.go:455-482 `handleFTEIDU`, for the bearer `b` of the connection: the new remote address is the result -/
def fteidU (s : Nat) (b : Option Nat) (i : IE) (setAddr : Nat → Bytes → State → State) (on : H Unit → G Unit) : G Unit := do
  if i.typ ≠ 87 then val (err .other) else
  let ip ← val i.ipAddress
  let addr ← val (resolve ip portU)
  match b with
  | none => val .panic
  | some b => do
    put (setAddr b addr) ()
    let t ← val i.teid
    on (set (fun c => updateBearer c b (fun x => { x with teidOut := t })))
    let it ← val i.interfaceType
    on (set (fun c => addTEID c s it t))

def setAddr11 (b : Nat) (x : Bytes) (st : State) : State := { st with r11 := fun i => if i = b then some x else st.r11 i }
def setAddr5 (b : Nat) (x : Bytes) (st : State) : State := { st with r5 := fun i => if i = b then some x else st.r5 i }

/-- a member of a nil bearer is assigned -/
def someBearer (b : Option Nat) : Res Nat :=
  match b with
  | some b => ok b
  | none => .panic

/-- s5_handlers.go:87-117: one child of the Bearer Context -/
def child5 (g : UInt8 → Bool) (s : Nat) (b : Option Nat) (i : IE) : G Unit :=
  if i.typ = 2 then do
    let v ← val (i.cause g)
    if v ≠ 16 then on5 (do drop s; lift (err .other)) else pure ()
  else if i.typ = 73 then do
    let v ← val (i.ebi g)
    let b ← val (someBearer b)
    on5 (set (fun c => updateBearer c b (fun x => { x with ebi := v })))
  else if i.typ = 87 then fteidU s b i setAddr5 on5
  else if i.typ = 94 then do
    let _ ← val (i.chargingID g)
    let _ ← val (someBearer b)
    pure ()
  else pure ()

def children5 (g : UInt8 → Bool) (s : Nat) (b : Option Nat) : List IE → G Unit
  | [] => pure ()
  | i :: l => do
    child5 g s b i
    children5 g s b l

/-- `if x := msg.Field; x != nil { … } else { s5cConn.RemoveSession(s5Session); return &gtpv2.RequiredIEMissingError{…} }` -/
def need5 (s : Nat) (l : List IE) : G IE :=
  match l with
  | i :: _ => val (ok i)
  | [] => on5 (do drop s; lift (err .other))

/-- session.go:134-141 `PassMessageTo`: a full queue is a time-out, if nobody takes a message out in the meantime -/
def pass11 (s : Nat) (m : Message) : G Unit := fun st =>
  if (st.q11 s).length < 1000 then ({ st with q11 := fun i => if i = s then st.q11 i ++ [m] else st.q11 i }, [], ok ())
  else (st, [], err .other)
def pass5 (s : Nat) (m : Message) : G Unit := fun st =>
  if (st.q5 s).length < 1000 then ({ st with q5 := fun i => if i = s then st.q5 i ++ [m] else st.q5 i }, [], ok ())
  else (st, [], err .other)

/-- session.go:68-78 `Activate`; on an error s5_handlers.go:124-127 -/
def activate5 (s : Nat) : G Unit := on5 (orDrop s (activateH s))

/-- s5_handlers.go:18-139 `handleCreateSessionResponse` -/
def handleCreated (g : UInt8 → Bool) (a : Addr) (m : Message) : G Unit := do
  let s ← ask (fun st => getSessionByTEID st.s5 m.hdr.teidAcc a)
  let s ← val s
  if m.schema.name ≠ "CreateSessionResponse" then val .panic else
  let i ← need5 s (m.fields 0)
  let v ← val (i.cause g)
  if v ≠ 16 then on5 (do drop s; lift (err .other)) else
  let b ← ask (fun st => getDefaultBearer st.s5 s)
  let i ← need5 s (m.fields 6)
  let _ ← val i.ipAddress
  let _ ← val (someBearer b)
  let i ← need5 s (m.fields 5)
  let it ← val i.interfaceType
  let t ← val i.teid
  on5 (set (fun c => addTEID c s it t))
  let i ← need5 s (m.fields 11)
  children5 g s b i.children
  activate5 s
  let imsi ← ask (fun st => (st.s5.heap s).imsi)
  let s11 ← ask (fun st => getSessionByIMSI st.s11 imsi)
  let s11 ← val s11
  pass11 s11 m

/-! ### Modify Bearer Request (S11) -/

/-- s11_handlers.go:265-276: one child of the Bearer Context -/
def child11 (s : Nat) (b : Option Nat) (i : IE) : G Unit :=
  if i.typ = 87 then do
    fteidU s b i setAddr11 on11
    let _ ← val i.ipAddress
    pure ()
  else pure ()

def children11 (s : Nat) (b : Option Nat) : List IE → G Unit
  | [] => pure ()
  | i :: l => do
    child11 s b i
    children11 s b l

/-- the text of a net.Addr that may be nil; a nil one is only handed on (gtpv1/tunnel.go:30) -/
def addrText (x : Option Bytes) : Bytes := x.getD [60, 110, 105, 108, 62]

/-- `net.SplitHostPort(bearer.RemoteAddress().String())`: a nil address has no String method -/
def hostOf (x : Option Bytes) : Res Bytes :=
  match x with
  | none => .panic
  | some x =>
    match splitHostPort x with
    | none => err .other
    | some (h, _) => ok h

/-- s11_handlers.go:244-345 `handleModifyBearerRequest` -/
def handleModify (g : UInt8 → Bool) (p : Cfg) (e : Env) (a : Addr) (m : Message) : G Unit := do
  let s ← ask (fun st => getSessionByTEID st.s11 m.hdr.teidAcc a)
  let s ← val s
  let imsi ← ask (fun st => (st.s11.heap s).imsi)
  let s5 ← ask (fun st => getSessionByIMSI st.s5 imsi)
  let s5 ← val s5
  let b ← ask (fun st => getDefaultBearer st.s11 s)
  let b5 ← ask (fun st => getDefaultBearer st.s5 s5)
  if m.schema.name ≠ "ModifyBearerRequest" then val .panic else
  match m.fields 8 with
  | [] => val (err .other)
  | i :: _ => do
    children11 s b i.children
    let mme ← on11 (getTEID s 10)
    let t1 ← on11 (getTEID s 1)
    let t5 ← on5 (getTEID s5 4)
    let b5 ← val (someBearer b5)
    let addr5 ← ask (fun st => st.r5 b5)
    let _ ← val (hostOf addr5)
    let out5 ← ask (fun st => (st.s5.brs b5).teidOut)
    put (fun st => { st with s1u := V1.UConn.apply st.s1u (.relayTo t1 ⟨out5, text (addrText addr5), st.s5u.self⟩) }) ()
    let b ← val (someBearer b)
    let addr ← ask (fun st => st.r11 b)
    let out ← ask (fun st => (st.s11.brs b).teidOut)
    put (fun st => { st with s5u := V1.UConn.apply st.s5u (.relayTo t5 ⟨out, text (addrText addr), st.s1u.self⟩) }) ()
    let ebi ← ask (fun st => (st.s11.brs b).ebi)
    let f ← val (newFTEIDText 1 t1 p.s1uIP [])
    let bc ← val (newBearerContext g [some (newCause 16 0 0 0 none), some (newEBI ebi), f])
    on11 (respond g a m (newMessage g Tab.modifyBearerResponse mme 0 [some (newCause 16 0 0 0 none), bc]) e.w)

/-! ### Delete Session -/

/-- s11_handlers.go:347-385 `handleDeleteSessionRequest` until WaitMessage -/
def handleDelete (g : UInt8 → Bool) (e : Env) (a : Addr) (m : Message) : G Unit := do
  if m.schema.name ≠ "DeleteSessionRequest" then val .panic else
  let s ← ask (fun st => getSessionByTEID st.s11 m.hdr.teidAcc a)
  let s ← val s
  let imsi ← ask (fun st => (st.s11.heap s).imsi)
  let s5 ← ask (fun st => getSessionByIMSI st.s5 imsi)
  let s5 ← val s5
  let pgw ← on5 (getTEID s5 7)
  let b ← ask (fun st => getDefaultBearer st.s5 s5)
  let b ← val (someBearer b)
  let ebi ← ask (fun st => (st.s5.brs b).ebi)
  let seq ← (fun st =>
    match deleteSession st.s5 s5 g st.n5 pgw [some (newEBI ebi)] e.w with
    | (n, ev, r) => ({ st with n5 := n }, ev.map (fun x => (.s5, x)), r) : G UInt32)
  let mme ← on11 (getTEID s 10)
  put (fun st => { st with waiting := st.waiting ++ [.delete s seq a m mme] }) ()

/-- s11_handlers.go:388-405: no answer of the P-GW -/
def failDelete (g : UInt8 → Bool) (e : Env) (a : Addr) (m : Message) (mme : UInt32) : G Unit := do
  on11 (respond g a m (newMessage g Tab.deleteSessionResponse mme 0 [some (newCause 12 0 0 0 none)]) e.w)
  val (err .other)

/-- s11_handlers.go:407-427: the P-GW has answered -/
def finishDelete (g : UInt8 → Bool) (e : Env) (s : Nat) (a : Addr) (req : Message) (mme : UInt32) (m : Message) : G Unit := do
  if m.schema.name ≠ "DeleteSessionResponse" then val (err .other) else
  on11 (respond g a req { m with hdr := m.hdr.setTEID mme } e.w)
  on11 (drop s)

/-- s5_handlers.go:141-165 `handleDeleteSessionResponse` -/
def handleDeleted (a : Addr) (m : Message) : G Unit := do
  let s ← ask (fun st => getSessionByTEID st.s5 m.hdr.teidAcc a)
  let s ← val s
  let imsi ← ask (fun st => (st.s5.heap s).imsi)
  let s11 ← ask (fun st => getSessionByIMSI st.s11 imsi)
  let s11 ← val s11
  pass11 s11 m
  on5 (drop s)

/-! ### Delete Bearer -/

/-- ebi.go:36-39 `MustEPSBearerID` -/
def mustEBI (g : UInt8 → Bool) (i : IE) : UInt8 :=
  match i.ebi g with
  | ok v => v
  | _ => 0

/-- s5_handlers.go:167-256 `handleDeleteBearerRequest` until WaitMessage -/
def handleDeleteBearer (g : UInt8 → Bool) (e : Env) (a : Addr) (m : Message) : G Unit := do
  let s5 ← ask (fun st => getSessionByTEID st.s5 m.hdr.teidAcc a)
  let s5 ← val s5
  let imsi ← ask (fun st => (st.s5.heap s5).imsi)
  let s ← ask (fun st => getSessionByIMSI st.s11 imsi)
  let s ← val s
  let pgw ← on5 (getTEID s5 7)
  let mme ← on11 (getTEID s 10)
  if m.schema.name ≠ "DeleteBearerRequest" then val .panic else
  match (m.fields 0).head?, (m.fields 1).head? with
  | some _, some x => do
    on5 (respond g a m (newMessage g Tab.deleteBearerResponse pgw 0 [some (newCause 64 0 0 0 (some x))]) e.w)
    val (err .other)
  | none, none =>
    on5 (respond g a m (newMessage g Tab.deleteBearerResponse pgw 0 [some (newCause 70 0 0 0 (some (newEBI 0)))]) e.w)
  | some x, none => go s5 s pgw mme x
  | none, some x => go s5 s pgw mme x
where
  /-- s5_handlers.go:236-256 -/
  go (s5 s : Nat) (pgw mme : UInt32) (x : IE) : G Unit := do
    let l ← ask (fun st => lookupBearerByEBI st.s5 s5 e.o5 (mustEBI g x))
    match l with
    | err _ => do
      on5 (respond g a m (newMessage g Tab.deleteBearerResponse pgw 0 [some (newCause 64 0 0 0 none)]) e.w)
      val (err .notFound)
    | .panic => val .panic
    | .diverge => val .diverge
    | ok _ => do
      let seq ← (fun st =>
        match deleteBearer st.s11 s g st.n11 mme [some x] e.w with
        | (n, ev, r) => ({ st with n11 := n }, ev.map (fun x => (.s11, x)), r) : G UInt32)
      put (fun st => { st with waiting := st.waiting ++ [.bearer s5 s seq a m pgw x] }) ()

/-- `session.RemoveBearerByEBI(ebi)` on both sessions -/
def dropBearers (e : Env) (s5 s : Nat) (v : UInt8) : G Unit := do
  on5 (fun c => match removeBearerByEBI c s5 e.o5 v with
    | ok c' => (c', [], ok ())
    | err x => (c, [], err x)
    | .panic => (c, [], .panic)
    | .diverge => (c, [], .diverge))
  on11 (fun c => match removeBearerByEBI c s e.o11 v with
    | ok c' => (c', [], ok ())
    | err x => (c, [], err x)
    | .panic => (c, [], .panic)
    | .diverge => (c, [], .diverge))

/-- s5_handlers.go:260-277: no answer of the MME -/
def failBearer (g : UInt8 → Bool) (e : Env) (s5 s : Nat) (a : Addr) (m : Message) (pgw : UInt32) (x : IE) : G Unit := do
  on5 (respond g a m (newMessage g Tab.deleteBearerResponse pgw 0 [some (newCause 73 0 0 0 none)]) e.w)
  dropBearers e s5 s (mustEBI g x)
  val (err .other)

/-- s5_handlers.go:279-298: the MME has answered -/
def finishBearer (g : UInt8 → Bool) (e : Env) (s5 s : Nat) (a : Addr) (req : Message) (pgw : UInt32) (x : IE) (m : Message) : G Unit := do
  if m.schema.name ≠ "DeleteBearerResponse" then val (err .other) else
  on5 (respond g a req { m with hdr := m.hdr.setTEID pgw } e.w)
  dropBearers e s5 s (mustEBI g x)

/-- s11_handlers.go:430-453 `handleDeleteBearerResponse` -/
def handleBearerDeleted (a : Addr) (m : Message) : G Unit := do
  let s ← ask (fun st => getSessionByTEID st.s11 m.hdr.teidAcc a)
  let s ← val s
  let imsi ← ask (fun st => (st.s11.heap s).imsi)
  let s5 ← ask (fun st => getSessionByIMSI st.s5 imsi)
  let s5 ← val s5
  pass5 s5 m

/-! ### the whole -/

/-- sgw.go:103-133: the connections with their handlers -/
def start (heap11 heap5 : Nat → Sess) (s1u s5u : V1.UConn.UConn) : State where
  s11 := { newConn 11 0 heap11 with handlers := (((defaultHandlers.store 32 (.app 0)).store 34 (.app 1)).store 36 (.app 2)).store 100 (.app 3) }
  s5 := { newConn 6 0 heap5 with handlers := ((defaultHandlers.store 33 (.app 0)).store 37 (.app 1)).store 99 (.app 2) }
  n11 := 0
  n5 := 0
  r11 := fun _ => none
  r5 := fun _ => none
  q11 := fun _ => []
  q5 := fun _ => []
  s1u := s1u
  s5u := s5u
  waiting := []

/-- what can happen -/
inductive Input where
  /-- a datagram from `a` on S11 -/
  | s11 (a : Addr) (d : Bytes)
  /-- a datagram from `a` on S5-C -/
  | s5 (a : Addr) (d : Bytes)
  /-- the i-th waiting handler gets a message from its queue (session.go:149-157) -/
  | wake (i : Nat)
  /-- its time is over (session.go:158-159) -/
  | expire (i : Nat)

/-- a waiting handler goes on: with a message, or without one after an error -/
def resume (g : UInt8 → Bool) (p : Cfg) (e : Env) : Waiting → Option Message → G Unit
  | .create s _ _ a m _ mme, none => failCreate g e s a m mme
  | .create s s5 _ a m f mme, some r => finishCreate g p e s s5 a m f mme r
  | .delete _ _ a m mme, none => failDelete g e a m mme
  | .delete s _ a m mme, some r => finishDelete g e s a m mme r
  | .bearer s5 s _ a m pgw x, none => failBearer g e s5 s a m pgw x
  | .bearer s5 s _ a m pgw x, some r => finishBearer g e s5 s a m pgw x r

def Waiting.seq : Waiting → UInt32
  | .create _ _ q _ _ _ _ => q
  | .delete _ q _ _ _ => q
  | .bearer _ _ q _ _ _ _ => q

/-- the queue it waits at -/
def Waiting.queue (st : State) : Waiting → List Message
  | .create s _ _ _ _ _ _ => st.q11 s
  | .delete s _ _ _ _ => st.q11 s
  | .bearer s5 _ _ _ _ _ _ => st.q5 s5

/-- the first message is taken out -/
def Waiting.pop (st : State) : Waiting → State
  | .create s _ _ _ _ _ _ => { st with q11 := fun i => if i = s then (st.q11 i).drop 1 else st.q11 i }
  | .delete s _ _ _ _ => { st with q11 := fun i => if i = s then (st.q11 i).drop 1 else st.q11 i }
  | .bearer s5 _ _ _ _ _ _ => { st with q5 := fun i => if i = s5 then (st.q5 i).drop 1 else st.q5 i }

/-- one step; a handler that cannot go on stays blocked -/
def step (g : UInt8 → Bool) (p : Cfg) (st : State) (e : Env) : Input → State × List (Port × Ev) × Res Unit
  | .s11 a d =>
    match serveDatagram g st.s11 a d e.w with
    | ([.call 0 a m], ok _) => handleCreate g p e a m st
    | ([.call 1 a m], ok _) => handleModify g p e a m st
    | ([.call 2 a m], ok _) => handleDelete g e a m st
    | ([.call 3 a m], ok _) => handleBearerDeleted a m st
    | (ev, r) => (st, ev.map (fun x => (.s11, x)), r)
  | .s5 a d =>
    match serveDatagram g st.s5 a d e.w with
    | ([.call 0 a m], ok _) => handleCreated g a m st
    | ([.call 1 a m], ok _) => handleDeleted a m st
    | ([.call 2 a m], ok _) => handleDeleteBearer g e a m st
    | (ev, r) => (st, ev.map (fun x => (.s5, x)), r)
  | .wake i =>
    match st.waiting[i]? with
    | none => (st, [], ok ())
    | some x =>
      match x.queue st with
      | [] => (st, [], ok ())
      | m :: _ =>
        let st := x.pop { st with waiting := st.waiting.eraseIdx i }
        if m.hdr.sequence ≠ x.seq then resume g p e x none st else resume g p e x (some m) st
  | .expire i =>
    match st.waiting[i]? with
    | none => (st, [], ok ())
    | some x => resume g p e x none { st with waiting := st.waiting.eraseIdx i }

end Verif.V2.Sgw
