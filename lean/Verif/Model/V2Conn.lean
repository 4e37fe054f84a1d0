import Verif.Model.V2Send
import Verif.Model.SyncMap
/-
Model of gtpv2/conn.go and gtpv2/session.go: the session registry, validation of incoming messages and the default
handlers of gtpv2/handlers.go.
Simplifications: net.Addr is the string it prints as; a *Session is the number of an object in `heap`; sessions have a
non-nil Subscriber (NewSession is called with one); a *Bearer is the number of an object in `brs` and always has a QoS
profile; of the Location only the members the library writes are kept; deadlines and logging are left out; an application
handler is a number and is assumed to return (its effect is one `call` event).  A string read from an information element
is the list of its octets.
-/
namespace Verif.V2.Conn
open Res Send

/-- bearer.go:12-31 `QoSProfile` and `Bearer` without the remote address -/
structure Bearer where
  teidIn : UInt32 := 0
  teidOut : UInt32 := 0
  ebi : UInt8 := 0
  apn : Bytes := []
  pci : Bool := false
  pvi : Bool := false
  pl : UInt8 := 0
  qci : UInt8 := 0
  mbrUp : UInt64 := 0
  mbrDown : UInt64 := 0
  gbrUp : UInt64 := 0
  gbrDown : UInt64 := 0
  deriving DecidableEq, Repr

/-- session.go:29-46 `Session` with its `Subscriber` and `Location` (session.go:15-27); the message queue is in
Model/V2Queue.lean -/
structure Sess where
  imsi : Bytes
  peer : Addr
  active : Bool
  /-- teidMap, by interface type -/
  teids : SyncMap UInt8 UInt32
  /-- bearerMap, by name; `none` is a nil *Bearer -/
  bearers : SyncMap String (Option Nat)
  msisdn : Bytes
  imei : Bytes
  mcc : Bytes
  mnc : Bytes
  rat : UInt8

/-- a HandlerFunc: one of the three of handlers.go:54-87 or an application's -/
inductive Handler where
  | echoRequest
  | echoResponse
  | versionNotSupported
  | app (id : Nat)
  deriving DecidableEq, Repr

/-- conn.go:30-53 `Conn`; in `byTeid` the value `none` is the typed nil pointer stored by NewSenderFTEID -/
structure Conn where
  localIf : UInt8
  byTeid : SyncMap UInt32 (Option Nat)
  byImsi : SyncMap Bytes Nat
  heap : Nat → Sess
  brs : Nat → Bearer
  validation : Bool
  handlers : SyncMap UInt8 Handler
  restart : UInt8

/-- handlers.go:44-52 `newDefaultMsgHandlerMap` -/
def defaultHandlers : SyncMap UInt8 Handler := [(1, .echoRequest), (2, .echoResponse), (3, .versionNotSupported)]

/-- conn.go:56-69 `NewConn` (the sessions and bearers that exist are the application's) -/
def newConn (localIf counter : UInt8) (heap : Nat → Sess) (brs : Nat → Bearer := fun _ => {}) : Conn :=
  ⟨localIf, [], [], heap, brs, true, defaultHandlers, counter⟩

/-- conn.go:664-673 `GetSessionByTEID`: a reserved TEID yields a nil *Session, whose member is read -/
def getSessionByTEID (c : Conn) (teid : UInt32) (peer : Addr) : Res Nat :=
  match c.byTeid.load teid with
  | none => err .notFound
  | some none => .panic
  | some (some s) => if peer ≠ (c.heap s).peer then err .notFound else ok s

/-- conn.go:676-681 `GetSessionByIMSI` -/
def getSessionByIMSI (c : Conn) (imsi : Bytes) : Res Nat :=
  match c.byImsi.load imsi with
  | some s => ok s
  | none => err .notFound

/-- conn.go:684-691 `GetIMSIByTEID` -/
def getIMSIByTEID (c : Conn) (teid : UInt32) (peer : Addr) : Res Bytes := do
  let s ← getSessionByTEID c teid peer
  ok (c.heap s).imsi

/-- an update of one session object -/
def update (c : Conn) (s : Nat) (f : Sess → Sess) : Conn :=
  { c with heap := fun i => if i = s then f (c.heap i) else c.heap i }

/-- session.go:115-117 `AddTEID` -/
def addTEID (c : Conn) (s : Nat) (ifType : UInt8) (teid : UInt32) : Conn :=
  update c s (fun x => { x with teids := x.teids.store ifType teid })

/-- conn.go:699-704 `RegisterSession` -/
def registerSession (c : Conn) (itei : UInt32) (s : Nat) : Conn :=
  addTEID { c with byTeid := c.byTeid.store itei (some s), byImsi := c.byImsi.store (c.heap s).imsi s } s c.localIf itei

/-- conn.go:707-725 `RemoveSession`; the branch without TEID reads the IMSI of every registered session -/
def removeSession (c : Conn) (s : Nat) : Res Conn :=
  let imsi := (c.heap s).imsi
  let c := { c with byImsi := c.byImsi.delete imsi }
  match (c.heap s).teids.load c.localIf with
  | some itei => ok { c with byTeid := c.byTeid.delete itei }
  | none =>
    if c.byTeid.any (fun e => e.2 = none) then .panic else
    ok { c with byTeid := c.byTeid.filter (fun e => match e.2 with | some s => (c.heap s).imsi ≠ imsi | none => true) }

/-- conn.go:730-737 `RemoveSessionByIMSI` -/
def removeSessionByIMSI (c : Conn) (imsi : Bytes) : Res Conn :=
  match c.byImsi.load imsi with
  | none => ok c
  | some s => removeSession c s

/-- session.go:68-78 `Activate` -/
def activate (c : Conn) (s : Nat) : Conn :=
  if (c.heap s).imsi = [] then c else update c s (fun x => { x with active := true })

/-- session.go:81-87 `Deactivate` -/
def deactivate (c : Conn) (s : Nat) : Conn := update c s (fun x => { x with active := false })

/-- session.go:103-106 `UpdatePeerAddr` -/
def updatePeer (c : Conn) (s : Nat) (a : Addr) : Conn := update c s (fun x => { x with peer := a })

/-- `session.IMSI = imsi` by the application or ParseCreateSession -/
def setIMSI (c : Conn) (s : Nat) (imsi : Bytes) : Conn := update c s (fun x => { x with imsi := imsi })

/-- the round of conn.go:748-774 `NewSenderFTEID` in which number k is drawn -/
def reserve (c : Conn) (k : UInt32) : Conn :=
  if k = 0 then c else { c with byTeid := (c.byTeid.loadOrStore k none).1 }

/-- conn.go:799-810 `SessionCount` -/
def sessionCount (c : Conn) : Nat := (c.byImsi.filter (fun e => (c.heap e.2).active)).length

/-- conn.go:786-794 `Sessions` -/
def sessions (c : Conn) : List Nat := c.byImsi.map Prod.snd

/-- operations of the API -/
inductive Op where
  | register (t : UInt32) (s : Nat)
  | remove (s : Nat)
  | removeByIMSI (i : Bytes)
  | activate (s : Nat)
  | deactivate (s : Nat)
  | addTEID (s : Nat) (ifType : UInt8) (t : UInt32)
  | updatePeer (s : Nat) (a : Addr)
  | setIMSI (s : Nat) (i : Bytes)
  | reserve (k : UInt32)
  | addHandler (typ : UInt8) (id : Nat)
  | setValidation (on : Bool)

/-- conn.go:294-311 AddHandler(s), 343-358 EnableValidation, DisableValidation -/
def apply (c : Conn) : Op → Res Conn
  | .register t s => ok (registerSession c t s)
  | .remove s => removeSession c s
  | .removeByIMSI i => removeSessionByIMSI c i
  | .activate s => ok (Conn.activate c s)
  | .deactivate s => ok (Conn.deactivate c s)
  | .addTEID s f t => ok (Conn.addTEID c s f t)
  | .updatePeer s a => ok (Conn.updatePeer c s a)
  | .setIMSI s i => ok (Conn.setIMSI c s i)
  | .reserve k => ok (Conn.reserve c k)
  | .addHandler t id => ok { c with handlers := c.handlers.store t (.app id) }
  | .setValidation on => ok { c with validation := on }

def applyAll (c : Conn) : List Op → Res Conn
  | [] => ok c
  | op :: ops => do
    let c ← apply c op
    applyAll c ops

/-! ### incoming messages -/

/-- what the endpoint does that others can see -/
inductive Ev where
  /-- the application's handler is called -/
  | call (id : Nat) (a : Addr) (m : Message)
  /-- a datagram is written -/
  | sent (a : Addr) (b : Bytes)

/-- conn.go:649-661 `RespondTo`; `w` says whether the socket write succeeds -/
def respondTo (g : UInt8 → Bool) (a : Addr) (received reply : Message) (w : Bool) : List Ev × Res Unit :=
  match response g received reply with
  | ok (_, b) => if w then ([.sent a b], ok ()) else ([], err .other)
  | err e => ([], err e)
  | .panic => ([], .panic)
  | .diverge => ([], .diverge)

/-- conn.go:360-376 `validate` -/
def validate (g : UInt8 → Bool) (c : Conn) (a : Addr) (m : Message) (w : Bool) : List Ev × Res Unit :=
  if m.hdr.version ≠ 2 then
    match respondTo g a m (newMessage g Tab.versionNotSupportedIndication 0 m.hdr.sequence []) w with
    | (ev, ok _) => (ev, err .invalidVersion)
    | (ev, r) => (ev, r)
  else if m.hdr.teidAcc ≠ 0 then
    match getSessionByTEID c m.hdr.teidAcc a with
    | ok _ => ([], ok ())
    | err _ => ([], err .notFound)
    | .panic => ([], .panic)
    | .diverge => ([], .diverge)
  else ([], ok ())

/-- handlers.go:54-87: the default handlers check the type of the message; an application's handler is called -/
def handle (g : UInt8 → Bool) (c : Conn) (a : Addr) (m : Message) (w : Bool) : Handler → List Ev × Res Unit
  | .echoRequest =>
    if m.schema.name ≠ "EchoRequest" then ([], err .other) else
    respondTo g a m (newMessage g Tab.echoResponse 0 0 [some (newIE 3 0 [c.restart])]) w
  | .echoResponse => if m.schema.name ≠ "EchoResponse" then ([], err .other) else ([], ok ())
  | .versionNotSupported =>
    if m.schema.name ≠ "VersionNotSupportedIndication" then ([], err .other) else ([], err .invalidVersion)
  | .app id => ([.call id a m], ok ())

/-- conn.go:325-333: look up the handler and call it -/
def dispatch (g : UInt8 → Bool) (c : Conn) (a : Addr) (m : Message) (w : Bool) : List Ev × Res Unit :=
  match c.handlers.load m.hdr.typ with
  | none => ([], err .notFound)
  | some h => handle g c a m w h

/-- conn.go:313-334 `handleMessage` -/
def handleMessage (g : UInt8 → Bool) (c : Conn) (a : Addr) (m : Message) (w : Bool) : List Ev × Res Unit :=
  if c.validation then
    match validate g c a m w with
    | (ev, ok _) => (ev ++ (dispatch g c a m w).1, (dispatch g c a m w).2)
    | (ev, r) => (ev, r)
  else dispatch g c a m w

/-- the goroutine started by conn.go:167-206 `Serve` (192-204) for a datagram `b` from `a` -/
def serveDatagram (g : UInt8 → Bool) (c : Conn) (a : Addr) (b : Bytes) (w : Bool) : List Ev × Res Unit :=
  match parseMsg g b with
  | ok m => handleMessage g c a m w
  | err e => ([], err e)
  | .panic => ([], .panic)
  | .diverge => ([], .diverge)

end Verif.V2.Conn
