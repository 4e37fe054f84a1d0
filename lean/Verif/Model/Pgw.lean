import Verif.Model.V2Session
import Verif.Model.AddrText
import Verif.Model.Typed.Convenience
/-
The P-GW of examples/gw-tester (examples/gw-tester/pgw/handlers.go, pgw.go:73-91), a program on top of gtpv2.Conn.

Simplifications: the kernel module is off (`useKernelGTP` false; then nothing is done in handlers.go:183-187); logging and the
counters of Prometheus are left out; what is stored in the new session and bearer before a `return err` is not seen by anyone;
the bearer's SubscriberIP is a local value; TEIDs are drawn by the environment: `k` is the number NewSenderFTEID found (`none`: no
round found one, Model/Alloc.lean), `ku` the one uConn.NewFTEID found, whose table is not used here otherwise.
-/
namespace Verif.V2.Pgw
open Res Send Conn NetIP

/-- a piece of a handler: it may change the connection, send, and return early -/
def H (α : Type) := Conn → Conn × List Ev × Res α

/-- `pure`, and sequence with early return -/
def H.pure {α : Type} (a : α) : H α := fun c => (c, [], ok a)
def H.bind {α β : Type} (x : H α) (f : α → H β) : H β := fun c =>
  match x c with
  | (c, ev, ok a) => ((f a c).1, ev ++ (f a c).2.1, (f a c).2.2)
  | (c, ev, err e) => (c, ev, err e)
  | (c, ev, .panic) => (c, ev, .panic)
  | (c, ev, .diverge) => (c, ev, .diverge)

instance : Monad H where
  pure := H.pure
  bind := H.bind

/-- `v, err := r; if err != nil { return err }` -/
def lift {α : Type} (r : Res α) : H α := fun c => (c, [], r)
/-- an assignment -/
def set (f : Conn → Conn) : H Unit := fun c => (f c, [], ok ())
/-- read the state -/
def read {α : Type} (f : Conn → α) : H α := fun c => (c, [], ok (f c))
/-- `if x := msg.Field; x != nil { … } else { return &gtpv2.RequiredIEMissingError{…} }`; of a list the first -/
def need (l : List IE) : H IE :=
  match l with
  | i :: _ => lift (ok i)
  | [] => lift (err .other)
/-- `c.RemoveSessionByIMSI(imsi)` -/
def dropIMSI (imsi : Bytes) : H Unit := fun c =>
  match removeSessionByIMSI c imsi with
  | ok c' => (c', [], ok ())
  | err e => (c, [], err e)
  | .panic => (c, [], .panic)
  | .diverge => (c, [], .diverge)
/-- `c.RemoveSession(session)` -/
def drop (s : Nat) : H Unit := fun c =>
  match removeSession c s with
  | ok c' => (c', [], ok ())
  | err e => (c, [], err e)
  | .panic => (c, [], .panic)
  | .diverge => (c, [], .diverge)
/-- `c.RespondTo(addr, received, reply)` -/
def respond (g : UInt8 → Bool) (a : Addr) (m reply : Message) (w : Bool) : H Unit := fun c => (c, respondTo g a m reply w)
/-- session.go:120-125 `GetTEID` -/
def getTEID (s : Nat) (ifType : UInt8) : H UInt32 := fun c =>
  match (c.heap s).teids.load ifType with
  | some t => (c, [], ok t)
  | none => (c, [], err .notFound)
/-- a method of a nil *IE reads a member -/
def deref (i : Option IE) : Res IE :=
  match i with
  | some i => ok i
  | none => .panic
/-- f-teid.go:286-289 `MustTEID` -/
def mustTEID (i : IE) : UInt32 :=
  match i.teid with
  | ok t => t
  | _ => 0
/-- `strings.Split(x, ":")[0]` -/
def host (x : Bytes) : Bytes := x.takeWhile (· ≠ colon)

/-- the addresses of the P-GW: pgw.go:27 `s5u` and the address of the connection -/
structure Cfg where
  laddr : UDPAddr
  s5u : Bytes

/-- handlers.go:102-123: one child of the Bearer Context -/
def child (g : UInt8 → Bool) (s b : Nat) (i : IE) : H Unit :=
  if i.typ = 73 then do
    let v ← lift (i.ebi g)
    set (fun c => updateBearer c b (fun x => { x with ebi := v }))
  else if i.typ = 87 then do
    let it ← lift i.interfaceType
    let t ← lift i.teid
    set (fun c => addTEID c s it t)
    let _ ← lift i.ipAddress
    pure ()
  else pure ()

/-- handlers.go:101-124: the loop over the children -/
def children (g : UInt8 → Bool) (s b : Nat) : List IE → H Unit
  | [] => pure ()
  | i :: l => do
    child g s b i
    children g s b l

/-- handlers.go:28-136: read the request into the new session `s` and its bearer `b`; the address of the subscriber -/
def readRequest (g : UInt8 → Bool) (s b : Nat) (a : Addr) (m : Message) : H Bytes := do
  set (fun c => newSession c s b a)
  let i ← need (m.fields 0)
  let imsi ← lift i.imsi
  dropIMSI imsi
  set (fun c => update c s (fun x => { x with imsi := imsi }))
  let i ← need (m.fields 1)
  let v ← lift i.msisdn
  set (fun c => update c s (fun x => { x with msisdn := v }))
  let i ← need (m.fields 2)
  let v ← lift i.mei
  set (fun c => update c s (fun x => { x with imei := v }))
  let i ← need (m.fields 9)
  let v ← lift (apnOf g i)
  set (fun c => updateBearer c b (fun x => { x with apn := v }))
  let i ← need (m.fields 4)
  let p ← lift i.plmn
  set (fun c => update c s (fun x => { x with mcc := p.1 }))
  let p ← lift i.plmn
  set (fun c => update c s (fun x => { x with mnc := p.2 }))
  let i ← need (m.fields 5)
  let v ← lift (ratOf g i)
  set (fun c => update c s (fun x => { x with rat := v }))
  let i ← need (m.fields 7)
  let t ← lift i.teid
  set (fun c => addTEID c s 6 t)
  let i ← need (m.fields 18)
  children g s b i.children
  let i ← need (m.fields 12)
  lift i.ipAddress

/-- handlers.go:140 `c.NewSenderFTEID(cIP, "").WithInstance(1)` (gtpv2/conn.go:748-774) -/
def senderFTEID (k : Option UInt32) (cIP : Bytes) : H IE := do
  match k with
  | none => lift .panic
  | some k => do
    set (fun c => reserve c k)
    let f ← read (fun c => c.localIf)
    let i ← lift (newFTEIDText f k cIP [])
    let i ← lift (deref i)
    pure (i.withInstance 1)

/-- handlers.go:141 `p.uConn.NewFTEID(gtpv2.IFTypeS5S8PGWGTPU, uIP, "").WithInstance(2)` (gtpv1/u-conn.go:682-709) -/
def userFTEID (ku : Option UInt32) (uIP : Bytes) : H IE := do
  match ku with
  | none => lift .panic
  | some k => do
    let i ← lift (newFTEIDText 5 k uIP [])
    let i ← lift (deref i)
    pure (i.withInstance 2)

/-- handlers.go:146-161: the Create Session Response; `q` says whether the request has an SGW-FQ-CSID -/
def answer (g : UInt8 → Bool) (teid : UInt32) (cf uf : IE) (ip : Bytes) (ebi : UInt8) (q : Bool) (cIP : Bytes) : Res Message := do
  let paa ← newPAAText ip
  let bc ← newBearerContext g
    [some (newCause 16 0 0 0 none), some (newEBI ebi), some uf, some (newChargingID 0)]
  let r := newMessage g Tab.createSessionResponse teid 0
    [some (newCause 16 0 0 0 none), some cf, paa, some (Plain.new8 ⟨"APNRestriction", 127, [127]⟩ 2), bc]
  if q then do
    let f ← newCSIDText cIP [1]
    ok { r with fields := Msg.upd r.fields 16 f.toList }
  else ok r

/-- session.go:68-78 `Activate` with its error -/
def activateH (s : Nat) : H Unit := fun c =>
  if (c.heap s).imsi = [] then (c, [], err .other) else (activate c s, [], ok ())

/-- handlers.go:138-166: from the end of the reading until the answer is written -/
def accept (g : UInt8 → Bool) (p : Cfg) (s b : Nat) (k ku : Option UInt32) (a : Addr) (m : Message) (ip : Bytes) (w : Bool) : H Unit := do
  let cf ← senderFTEID k (host p.laddr.string)
  let uf ← userFTEID ku (host p.s5u)
  let t ← getTEID s 6
  let ebi ← read (fun c => (c.brs b).ebi)
  let r ← lift (answer g t cf uf ip ebi (! (m.fields 23).isEmpty) (host p.laddr.string))
  set (fun c => addTEID c s 7 (mustTEID cf))
  set (fun c => addTEID c s 5 (mustTEID uf))
  respond g a m r w

/-- handlers.go:172-181: what is done after the answer was written -/
def enrol (s : Nat) : H Unit := do
  let t ← getTEID s 7
  activateH s
  set (fun c => registerSession c t s)

/-- handlers.go:17-193 `handleCreateSessionRequest` -/
def handleCreate (g : UInt8 → Bool) (p : Cfg) (s b : Nat) (k ku : Option UInt32) (a : Addr) (m : Message) (w : Bool) : H Unit := do
  if m.schema.name ≠ "CreateSessionRequest" then lift .panic else
  let ip ← readRequest g s b a m
  accept g p s b k ku a m ip w
  enrol s

/-- handlers.go:195-237 `handleDeleteSessionRequest`: the error of the look-up is returned after the refusal was sent; a session
without the S-GW's TEID gets no answer -/
def handleDelete (g : UInt8 → Bool) (a : Addr) (m : Message) (w : Bool) : H Unit := fun c =>
  match getSessionByTEID c m.hdr.teidAcc a with
  | err e => (do
      respond g a m (newMessage g Tab.deleteSessionResponse 0 0 [some (newCause 96 0 0 0 none)]) w
      lift (err e) : H Unit) c
  | ok s =>
    match (c.heap s).teids.load 6 with
    | none => (c, [], ok ())
    | some t => (do
      respond g a m (newMessage g Tab.deleteSessionResponse t 0 [some (newCause 16 0 0 0 none)]) w
      drop s : H Unit) c
  | .panic => (c, [], .panic)
  | .diverge => (c, [], .diverge)

/-- pgw.go:78-91: a connection with the two handlers; 0 is the handler of Create Session Requests, 1 that of Delete Session
Requests -/
def start (heap : Nat → Sess) : Conn :=
  { newConn 7 0 heap with handlers := (defaultHandlers.store 32 (.app 0)).store 36 (.app 1) }

/-- the P-GW gets a datagram: gtpv2/conn.go:192-204 with the handlers above.  `s` and `b` are free addresses, `k` and `ku` the TEIDs
drawn if the request asks for some, `w` says whether the socket write succeeds -/
def serve (g : UInt8 → Bool) (p : Cfg) (c : Conn) (s b : Nat) (k ku : Option UInt32) (a : Addr) (d : Bytes) (w : Bool) :
    Conn × List Ev × Res Unit :=
  match serveDatagram g c a d w with
  | ([.call 0 a m], ok _) => handleCreate g p s b k ku a m w c
  | ([.call 1 a m], ok _) => handleDelete g a m w c
  | (ev, r) => (c, ev, r)

end Verif.V2.Pgw
