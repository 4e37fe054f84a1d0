import Verif.Model.V1Msg
import Verif.Model.SyncMap
/-
Model of the user plane connection: gtpv1/u-conn.go (receiving, relaying, replies, reading, writing with a DSCP/ECN value),
gtpv1/handlers.go and gtpv1/tunnel.go.
Simplifications: net.Addr is the string it prints as; connections are numbers; the result of splitting and parsing the
local address (net.SplitHostPort, net.ParseIP, To4) is given as octets; Kernel GTP is off; deadlines and logging are left
out; an application handler is a number and is assumed to return (its effect is one `call` event).
The accesses to the relay table: its length is read before the lock is taken, the entry afterwards (u-conn.go:390-398);
the model has one value for each, so that changes in between are covered.
-/
namespace Verif.V1.UConn
open Res

abbrev Addr := String

/-- tunnel.go:12-16 `peer` -/
structure Peer where
  teid : UInt32
  addr : Addr
  conn : Nat
  deriving DecidableEq, Repr

/-- a HandlerFunc: one of the four of handlers.go or an application's -/
inductive Handler where
  | tpdu
  | echoRequest
  | echoResponse
  | errorIndication
  | app (id : Nat)
  deriving DecidableEq, Repr

/-- u-conn.go:205-221 `UPlaneConn`, as far as receiving needs it -/
structure UConn where
  self : Nat
  relay : SyncMap UInt32 Peer
  handlers : SyncMap UInt8 Handler
  errInd : Bool
  /-- the octets of the GSN Address IE made from the local address (4 or 16), none if it is not an IP address
  (gtpv1/ie/gsn-address.go:13-32) -/
  localIP : Option Bytes
  /-- the connections whose socket is open (pktConn not nil) -/
  opened : Nat → Bool

/-- handlers.go:45-54 `newDefaultMsgHandlerMap` -/
def defaultHandlers : SyncMap UInt8 Handler := [(255, .tpdu), (1, .echoRequest), (2, .echoResponse), (26, .errorIndication)]

/-- u-conn.go:231-243 `NewUPlaneConn` -/
def newUConn (self : Nat) (localIP : Option Bytes) (opened : Nat → Bool) : UConn :=
  ⟨self, [], defaultHandlers, true, localIP, opened⟩

/-- the API operations that change what happens to a datagram -/
inductive Op where
  /-- tunnel.go:21-34 `RelayTo` -/
  | relayTo (teidIn : UInt32) (p : Peer)
  /-- tunnel.go:36-47 `CloseRelay` -/
  | closeRelay (teidIn : UInt32)
  /-- u-conn.go:577-579 `AddHandler` -/
  | addHandler (t : UInt8) (id : Nat)
  /-- u-conn.go:742-746 `EnableErrorIndication` -/
  | enableErrInd
  /-- u-conn.go:754-758 `DisableErrorIndication` -/
  | disableErrInd

def apply (u : UConn) : Op → UConn
  | .relayTo t p => { u with relay := u.relay.store t p }
  | .closeRelay t => { u with relay := u.relay.delete t }
  | .addHandler t id => { u with handlers := u.handlers.store t (.app id) }
  | .enableErrInd => { u with errInd := true }
  | .disableErrInd => { u with errInd := false }

def applyAll (u : UConn) (l : List Op) : UConn := l.foldl apply u

/-- what processing a datagram does -/
inductive Ev where
  /-- a datagram leaves on connection `conn` -/
  | sent (conn : Nat) (to : Addr) (b : Bytes)
  /-- a goroutine offers a T-PDU to ReadFromGTP -/
  | offered (raddr : Addr) (teid : UInt32) (seq : UInt16) (payload : Bytes)
  /-- an application handler is called -/
  | call (id : Nat) (a : Addr) (m : AnyMsg)

/-- `MessageType()` of a parsed message -/
def msgType : AnyMsg → UInt8
  | .msg m => m.hdr.typ
  | .tpdu h => h.typ

/-- `Sequence()` of a parsed message -/
def msgSeq : AnyMsg → UInt16
  | .msg m => m.hdr.seq
  | .tpdu h => h.seq

/-- u-conn.go:478-482 `WriteTo` on the connection itself; `w`: the write succeeds -/
def writeTo (u : UConn) (a : Addr) (b : Bytes) (w : Bool) : List Ev × Res Unit :=
  if w then ([.sent u.self a b], ok ()) else ([], err .other)

/-- u-conn.go:637-641 the message built by `ErrorIndication` -/
def errorIndication (u : UConn) (seq : UInt16) (teid : UInt32) : Message :=
  newMessage Tab.errorIndication 0 seq
    [some (TLV.newIE TLV.v1 16 (be32 teid)), u.localIP.map (TLV.newIE TLV.v1 133)]

/-- u-conn.go:630-650 `ErrorIndication` -/
def sendErrorIndication (u : UConn) (a : Addr) (h : Header) (w : Bool) : List Ev × Res Unit :=
  match marshalMsg (errorIndication u h.seq h.teid) with
  | ok (_, b) => writeTo u a b w
  | err e => ([], err e)
  | .panic => ([], .panic)
  | .diverge => ([], .diverge)

/-- u-conn.go:655-666 `RespondTo` -/
def respondTo (u : UConn) (a : Addr) (received : AnyMsg) (reply : Message) (w : Bool) : List Ev × Res Unit :=
  match marshalMsg { reply with hdr := reply.hdr.setSequence (msgSeq received) } with
  | ok (_, b) => writeTo u a b w
  | err e => ([], err e)
  | .panic => ([], .panic)
  | .diverge => ([], .diverge)

/-- handlers.go:59-97 `handleTPDU` -/
def handleTPDU (u : UConn) (a : Addr) (m : AnyMsg) (w : Bool) : List Ev × Res Unit :=
  match m with
  | .msg _ => ([], err .other)
  | .tpdu h =>
    if u.errInd then
      match sendErrorIndication u a h w with
      | (ev, ok _) => (ev, ok ())
      | (ev, err _) => (ev, ok ())
      | (ev, r) => (ev, r)
    else ([.offered a h.teid h.seq h.payload], ok ())

/-- handlers.go:99-110 `handleEchoRequest`; u-conn.go:669-671 `Restarts` is 0 -/
def handleEchoRequest (u : UConn) (a : Addr) (m : AnyMsg) (w : Bool) : List Ev × Res Unit :=
  match m with
  | .tpdu _ => ([], err .other)
  | .msg x =>
    if x.schema.name ≠ "EchoRequest" then ([], err .other) else
    respondTo u a m (newMessage Tab.echoResponse 0 0 [some (TLV.newIE TLV.v1 14 [0])]) w

/-- handlers.go:112-121 `handleEchoResponse` -/
def handleEchoResponse (m : AnyMsg) : Res Unit :=
  match m with
  | .tpdu _ => err .other
  | .msg x => if x.schema.name ≠ "EchoResponse" then err .other else ok ()

/-- handlers.go:123-137 `handleErrorIndication`: methods are called on the two IEs, nil or not (the first thing they do is
to read a member) -/
def handleErrorIndication (m : AnyMsg) : Res Unit :=
  match m with
  | .tpdu _ => err .other
  | .msg x =>
    if x.schema.name ≠ "ErrorIndication" then err .other
    else if x.fields 0 = [] ∨ x.fields 1 = [] then .panic
    else ok ()

def handle (u : UConn) (a : Addr) (m : AnyMsg) (w : Bool) : Handler → List Ev × Res Unit
  | .tpdu => handleTPDU u a m w
  | .echoRequest => handleEchoRequest u a m w
  | .echoResponse => ([], handleEchoResponse m)
  | .errorIndication => ([], handleErrorIndication m)
  | .app id => ([.call id a m], ok ())

/-- u-conn.go:590-601 `handleMessage` -/
def handleMessage (u : UConn) (a : Addr) (m : AnyMsg) (w : Bool) : List Ev × Res Unit :=
  match u.handlers.load (msgType m) with
  | none => ([], err .notFound)
  | some h => handle u a m w h

/-- u-conn.go:400-408 and 421-431: parse and handle; the error goes to the log -/
def parseAndHandle (u : UConn) (a : Addr) (raw : Bytes) (w : Bool) : List Ev × Res Unit :=
  match parseMsg raw with
  | ok m => handleMessage u a m w
  | err e => ([], err e)
  | .panic => ([], .panic)
  | .diverge => ([], .diverge)

/-- u-conn.go:413-417: overwrite the TEID and send on the other connection -/
def relayOut (u : UConn) (p : Peer) (raw : Bytes) (w : Bool) : List Ev × Res Unit :=
  match copyAt raw 4 8 (be32 p.teid) with
  | ok b =>
    if u.opened p.conn then
      if w then ([.sent p.conn p.addr b], ok ()) else ([], err .other)
    else ([], .panic)
  | err e => ([], err e)
  | .panic => ([], .panic)
  | .diverge => ([], .diverge)

/-- u-conn.go:387-432, the goroutine started for each datagram; `seen`: the relay table was not empty when its length was
read.  `raw[1]` is evaluated only if it was not. -/
def process (u : UConn) (seen : Bool) (a : Addr) (raw : Bytes) (w : Bool) : List Ev × Res Unit :=
  if seen then
    match idx raw 1 with
    | ok t =>
      if t == 255 then
        if raw.length < 11 then ([], ok ()) else
        match slice raw 4 8 >>= rd32 with
        | ok teid =>
          match u.relay.load teid with
          | none => parseAndHandle u a raw w
          | some p => relayOut u p raw w
        | err e => ([], err e)
        | .panic => ([], .panic)
        | .diverge => ([], .diverge)
      else parseAndHandle u a raw w
    | err e => ([], err e)
    | .panic => ([], .panic)
    | .diverge => ([], .diverge)
  else parseAndHandle u a raw w

/-- u-conn.go:371-386: ReadFrom with a buffer of 1500 octets; what does not fit is lost -/
def serve (u : UConn) (seen : Bool) (a : Addr) (datagram : Bytes) (w : Bool) : List Ev × Res Unit :=
  process u seen a (datagram.take 1500) w

end Verif.V1.UConn
