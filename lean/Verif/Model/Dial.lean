import Verif.Model.V2Session
import Verif.Model.UConn
/-
Dialling: gtpv2/conn.go:77-134 `Dial`, gtpv1/u-conn.go:246-314 `DialUPlane`.
What the network and the operating system do is given as arguments.  Time is left out: a read either fails, gives a datagram,
or never returns; with a deadline set it fails instead of never returning.
-/
namespace Verif

/-- what a ReadFrom meets -/
inductive Arrival where
  | fails
  | never
  | datagram (a : String) (b : Bytes)
  deriving DecidableEq, Repr

namespace V2.Conn
open Res Send

/-- gtpv2/conn.go:77-134 `Dial` with the connection of conn.go:78-89, the socket open.  `sent`: the Echo Request could be
written; `setDl`, `clearDl`: the deadline could be set and cleared; `w`: a reply can be written.  The deadline of conn.go:108-111
turns `never` into an error.  `ok`: the connection is returned and Serve started. -/
def dial (g : UInt8 → Bool) (localIf counter : UInt8) (raddr : Addr) (sent setDl : Bool) (r : Arrival) (clearDl w : Bool) :
    List Ev × Res Unit :=
  let c := newConn localIf counter (fun _ => ⟨[], "", false, [], [], [], [], [], [], 0⟩)
  match echoRequest c g 0 raddr sent with
  | (_, ev, ok _) =>
    if setDl = false then (ev, err .other) else
    match r with
    | .datagram a b =>
      if clearDl = false then (ev, err .other) else
      match parseMsg g (b.take 1500) with
      | ok m => (ev ++ (handleMessage g c a m w).1, (handleMessage g c a m w).2)
      | err e => (ev, err e)
      | .panic => (ev, .panic)
      | .diverge => (ev, .diverge)
    | _ => (ev, err .other)
  | (_, ev, err e) => (ev, err e)
  | (_, ev, .panic) => (ev, .panic)
  | (_, ev, .diverge) => (ev, .diverge)

end V2.Conn

namespace V1.UConn
open Res

/-- one turn of the loop of u-conn.go:273-305 -/
structure Round where
  ctxDone : Bool
  sent : Bool
  arrival : Arrival
  clearDl : Bool
  deriving DecidableEq, Repr

/-- how DialUPlane ends -/
inductive Dialled where
  | conn            -- returns the connection, serve is started
  | nothing         -- returns nil, nil (u-conn.go:277)
  | error
  | «panic»
  | blocked         -- ReadFrom without a deadline, and nothing arrives
  | running         -- the rounds given are used up
  deriving DecidableEq, Repr

/-- u-conn.go:604-614 `EchoRequest` -/
def echoRequest (self : Nat) (a : Addr) (w : Bool) : List Ev × Res Unit :=
  match marshalMsg (newMessage Tab.echoRequest 0 0 []) with
  | ok (_, b) => if w then ([.sent self a b], ok ()) else ([], err .other)
  | err e => ([], err e)
  | .panic => ([], .panic)
  | .diverge => ([], .diverge)

/-- is the message an *message.EchoResponse (u-conn.go:300) -/
def isEchoResponse : AnyMsg → Bool
  | .msg m => m.schema.name == "EchoResponse"
  | .tpdu _ => false

/-- u-conn.go:273-305: the loop; `dl`: the read deadline is set.  The buffer has 1600 octets. -/
def dialLoop (self : Nat) (raddr : Addr) : Bool → List Round → List Ev × Dialled
  | _, [] => ([], .running)
  | dl, r :: l =>
    if r.ctxDone then ([], .nothing) else
    match echoRequest self raddr r.sent with
    | (ev, ok _) =>
      match r.arrival with
      | .fails => (ev, .error)
      | .never => if dl then (ev, .error) else (ev, .blocked)
      | .datagram _ b =>
        if r.clearDl = false then (ev, .error) else
        match parseMsg (b.take 1600) with
        | ok m => if isEchoResponse m then (ev, .conn) else (ev ++ (dialLoop self raddr false l).1, (dialLoop self raddr false l).2)
        | err _ => (ev, .error)
        | _ => (ev, .panic)
    | (ev, err _) => (ev, .error)
    | (ev, _) => (ev, .panic)

/-- u-conn.go:246-314 `DialUPlane`; `setDl`: the deadline could be set -/
def dial (self : Nat) (raddr : Addr) (setDl : Bool) (l : List Round) : List Ev × Dialled :=
  if setDl then dialLoop self raddr true l else ([], .error)

end V1.UConn
end Verif
