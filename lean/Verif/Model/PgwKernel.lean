import Verif.Model.Pgw
import Verif.Model.Tunnel
/-
The user plane of the P-GW of examples/gw-tester with `useKernelGTP` on: handlers.go:96-124 and 183-187 and pgw.go:97-102, 174-224, on
top of Model/Pgw.lean (the handlers) and Model/Tunnel.lean (the kernel tunnels).

Assumed of the kernel and of the netlink library, besides what Model/Tunnel.lean says:
* RouteReplace replaces the route with the same destination, table and metric; a call that fails changes nothing, and every call may
  fail at any time (`Faults`);
* RuleAdd fails when the same rule exists (NLM_F_EXCL);
* GTPPDPAdd sends the IPv4 form of the addresses (`octets`).
Simplifications: of the routing tables only table 3001 and the route to the network behind SGi are there, of the rules only those of
this program.  In pgw.go:215 `r.Dst == ms32` compares pointers, one of them just made, so that it never holds.  What is noted for
`close` (addedRoutes, addedRules) is left out.
-/
namespace Verif.V2.Pgw
open Res Send Conn NetIP V1.Tunnel

/-- the routes, rules and tunnels of the kernel -/
structure Kern where
  sys : Sys
  /-- table 3001: destination and device -/
  down : List (Bytes × String)
  /-- the network behind SGi has its route -/
  up : Bool
  /-- the rules: packets from SGi to this address are routed with table 3001 -/
  rules : List Bytes

/-- which calls of pgw.go:174-224 fail -/
structure Faults where
  tun : Nat → Bool
  down : Bool
  link : Bool
  up : Bool
  list : Bool
  rule : Bool

def Faults.zero : Faults := ⟨fun _ => false, false, false, false, false, false⟩

/-- pgw.go:174-224 `setupUPlane`; true is a nil error -/
def setup (f : Faults) (n : Kern) (p : PDP) : Kern × Bool :=
  match call f.tun n.sys (.override p) with
  | (s, .done true) =>
    let n := { n with sys := s }
    if f.down then (n, false) else
    let n := { n with down := (p.ms, (s.link.elim "" Prod.fst)) :: n.down.filter (fun x => x.1 ≠ p.ms) }
    if f.link then (n, false) else
    if f.up then (n, false) else
    let n := { n with up := true }
    if f.list then (n, false) else
    if f.rule ∨ p.ms ∈ n.rules then (n, false) else ({ n with rules := p.ms :: n.rules }, true)
  | (s, _) => ({ n with sys := s }, false)

/-- `v, err := …` where an error has returned before -/
def valOr {α : Type} (r : Res α) (x : α) : α :=
  match r with
  | ok v => v
  | _ => x

/-- handlers.go:96-124: `s5sgwuIP` and `oteiU` after the loop -/
def userEnd (l : List IE) : Bytes × UInt32 :=
  l.foldl (fun x i => if i.typ = 87 then (valOr i.ipAddress x.1, valOr i.teid x.2) else x) ([], 0)

/-- `net.ParseIP(x)`, as octets in the netlink message -/
def octets (x : Bytes) : Bytes := ((parseIP x).bind to4).getD []

/-- handlers.go:184: the arguments of setupUPlane; `s5uFTEID.MustTEID()` is the TEID the element was made with -/
def tunnelOf (m : Message) (ku : UInt32) : PDP :=
  let e := userEnd ((m.fields 18).head?.elim [] IE.children)
  ⟨octets e.1, octets ((m.fields 12).head?.elim [] fun i => valOr i.ipAddress []), e.2.toNat, ku.toNat⟩

/-- handlers.go:141 `p.uConn.NewFTEID` was reached, and has entered its TEID in the table of `uConn` (gtpv1/u-conn.go:685-690) -/
def draws (g : UInt8 → Bool) (p : Cfg) (s b : Nat) (k : Option UInt32) (a : Addr) (m : Message) (c : Conn) : Bool :=
  match (readRequest g s b a m >>= fun _ => senderFTEID k (host p.laddr.string)) c with
  | (_, _, ok _) => true
  | _ => false

def Kern.reserve (n : Kern) (ku : UInt32) : Kern := { n with sys := { n.sys with reserved := ku.toNat :: n.sys.reserved } }

/-- the P-GW gets a datagram; as `serve`, with handlers.go:183-187 -/
def serveK (g : UInt8 → Bool) (p : Cfg) (f : Faults) (c : Conn) (n : Kern) (s b : Nat) (k : Option UInt32) (ku : UInt32) (a : Addr)
    (d : Bytes) (w : Bool) : (Conn × Kern) × List Ev × Res Unit :=
  match serveDatagram g c a d w with
  | ([.call 0 a m], ok _) =>
    let n := if draws g p s b k a m c then n.reserve ku else n
    match handleCreate g p s b k (some ku) a m w c with
    | (c, ev, ok _) => ((c, (setup f n (tunnelOf m ku)).1), ev, if (setup f n (tunnelOf m ku)).2 then ok () else err .other)
    | (c, ev, r) => ((c, n), ev, r)
  | ([.call 1 a m], ok _) => (((handleDelete g a m w c).1, n), (handleDelete g a m w c).2)
  | (ev, r) => ((c, n), ev, r)

/-- what the kernel does with a packet to `ms` from SGi: to which address it is sent, with which TEID -/
def Kern.downlink (n : Kern) (ms : Bytes) : Option (Bytes × Nat) :=
  if ms ∈ n.rules then
    match n.down.find? (fun x => x.1 = ms) with
    | some x =>
      match n.sys.dev x.2 with
      | some l => (l.find? (fun q => q.ms = ms)).map (fun q => (q.peer, q.otei))
      | none => none
    | none => none
  else none

/-- whether the kernel takes a packet from `src` out of a datagram with the TEID `t` (a GGSN device compares the address) -/
def Kern.uplink (n : Kern) (t : Nat) (src : Bytes) : Prop := ∃ l, n.sys.dev "gtp-pgw" = some l ∧ ∃ q ∈ l, q.itei = t ∧ q.ms = src

end Verif.V2.Pgw
