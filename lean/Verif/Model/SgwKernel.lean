import Verif.Model.Sgw
import Verif.Model.PgwKernel
/-
The user plane of the S-GW of examples/gw-tester with `useKernelGTP` on: s11_handlers.go:299-310 in place of 312-321, sgw.go:135-169 and
202-317, and the SubscriberIP of the bearers (s5_handlers.go:59-65, s11_handlers.go:188-194), on top of Model/Sgw.lean (the handlers) and
Model/Tunnel.lean (the kernel tunnels of one connection).

Assumed of the kernel and of the netlink library, besides what Model/Tunnel.lean and Model/PgwKernel.lean say:
* a device of the role GGSN takes a packet out of a G-PDU if the tunnel with the TEID has the packet's source address, and wraps a packet
  with the tunnel of its destination address; a device of the role SGSN has source and destination exchanged;
* a packet that comes out of a device is routed with the first rule for the device whose table has a route;
* RouteDel fails when there is no such route.
Simplifications: each connection has its own view of the kernel (`Sys`), in which only its own device changes; of the routing tables only
the default routes with metric 1 are there, of the rules only those with a device and nothing else; the table of TEIDs in use is left
out; new bearers get an empty SubscriberIP when the Create Session Request is read.
-/
namespace Verif.V2.Sgw
open Res Send Conn NetIP V1.Tunnel
open Pgw (respond getTEID octets valOr)

/-- default routes and rules of the kernel -/
structure Net where
  /-- the device of the default route in a table -/
  table : Nat → Option String
  /-- packets from this device are routed with this table -/
  rules : List (String × Nat)

/-- the S-GW with its kernel: `ip11`, `ip5` are the SubscriberIP of the bearers (gtpv2/bearer.go:27), `u1`, `u5` the tunnels of s1uConn and
s5uConn -/
structure KState where
  st : State
  ip11 : Nat → Bytes
  ip5 : Nat → Bytes
  u1 : Sys
  u5 : Sys
  net : Net

/-- sgw.go:137, 152 the names of the devices -/
def dev1 : String := "gtp-sgw-s1"
def dev5 : String := "gtp-sgw-s5"

/-! ### routes and rules -/

/-- netlink.RouteReplace and RouteDel of a default route -/
def Net.replace (n : Net) (t : Nat) (d : String) : Net := { n with table := fun i => if i = t then some d else n.table i }
def Net.del (n : Net) (t : Nat) (d : String) : Option Net :=
  if n.table t = some d then some { n with table := fun i => if i = t then none else n.table i } else none
/-- netlink.RuleAdd, RuleDel -/
def Net.addRule (n : Net) (r : String × Nat) : Net := { n with rules := n.rules ++ [r] }
def Net.delRule (n : Net) (r : String × Nat) : Option Net := if r ∈ n.rules then some { n with rules := n.rules.erase r } else none

/-- sgw.go:36-38: what `close` is to take back -/
structure Added where
  routes : List (Nat × String)
  rules : List (String × Nat)

/-- sgw.go:245-317 `addRoutes`, the i-th call failing when `f i`; true is a nil error -/
def addRoutes (f : Nat → Bool) (n : Net) : Net × Added × Bool :=
  if f 0 then (n, ⟨[], []⟩, false) else
  let n := n.replace 2001 dev5
  if f 1 then (n, ⟨[(2001, dev5)], []⟩, false) else
  let n := n.replace 2005 dev1
  let routes := [(2001, dev5), (2001, dev5)]
  if f 2 then (n, ⟨routes, []⟩, false) else
  let found1 := n.rules.contains (dev1, 2001)
  let found5 := n.rules.contains (dev5, 2005)
  if !found1 && f 3 then (n, ⟨routes, []⟩, false) else
  let n := if found1 then n else n.addRule (dev1, 2001)
  let rules := if found1 then [] else [(dev1, 2001)]
  if !found5 && f 4 then (n, ⟨routes, rules⟩, false) else
  let n := if found5 then n else n.addRule (dev5, 2005)
  (n, ⟨routes, rules ++ if found5 then [] else [(dev5, 2005)]⟩, true)

/-- sgw.go:204-208, 209-213: with the number of errors -/
def delRoutes : List (Nat × String) → Net → Net × Nat
  | [], n => (n, 0)
  | r :: l, n =>
    match n.del r.1 r.2 with
    | some n => delRoutes l n
    | none => ((delRoutes l n).1, (delRoutes l n).2 + 1)
def delRules : List (String × Nat) → Net → Net × Nat
  | [], n => (n, 0)
  | r :: l, n =>
    match n.delRule r with
    | some n => delRules l n
    | none => ((delRules l n).1, (delRules l n).2 + 1)

/-- sgw.go:202-213, the first part of `close`, when the kernel fails only where it must -/
def takeBack (a : Added) (n : Net) : Net × Nat :=
  ((delRules a.rules (delRoutes a.routes n).1).1, (delRoutes a.routes n).2 + (delRules a.rules (delRoutes a.routes n).1).2)

/-! ### Modify Bearer Request -/

/-- s11_handlers.go:272: `enbIP` after the loop -/
def enbIP (l : List IE) : Bytes := l.foldl (fun x i => if i.typ = 87 then valOr i.ipAddress x else x) []

/-- what s11_handlers.go:299-330 needs of what was before -/
structure Ends where
  b : Option Nat
  b5 : Nat
  mme : UInt32
  t1 : UInt32
  t5 : UInt32
  enb : Bytes
  pgw : Bytes

/-- s11_handlers.go:244-297 -/
def prepare (a : Addr) (m : Message) : G Ends := do
  let s ← ask (fun st => getSessionByTEID st.s11 m.hdr.teidAcc a)
  let s ← val s
  let imsi ← ask (fun st => (st.s11.heap s).imsi)
  let s5 ← ask (fun st => getSessionByIMSI st.s5 imsi)
  let s5 ← val s5
  let b ← ask (fun st => getDefaultBearer st.s11 s)
  let b5 ← ask (fun st => getDefaultBearer st.s5 s5)
  if m.schema.name ≠ "ModifyBearerRequest" then val .panic else
  match m.fields 8 with
  | [] => val (err .other)
  | i :: _ => do
    children11 s b i.children
    let mme ← on11 (getTEID s 10)
    let t1 ← on11 (getTEID s 1)
    let t5 ← on5 (getTEID s5 4)
    let b5 ← val (someBearer b5)
    let addr5 ← ask (fun st => st.r5 b5)
    let h ← val (hostOf addr5)
    pure ⟨b, b5, mme, t1, t5, enbIP i.children, h⟩

/-- s11_handlers.go:324-341 -/
def answer (g : UInt8 → Bool) (p : Cfg) (e : Env) (a : Addr) (m : Message) (x : Ends) (b : Nat) : G Unit := do
  let ebi ← ask (fun st => (st.s11.brs b).ebi)
  let f ← val (newFTEIDText 1 x.t1 p.s1uIP [])
  let bc ← val (newBearerContext g [some (newCause 16 0 0 0 none), some (newEBI ebi), f])
  on11 (respond g a m (newMessage g Tab.modifyBearerResponse x.mme 0 [some (newCause 16 0 0 0 none), bc]) e.w)

/-- s11_handlers.go:300-302, 305-307: the tunnels on S1-U and on S5-U -/
def tunnel1 (k : KState) (x : Ends) (b : Nat) : PDP := ⟨octets x.enb, octets (k.ip11 b), (k.st.s11.brs b).teidOut.toNat, x.t1.toNat⟩
def tunnel5 (k : KState) (x : Ends) : PDP := ⟨octets x.pgw, octets (k.ip5 x.b5), (k.st.s5.brs x.b5).teidOut.toNat, x.t5.toNat⟩

/-- which kernel calls fail -/
structure KFaults where
  u1 : Nat → Bool
  u5 : Nat → Bool

def KFaults.zero : KFaults := ⟨fun _ => false, fun _ => false⟩

/-- s11_handlers.go:244-345 `handleModifyBearerRequest` -/
def modifyK (g : UInt8 → Bool) (p : Cfg) (e : Env) (f : KFaults) (a : Addr) (m : Message) (k : KState) : KState × List (Port × Ev) × Res Unit :=
  match prepare a m k.st with
  | (st, ev, ok x) =>
    let k := { k with st := st }
    match x.b with
    | none => (k, ev, .panic)
    | some b =>
      match call f.u1 k.u1 (.override (tunnel1 k x b)) with
      | (u, .done true) =>
        let k := { k with u1 := u }
        match call f.u5 k.u5 (.override (tunnel5 k x)) with
        | (u, .done true) => ({ k with u5 := u, st := (answer g p e a m x b st).1 }, ev ++ (answer g p e a m x b st).2.1, (answer g p e a m x b st).2.2)
        | (u, _) => ({ k with u5 := u }, ev, err .other)
      | (u, _) => ({ k with u1 := u }, ev, err .other)
  | (st, ev, err x) => ({ k with st := st }, ev, err x)
  | (st, ev, .panic) => ({ k with st := st }, ev, .panic)
  | (st, ev, .diverge) => ({ k with st := st }, ev, .diverge)

/-! ### the subscribers' addresses -/

def setIP (ip : Nat → Bytes) (b : Nat) (x : Bytes) : Nat → Bytes := fun i => if i = b then x else ip i

/-- s5_handlers.go:25-65: the bearer and its address, if line 64 is reached -/
def paa5 (g : UInt8 → Bool) (a : Addr) (m : Message) (st : State) : Option (Nat × Bytes) :=
  match getSessionByTEID st.s5 m.hdr.teidAcc a with
  | ok s =>
    match (m.fields 0).head?, (m.fields 6).head?, getDefaultBearer st.s5 s with
    | some c, some i, some b =>
      match c.cause g, i.ipAddress with
      | ok v, ok x => if v = 16 then some (b, x) else none
      | _, _ => none
    | _, _, _ => none
  | _ => none

/-- s11_handlers.go:188-190: the assignment is made with an error too -/
def paa11 (s : Nat) (m : Message) (st : State) : Option (Nat × Bytes) :=
  if m.schema.name ≠ "CreateSessionResponse" then none else
  match (m.fields 6).head?, getDefaultBearer st.s11 s with
  | some i, some b => some (b, valOr i.ipAddress [])
  | _, _ => none

def setPAA (ip : Nat → Bytes) (x : Option (Nat × Bytes)) : Nat → Bytes :=
  match x with
  | some (b, v) => setIP ip b v
  | none => ip

/-- the SubscriberIPs on S11 when the i-th waiting handler goes on -/
def wakeIP (k : KState) (i : Nat) : Nat → Bytes :=
  match k.st.waiting[i]? with
  | some (.create s _ seq _ _ _ _) =>
    match k.st.q11 s with
    | r :: _ => if r.hdr.sequence ≠ seq then k.ip11 else setPAA k.ip11 (paa11 s r k.st)
    | [] => k.ip11
  | _ => k.ip11

/-! ### the whole -/

/-- one step, as `step` -/
def stepK (g : UInt8 → Bool) (p : Cfg) (k : KState) (e : Env) (f : KFaults) (i : Input) : KState × List (Port × Ev) × Res Unit :=
  let plain (ip11 ip5 : Nat → Bytes) : KState × List (Port × Ev) × Res Unit :=
    ({ k with st := (step g p k.st e i).1, ip11 := ip11, ip5 := ip5 }, (step g p k.st e i).2.1, (step g p k.st e i).2.2)
  match i with
  | .s11 a d =>
    match serveDatagram g k.st.s11 a d e.w with
    | ([.call 0 _ _], ok _) => plain (setIP k.ip11 e.b []) (setIP k.ip5 e.b5 [])
    | ([.call 1 a m], ok _) => modifyK g p e f a m k
    | _ => plain k.ip11 k.ip5
  | .s5 a d =>
    match serveDatagram g k.st.s5 a d e.w with
    | ([.call 0 a m], ok _) => plain k.ip11 (setPAA k.ip5 (paa5 g a m k.st))
    | _ => plain k.ip11 k.ip5
  | .wake i => plain (wakeIP k i) k.ip5
  | .expire _ => plain k.ip11 k.ip5

/-! ### packets -/

/-- where a packet from device `d` is sent to -/
def Net.out (n : Net) (d : String) : Option String := ((n.rules.filter (fun r => r.1 = d)).filterMap (fun r => n.table r.2)).head?

/-- the tunnels of a device -/
def KState.tunnels (k : KState) (d : String) : List PDP :=
  if d = dev1 then (k.u1.dev dev1).getD [] else if d = dev5 then (k.u5.dev dev5).getD [] else []

/-- whether device `d` takes a packet of the subscriber `ms` out of a G-PDU with the TEID `t`; the address is compared with the source on
S1-U (RoleGGSN, sgw.go:137) and with the destination on S5-U (RoleSGSN, sgw.go:152) -/
def KState.takes (k : KState) (d : String) (t : Nat) (ms : Bytes) : Prop := ∃ q ∈ k.tunnels d, q.itei = t ∧ q.ms = ms

/-- the address and the TEID the device `d` sends a packet of the subscriber `ms` with; the address is the destination on S1-U and the
source on S5-U -/
def KState.wraps (k : KState) (d : String) (ms : Bytes) : Option (Bytes × Nat) :=
  ((k.tunnels d).find? (fun q => q.ms = ms)).map (fun q => (q.peer, q.otei))

/-- a G-PDU with TEID `t` comes on the connection with device `d` and has a packet of `ms` in it: it is sent on to `addr` with TEID `t'`
from the other device -/
def KState.forwards (k : KState) (d : String) (t : Nat) (ms : Bytes) (d' : String) (addr : Bytes) (t' : Nat) : Prop :=
  k.takes d t ms ∧ k.net.out d = some d' ∧ k.wraps d' ms = some (addr, t')

end Verif.V2.Sgw
