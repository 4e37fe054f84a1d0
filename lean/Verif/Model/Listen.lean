import Verif.Base
/-
Opening the socket of a connection and serving it, any number of times and from any number of goroutines:
gtpv2/conn.go:137-206 `ListenAndServe`, `Listen`, `Serve`, 233-240 `Close`; gtpv1/u-conn.go:177-202 `newPktConn`, 319-434
`ListenAndServe`, `serve`, 514-521 `Close`.  Lifecycle.lean is the same for one call of Serve on a socket that is open.
Simplifications: all sockets of a connection are of one local address, and the operating system refuses a second one while
one is open if the port is given (`fixed`); what the goroutine of a datagram does is elsewhere; kernel tunnels are left out;
closing a socket succeeds and makes a waiting ReadFrom return net.ErrClosed (operating system and Go runtime); a panic, on
whatever goroutine, ends the process; reading the field that holds the socket is one step with what it is read for.
-/
namespace Verif.Listen

/-- which of the two connections -/
inductive Kind where
  | v1
  | v2
  deriving DecidableEq, Repr

structure Cfg where
  kind : Kind
  /-- the local address has a port -/
  fixed : Bool
  deriving DecidableEq, Repr

/-- what net.ListenPacket gives, and whether the address has an IP (u-conn.go:188-201) -/
inductive Outcome where
  | refused
  | noIP
  | opened
  deriving DecidableEq, Repr

/-- where a call of Serve (GTPv2) or ListenAndServe (GTPv1) is; `reading k`: waits in ReadFrom of socket k; `returned true` is
a nil error -/
inductive Pc where
  | start
  | opening
  | top
  | reading (k : Nat)
  | returned (isNil : Bool)
  deriving DecidableEq, Repr

/-- where the goroutine started by the call is (conn.go:168-177, u-conn.go:338-359) -/
inductive Watcher where
  | idle
  | waiting
  | woken
  | done
  deriving DecidableEq, Repr

structure Call where
  ctx : Nat
  pc : Pc
  watcher : Watcher
  deriving DecidableEq, Repr

structure State where
  /-- contexts that are cancelled -/
  cancelled : List Nat
  /-- closeCh is closed -/
  closed : Bool
  /-- the field pktConn: which socket, or nil -/
  pkt : Option Nat
  /-- the sockets ever opened, true if open -/
  socks : List Bool
  /-- the calls ever made -/
  calls : List Call
  /-- datagrams a goroutine was started for, with their socket -/
  started : List (Nat × String × Bytes)
  /-- a goroutine has panicked: the process is gone -/
  crashed : Bool
  deriving DecidableEq, Repr

/-- conn.go:56-69 `NewConn`, u-conn.go:231-243 `NewUPlaneConn` -/
def init : State := ⟨[], false, none, [], [], [], false⟩

inductive Step where
  /-- the application calls Listen (GTPv2 only) -/
  | listen (r : Outcome)
  /-- the application calls Serve (GTPv2), ListenAndServe (GTPv1) -/
  | enter (ctx : Nat)
  /-- u-conn.go:320: pktConn == nil -/
  | look (i : Nat)
  /-- u-conn.go:322-327: newPktConn -/
  | «open» (i : Nat) (r : Outcome)
  | cancel (ctx : Nat)
  /-- the application calls Close -/
  | close
  /-- the application or a handler uses the socket: ReadFrom, WriteTo, LocalAddr, SetDeadline and the like -/
  | use
  /-- the select of the watcher returns -/
  | wake (i : Nat)
  /-- the watcher closes the socket -/
  | sockClose (i : Nat)
  /-- the select before reading (GTPv1), and the call of ReadFrom -/
  | check (i : Nat)
  /-- a datagram is read -/
  | arrive (i : Nat) (a : String) (b : Bytes)
  /-- ReadFrom finds the socket closed -/
  | closedErr (i : Nat)
  /-- ReadFrom returns io.EOF -/
  | eof (i : Nat)
  /-- ReadFrom fails in another way -/
  | readErr (i : Nat)
  deriving DecidableEq, Repr

/-- what the operating system answers: a given port cannot be had twice -/
def answer (f : Cfg) (s : State) (r : Outcome) : Outcome := if f.fixed && s.socks.any id then .refused else r

def setCall (s : State) (i : Nat) (c : Call) : State := { s with calls := s.calls.set i c }

/-- the context of the call is cancelled or Close called -/
def asked (s : State) (c : Call) : Bool := s.closed || s.cancelled.contains c.ctx

/-- a step of call `i`, which is `c` -/
def callStep (f : Cfg) (s : State) (i : Nat) (c : Call) : Step → State
  -- u-conn.go:320, 329: serve starts the watcher
  | .look _ =>
    if c.pc = .start then
      match s.pkt with
      | none => setCall s i { c with pc := .opening }
      | some _ => setCall s i { c with pc := .top, watcher := .waiting }
    else s
  -- u-conn.go:322-329, 177-202: an error leaves pktConn nil, a socket without IP stays open
  | .open _ r =>
    if c.pc = .opening then
      match answer f s r with
      | .refused => setCall { s with pkt := none } i { c with pc := .returned false }
      | .noIP => setCall { s with pkt := none, socks := s.socks ++ [true] } i { c with pc := .returned false }
      | .opened =>
        setCall { s with pkt := some s.socks.length, socks := s.socks ++ [true] } i { c with pc := .top, watcher := .waiting }
    else s
  | .wake _ => if c.watcher = .waiting ∧ asked s c = true then setCall s i { c with watcher := .woken } else s
  -- conn.go:174: a nil pktConn panics; u-conn.go:354: it is looked at
  | .sockClose _ =>
    if c.watcher = .woken then
      match s.pkt, f.kind with
      | some k, _ => setCall { s with socks := s.socks.set k false } i { c with watcher := .done }
      | none, .v1 => setCall s i { c with watcher := .done }
      | none, .v2 => { s with crashed := true }
    else s
  -- conn.go:181, u-conn.go:363-372, 449
  | .check _ =>
    if c.pc = .top then
      if f.kind = .v1 ∧ asked s c = true then setCall s i { c with pc := .returned true } else
      match s.pkt with
      | none => { s with crashed := true }
      | some k => setCall s i { c with pc := .reading k }
    else s
  | .arrive _ a b =>
    match c.pc with
    | .reading k =>
      if s.socks[k]? = some true then
        setCall { s with started := s.started ++ [(k, a, b)] } i { c with pc := .top } else s
    | _ => s
  | .closedErr _ =>
    match c.pc with
    | .reading k => if s.socks[k]? = some false then setCall s i { c with pc := .returned true } else s
    | _ => s
  | .eof _ =>
    match c.pc with
    | .reading k => if s.socks[k]? = some true then setCall s i { c with pc := .returned true } else s
    | _ => s
  -- conn.go:189, u-conn.go:382: the text of the error asks pktConn for its address
  | .readErr _ =>
    match c.pc with
    | .reading k =>
      if s.socks[k]? = some true then
        match s.pkt with
        | none => { s with crashed := true }
        | some _ => setCall s i { c with pc := .returned false }
      else s
    | _ => s
  | _ => s

/-- the call a step belongs to -/
def Step.call : Step → Option Nat
  | .look i => some i
  | .open i _ => some i
  | .wake i => some i
  | .sockClose i => some i
  | .check i => some i
  | .arrive i _ _ => some i
  | .closedErr i => some i
  | .eof i => some i
  | .readErr i => some i
  | _ => none

def step (f : Cfg) (s : State) (x : Step) : State :=
  if s.crashed then s else
  match x.call with
  | some i =>
    match s.calls[i]? with
    | some c => callStep f s i c x
    | none => s
  | none =>
    match x with
    -- conn.go:146-155: an error leaves pktConn nil; the IP of the address is not looked at
    | .listen r =>
      if f.kind = .v2 then
        if answer f s r = .refused then { s with pkt := none }
        else { s with pkt := some s.socks.length, socks := s.socks ++ [true] }
      else s
    | .enter c =>
      match f.kind with
      | .v1 => { s with calls := s.calls ++ [⟨c, .start, .idle⟩] }
      | .v2 => { s with calls := s.calls ++ [⟨c, .top, .waiting⟩] }
    | .cancel c => { s with cancelled := s.cancelled ++ [c] }
    | .close => if s.closed then { s with crashed := true } else { s with closed := true }
    | .use => if s.pkt = none then { s with crashed := true } else s
    | _ => s

def run (f : Cfg) (s : State) (l : List Step) : State := l.foldl (step f) s

end Verif.Listen
