import Verif.Model.UConn
/-
Two concurrent pieces of gtpv1/u-conn.go: handing T-PDUs to ReadFromGTP, and writing with a DSCP/ECN value.
-/
namespace Verif.V1.URead

/-- u-conn.go:28-33 `tpduSet` -/
structure TPDU where
  raddr : UConn.Addr
  teid : UInt32
  seq : UInt16
  payload : Bytes
  deriving DecidableEq, Repr

/-- what ReadFromGTP returned and left in the caller's buffer -/
structure Result where
  n : Nat
  buf : Bytes
  addr : Option UConn.Addr
  teid : UInt32
  deriving DecidableEq, Repr

/-- The unbuffered channel tpduCh: every T-PDU that handleTPDU offers waits in a goroutine of its own (handlers.go:86-93) until a
reader takes it or three seconds pass (which may happen at any moment in the model). -/
structure State where
  closed : Bool
  waiting : List TPDU
  offered : List TPDU
  dropped : List TPDU
  /-- every return of ReadFromGTP: the T-PDU it took, if any, and the result -/
  reads : List (Option TPDU × Result)

def init : State := ⟨false, [], [], [], []⟩

inductive Step where
  /-- handlers.go:76-93: a T-PDU is offered -/
  | offer (x : TPDU)
  /-- u-conn.go:461: a reader with buffer `p` takes the i-th of the waiting T-PDUs -/
  | read (p : Bytes) (i : Nat)
  /-- u-conn.go:459: a reader finds the connection closed -/
  | readClosed (p : Bytes)
  /-- handlers.go:90: the i-th waiting goroutine gives up -/
  | timeout (i : Nat)
  /-- u-conn.go:514-521 `Close` -/
  | close

/-- u-conn.go:466-469: `n = copy(p, tpdu.payload)` and the named results -/
def result (p : Bytes) (x : TPDU) : Result :=
  ⟨min p.length x.payload.length, x.payload.take p.length ++ p.drop x.payload.length, some x.raddr, x.teid⟩

def step (s : State) : Step → State
  | .offer x => { s with waiting := s.waiting ++ [x], offered := s.offered ++ [x] }
  | .read p i =>
    match s.waiting[i]? with
    | none => s
    | some x => { s with waiting := s.waiting.eraseIdx i, reads := s.reads ++ [(some x, result p x)] }
  | .readClosed p => if s.closed then { s with reads := s.reads ++ [(none, ⟨0, p, none, 0⟩)] } else s
  | .timeout i =>
    match s.waiting[i]? with
    | none => s
    | some x => { s with waiting := s.waiting.eraseIdx i, dropped := s.dropped ++ [x] }
  | .close => { s with closed := true }

def run (s : State) (l : List Step) : State := l.foldl step s

end Verif.V1.URead

namespace Verif.V1.Dscp

/-- one call of WriteToWithDSCPECN (u-conn.go:88-105 for IPv4, 150-167 for IPv6, the same code) -/
structure Call where
  p : Bytes
  addr : UConn.Addr
  dscp : Int
  deriving DecidableEq, Repr

/-- where a goroutine is -/
inductive Pc where
  | idle
  | blocked (c : Call)          -- before mu.Lock
  | locked (c : Call)           -- before DSCPECN()
  | got (c : Call) (old : Int)  -- before setDSCPECN(dscpecn)
  | set (c : Call) (old : Int)  -- before WriteTo
  | wrote (c : Call) (old : Int) (success : Bool) -- before the deferred setDSCPECN(old)
  | done (c : Call) (success : Bool) -- before the deferred mu.Unlock
  deriving DecidableEq, Repr

structure State where
  /-- the socket option TOS or Traffic Class -/
  opt : Int
  /-- holder of pkt.mu -/
  owner : Option Nat
  pc : Nat → Pc
  /-- datagrams that left: goroutine, call, option value in force -/
  sent : List (Nat × Call × Int)
  /-- returned calls and whether the error was nil -/
  rets : List (Nat × Call × Bool)
  /-- some deferred setDSCPECN(old) has failed; its error is ignored by the code -/
  restoreFailed : Bool

inductive Step where
  | call (t : Nat) (c : Call)
  | lock (t : Nat)
  | get (t : Nat) (success : Bool)
  | set (t : Nat) (success : Bool)
  | write (t : Nat) (success : Bool)
  | restore (t : Nat) (success : Bool)
  | unlock (t : Nat)

def setPc (s : State) (t : Nat) (p : Pc) : State := { s with pc := fun j => if j = t then p else s.pc j }

/-- u-conn.go:88-105, one line at a time.  Every system call is atomic; a failing one has no effect (assumption about the
operating system). -/
def step (s : State) : Step → State
  | .call t c => match s.pc t with
    | .idle => setPc s t (.blocked c)
    | _ => s
  | .lock t => match s.pc t, s.owner with
    | .blocked c, none => { setPc s t (.locked c) with owner := some t }
    | _, _ => s
  | .get t success => match s.pc t with
    | .locked c => if success then setPc s t (.got c s.opt) else setPc s t (.done c false)
    | _ => s
  | .set t success => match s.pc t with
    | .got c old => if success then { setPc s t (.set c old) with opt := c.dscp } else setPc s t (.done c false)
    | _ => s
  | .write t success => match s.pc t with
    | .set c old =>
      if success then { setPc s t (.wrote c old true) with sent := s.sent ++ [(t, c, s.opt)] }
      else setPc s t (.wrote c old false)
    | _ => s
  | .restore t success => match s.pc t with
    | .wrote c old r =>
      if success then { setPc s t (.done c r) with opt := old } else { setPc s t (.done c r) with restoreFailed := true }
    | _ => s
  | .unlock t => match s.pc t with
    | .done c r => { setPc s t .idle with owner := none, rets := s.rets ++ [(t, c, r)] }
    | _ => s

def init (opt : Int) : State := ⟨opt, none, fun _ => .idle, [], [], false⟩

def run (s : State) (l : List Step) : State := l.foldl step s

end Verif.V1.Dscp
