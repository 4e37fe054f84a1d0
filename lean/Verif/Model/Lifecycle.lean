import Verif.Base
/-
Starting and stopping a connection: gtpv2/conn.go:167-206 `Serve`, 233-240 `Close`; gtpv1/u-conn.go:337-434 `serve`, 514-521
`Close`.  The two differ in that the one of GTPv1 looks at the context and the close channel before every read.
Simplifications: Serve is called at most once on a connection; the socket is open from the beginning (Listen, Dial); what the
goroutine of a datagram does is in V2Conn.lean and UConn.lean, here it is only started; kernel tunnels are left out;
closing the socket succeeds and makes a waiting ReadFrom return net.ErrClosed (operating system and Go runtime).
-/
namespace Verif.Lifecycle

/-- which of the two connections -/
inductive Kind where
  | v1
  | v2
  deriving DecidableEq, Repr

/-- where Serve is; `returned true` is a nil error -/
inductive Pc where
  | idle
  | top
  | reading
  | returned (isNil : Bool)
  deriving DecidableEq, Repr

/-- where the goroutine started by Serve is (conn.go:168-177, u-conn.go:338-359) -/
inductive Watcher where
  | idle
  | waiting
  | woken
  | done
  deriving DecidableEq, Repr

structure State where
  ctxDone : Bool
  /-- closeCh is closed -/
  closed : Bool
  sockOpen : Bool
  pc : Pc
  watcher : Watcher
  /-- datagrams a goroutine was started for -/
  started : List (String × Bytes)
  /-- a goroutine has panicked: the process is gone -/
  crashed : Bool
  deriving DecidableEq, Repr

def init : State := ⟨false, false, true, .idle, .idle, [], false⟩

inductive Step where
  /-- the application calls Serve -/
  | serve
  /-- the context of Serve is cancelled -/
  | cancel
  /-- the application calls Close -/
  | close
  /-- conn.go:169-172, u-conn.go:339-342: the select of the watcher returns -/
  | wake
  /-- conn.go:174, u-conn.go:355: the watcher closes the socket -/
  | sockClose
  /-- u-conn.go:363-370: the select before reading; nothing in GTPv2 -/
  | check
  /-- conn.go:181, 192-204 and u-conn.go:372, 385-432: a datagram is read -/
  | arrive (a : String) (b : Bytes)
  /-- conn.go:186-188, u-conn.go:379-381: ReadFrom finds the socket closed -/
  | closedErr
  /-- conn.go:183-185, u-conn.go:374-376: ReadFrom returns io.EOF -/
  | eof
  /-- conn.go:189, u-conn.go:382: ReadFrom fails in another way, e.g. because a deadline has passed -/
  | readErr
  deriving DecidableEq, Repr

def step (k : Kind) (s : State) (x : Step) : State :=
  if s.crashed then s else
  match x with
  | .serve => if s.pc = .idle then { s with pc := .top, watcher := .waiting } else s
  | .cancel => { s with ctxDone := true }
  | .close => if s.closed then { s with crashed := true } else { s with closed := true }
  | .wake => if s.watcher = .waiting ∧ (s.ctxDone ∨ s.closed) then { s with watcher := .woken } else s
  | .sockClose => if s.watcher = .woken then { s with watcher := .done, sockOpen := false } else s
  | .check =>
    if s.pc = .top then
      if k = .v1 ∧ (s.ctxDone ∨ s.closed) then { s with pc := .returned true } else { s with pc := .reading }
    else s
  | .arrive a b =>
    if s.pc = .reading ∧ s.sockOpen then { s with pc := .top, started := s.started ++ [(a, b)] } else s
  | .closedErr => if s.pc = .reading ∧ s.sockOpen = false then { s with pc := .returned true } else s
  | .eof => if s.pc = .reading ∧ s.sockOpen then { s with pc := .returned true } else s
  | .readErr => if s.pc = .reading ∧ s.sockOpen then { s with pc := .returned false } else s

def run (k : Kind) (s : State) (l : List Step) : State := l.foldl (step k) s

end Verif.Lifecycle
