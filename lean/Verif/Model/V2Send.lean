import Verif.Model.V2Msg
/-
Model of the sending side of gtpv2/conn.go: SendMessageTo, RespondTo and the sequence number counter, as a machine whose
steps are the atomic actions of the goroutines using one Conn.  IncSequence, DecSequence and SequenceNumber run
under c.mu and are one step each; marshalling touches only the caller's message; a socket write is one step whose
success is chosen by the environment.  A schedule is any list of steps; a step that is not enabled does nothing.
Simplification: net.Addr is the string it prints as; goroutines have numbers.
-/
namespace Verif.V2.Send
open Res

abbrev Addr := String

/-- where a goroutine is within SendMessageTo (conn.go:380-395) -/
inductive Pc where
  | idle
  /-- after conn.go:381-382: number drawn and set; `i` is the position of the draw in the history of draws -/
  | drew (i : Nat) (seq : UInt32) (m : Message) (a : Addr)
  /-- after conn.go:384: marshalled -/
  | ready (i : Nat) (seq : UInt32) (b : Bytes) (a : Addr)
  /-- before conn.go:386 or 391: the counter will be decremented -/
  | failing
  /-- the goroutine panicked -/
  | crashed

/-- what SendMessageTo returned -/
inductive Ret where
  | ok (seq : UInt32)
  | err (seq : UInt32)
  deriving DecidableEq, Repr

structure State where
  /-- conn.go:48 `sequence` -/
  seq : UInt32
  pc : Nat → Pc
  /-- history: all values returned by IncSequence, in order -/
  draws : List UInt32
  /-- history: datagrams written by SendMessageTo, in order, with the position of their draw -/
  sent : List (Nat × Addr × Bytes)
  /-- history: datagrams written by RespondTo -/
  answered : List (Addr × Bytes)
  /-- history: results of SendMessageTo by goroutine -/
  rets : List (Nat × Ret)

/-- conn.go:398-409 `IncSequence` -/
def inc (n : UInt32) : UInt32 := if n + 1 > 0x7fffff then 0 else n + 1

/-- conn.go:412-418 `DecSequence` -/
def dec (n : UInt32) : UInt32 := n - 1

def setPc (pc : Nat → Pc) (t : Nat) (p : Pc) : Nat → Pc := fun u => if u = t then p else pc u

/-- `SetSequenceNumber` promoted from Header -/
def setSeq (m : Message) (n : UInt32) : Message := { m with hdr := m.hdr.setSequence n }

inductive Step where
  /-- IncSequence called by the application -/
  | draw
  /-- goroutine t enters SendMessageTo(m, a): conn.go:381-382 -/
  | send (t : Nat) (m : Message) (a : Addr)
  /-- conn.go:384-388 -/
  | marshal (t : Nat)
  /-- conn.go:390-394, the write succeeds or fails -/
  | write (t : Nat) (success : Bool)
  /-- conn.go:386-387 or 391-392: DecSequence and return -/
  | rollback (t : Nat)
  /-- conn.go:649-661 `RespondTo(a, received, toBeSent)` -/
  | respond (a : Addr) (received toBeSent : Message) (success : Bool)

/-- conn.go:650-655: the bytes RespondTo writes -/
def response (g : UInt8 → Bool) (received toBeSent : Message) : Res (Message × Bytes) :=
  marshalMsg g (setSeq toBeSent received.hdr.sequence)

def step (g : UInt8 → Bool) (s : State) : Step → State
  | .draw => { s with seq := inc s.seq, draws := s.draws ++ [inc s.seq] }
  | .send t m a =>
    match s.pc t with
    | .idle => { s with
        seq := inc s.seq
        draws := s.draws ++ [inc s.seq]
        pc := setPc s.pc t (.drew s.draws.length (inc s.seq) (setSeq m (inc s.seq)) a) }
    | _ => s
  | .marshal t =>
    match s.pc t with
    | .drew i n m a =>
      match marshalMsg g m with
      | ok (_, b) => { s with pc := setPc s.pc t (.ready i n b a) }
      | err _ => { s with pc := setPc s.pc t .failing }
      | _ => { s with pc := setPc s.pc t .crashed }
    | _ => s
  | .write t success =>
    match s.pc t with
    | .ready i n b a =>
      if success then
        { s with pc := setPc s.pc t .idle, sent := s.sent ++ [(i, a, b)], rets := s.rets ++ [(t, .ok n)] }
      else { s with pc := setPc s.pc t .failing }
    | _ => s
  | .rollback t =>
    match s.pc t with
    | .failing => { s with seq := dec s.seq, pc := setPc s.pc t .idle, rets := s.rets ++ [(t, .err (dec s.seq))] }
    | _ => s
  | .respond a received toBeSent success =>
    match response g received toBeSent with
    | ok (_, b) => if success then { s with answered := s.answered ++ [(a, b)] } else s
    | _ => s

def run (g : UInt8 → Bool) (s : State) (sched : List Step) : State := sched.foldl (step g) s

/-- a Conn whose counter is n and that nobody is using -/
def init (n : UInt32) : State := ⟨n, fun _ => .idle, [], [], [], []⟩

/-- a call of SendMessageTo by goroutine t that nothing interrupts -/
def call (t : Nat) (m : Message) (a : Addr) (success : Bool) : List Step :=
  [.send t m a, .marshal t, .write t success, .rollback t]

end Verif.V2.Send
