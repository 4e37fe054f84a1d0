import Verif.Model.V2Msg
/-
The message queue of a GTPv2 session: PassMessageTo and WaitMessage (gtpv2/session.go:127-161).

A Go channel with a buffer is a FIFO of at most `cap` values (1000, session.go:61; nothing ever closes it).  Each of the
two functions is one select over the channel and a timer; whichever case happens is one atomic step.  A goroutine that
cannot proceed yet stays blocked, which is a step without effect.  Timers are not modelled: they may fire at any moment.
-/
namespace Verif.V2.Queue

/-- what WaitMessage returned -/
inductive Ret where
  | msg (m : Message)
  /-- InvalidSequenceError with the sequence number received -/
  | invalidSequence (n : UInt32)
  | timeout

structure State where
  cap : Nat
  queue : List Message
  /-- messages for which PassMessageTo returned nil, in that order -/
  passed : List Message
  /-- messages for which PassMessageTo returned ErrTimeout -/
  refused : List Message
  /-- calls of WaitMessage that have returned, in that order: sequence number asked for and result -/
  waits : List (UInt32 × Ret)

/-- session.go:61 -/
def init (cap : Nat := 1000) : State := ⟨cap, [], [], [], []⟩

inductive Step where
  /-- session.go:136: the send case of the select -/
  | pass (m : Message)
  /-- session.go:138: the timeout case -/
  | passTimeout (m : Message)
  /-- session.go:149: the receive case -/
  | wait (seq : UInt32)
  /-- session.go:158: the timeout case -/
  | waitTimeout (seq : UInt32)

def step (s : State) : Step → State
  | .pass m => if s.queue.length < s.cap then { s with queue := s.queue ++ [m], passed := s.passed ++ [m] } else s
  | .passTimeout m => { s with refused := s.refused ++ [m] }
  | .wait seq =>
    match s.queue with
    | [] => s
    | m :: q =>
      if m.hdr.sequence ≠ seq then
        { s with queue := q, waits := s.waits ++ [(seq, .invalidSequence m.hdr.sequence)] }
      else { s with queue := q, waits := s.waits ++ [(seq, .msg m)] }
  | .waitTimeout seq => { s with waits := s.waits ++ [(seq, .timeout)] }

def run (s : State) (l : List Step) : State := l.foldl step s

/-- the messages WaitMessage returned, in order -/
def delivered (s : State) : List Message := s.waits.filterMap fun e => match e.2 with | .msg m => some m | _ => none

end Verif.V2.Queue
