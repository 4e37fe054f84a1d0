import Verif.Model.V2Send
import Verif.Model.V2Queue
/-
A GTPv2 request and its answer across a network: the requesting node's SendMessageTo (gtpv2/conn.go:380-395), the
answering node's RespondTo (conn.go:649-661) and the requesting node's session queue (session.go:127-161) put
together.  Every datagram ever written stays available to the network, which may hand it over never, once or many
times and in any order; it alters and invents none.
Simplifications: a datagram is answered by whoever receives it, with any message the application there likes, any
number of times; the handler at the requesting node passes an answer to any session the application likes, or to none.
-/
namespace Verif.V2.Exchange
open Res

structure State where
  /-- the requesting Conn: its counter, its goroutines and the datagrams it has written -/
  a : Send.State
  /-- the answers written by RespondTo elsewhere: position of the request among the datagrams written by
  SendMessageTo, the message given to RespondTo, the datagram -/
  answers : List (Nat × Message × Bytes)
  /-- the queues of the sessions of the requesting Conn (session.go:61) -/
  q : Nat → Queue.State

inductive Step where
  /-- a step of a goroutine of the requesting Conn -/
  | a (x : Send.Step)
  /-- the i-th datagram is received, parsed (conn.go:192-204) and answered with `r` (conn.go:649-661) -/
  | answer (i : Nat) (r : Message)
  /-- the j-th answer is received, parsed (conn.go:192-204) and passed to session k (session.go:127-141) -/
  | deliver (j k : Nat)
  /-- PassMessageTo or WaitMessage in session k times out, or WaitMessage takes a message (session.go:127-161) -/
  | passTimeout (k : Nat) (m : Message)
  | wait (k : Nat) (seq : UInt32)
  | waitTimeout (k : Nat) (seq : UInt32)

def upd (q : Nat → Queue.State) (k : Nat) (x : Queue.Step) : Nat → Queue.State :=
  fun n => if n = k then Queue.step (q k) x else q n

/-- conn.go:192-204 and 649-661: a datagram is parsed and answered -/
def answered (g : UInt8 → Bool) (b : Bytes) (r : Message) : Option Bytes :=
  match parseMsg g b with
  | ok received =>
    match Send.response g received r with
    | ok (_, out) => some out
    | _ => none
  | _ => none

def step (g : UInt8 → Bool) (s : State) : Step → State
  | .a x => { s with a := Send.step g s.a x }
  | .answer i r =>
    match s.a.sent[i]? with
    | none => s
    | some (_, _, b) =>
      match answered g b r with
      | some out => { s with answers := s.answers ++ [(i, r, out)] }
      | none => s
  | .deliver j k =>
    match s.answers[j]? with
    | none => s
    | some (_, _, out) =>
      match parseMsg g out with
      | ok m => { s with q := upd s.q k (.pass m) }
      | _ => s
  | .passTimeout k m => { s with q := upd s.q k (.passTimeout m) }
  | .wait k seq => { s with q := upd s.q k (.wait seq) }
  | .waitTimeout k seq => { s with q := upd s.q k (.waitTimeout seq) }

def run (g : UInt8 → Bool) (s : State) (l : List Step) : State := l.foldl (step g) s

/-- a Conn whose counter is n, that nobody has used yet -/
def init (n : UInt32) : State := ⟨Send.init n, [], fun _ => Queue.init⟩

end Verif.V2.Exchange
