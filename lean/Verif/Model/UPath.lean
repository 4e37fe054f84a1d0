import Verif.Model.UConn
/-
A network of GTP-U connections (gtpv1/u-conn.go, tunnel.go) that relay for each other.  Connections are numbered, `at`
says which of them receives what is sent to an address, `addr` which address a connection sends from.  Every datagram
ever sent stays available to the network, which may hand it over never, once or many times and in any order.
Simplifications: the goroutine that handles a datagram is one step; a goroutine that panics only stops (in Go it takes
the process with it, C39); what an application's handler does with a message is its own business (`send` may follow).
-/
namespace Verif.V1.UPath
open Res UConn

structure Net where
  at_ : Addr → Option Nat
  addr : Nat → Addr
  /-- the local IP addresses of the connections and whether their sockets are open (u-conn.go:205-221) -/
  ip : Nat → Option Bytes
  opened : Nat → Bool

structure State where
  conns : Nat → UConn
  /-- datagrams sent: by connection, to address -/
  flights : List (Nat × Addr × Bytes)
  /-- T-PDUs offered to ReadFromGTP: at connection, from address, TEID, sequence number, payload -/
  offered : List (Nat × Addr × UInt32 × UInt16 × Bytes)

inductive Step where
  /-- RelayTo, CloseRelay, AddHandler, EnableErrorIndication or DisableErrorIndication on connection n -/
  | op (n : Nat) (o : Op)
  /-- WriteTo or WriteToGTP on connection n, or any other program there, sends a datagram (u-conn.go:478-508) -/
  | send (n : Nat) (a : Addr) (d : Bytes)
  /-- the i-th datagram arrives (u-conn.go:371-432); `seen`: the relay table was not empty when its length was read;
  `w`: writes succeed -/
  | arrive (i : Nat) (seen w : Bool)

def sentOf : Ev → Option (Nat × Addr × Bytes)
  | .sent c a b => some (c, a, b)
  | _ => none

def offeredOf (n : Nat) : Ev → Option (Nat × Addr × UInt32 × UInt16 × Bytes)
  | .offered a t q p => some (n, a, t, q, p)
  | _ => none

def step (net : Net) (s : State) : Step → State
  | .op n o => { s with conns := fun k => if k = n then apply (s.conns n) o else s.conns k }
  | .send n a d => { s with flights := s.flights ++ [(n, a, d)] }
  | .arrive i seen w =>
    match s.flights[i]? with
    | none => s
    | some (src, a, d) =>
      match net.at_ a with
      | none => s
      | some n =>
        let ev := (serve (s.conns n) seen (net.addr src) d w).1
        { s with flights := s.flights ++ ev.filterMap sentOf, offered := s.offered ++ ev.filterMap (offeredOf n) }

def run (net : Net) (s : State) (l : List Step) : State := l.foldl (step net) s

/-- new connections (u-conn.go:231-243) -/
def init (net : Net) : State := ⟨fun n => newUConn n (net.ip n) net.opened, [], []⟩

end Verif.V1.UPath
