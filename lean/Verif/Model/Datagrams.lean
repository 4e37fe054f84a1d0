import Verif.Base
/-
Memory and goroutines of the read loops gtpv2/conn.go:179-205 (`Serve`) and gtpv1/u-conn.go:361-433 (`serve`): one buffer for
reading, and for each datagram a fresh array, to which the octets are copied before a goroutine is started on it.
What the goroutine does with the octets is in V2Conn.lean and UConn.lean; here it takes the octets of its array when it begins
to parse them, and from then on it, or a handler or the application through a message that was kept (payloads of elements are
parts of the array), may write the array. Starting and stopping is in Lifecycle.lean; here the loop runs on.
Simplifications: a goroutine parses its array in one step (nobody else has a reference to it before); ReadFrom writes the
octets of the datagram and no others; reads that fail are left out.
-/
namespace Verif.Datagrams

abbrev Addr := String

/-- where the loop is -/
inductive Pc where
  /-- conn.go:181, u-conn.go:372 -/
  | reading
  /-- conn.go:192, u-conn.go:385: ReadFrom has returned n, raddr -/
  | got (n : Nat) (a : Addr)
  /-- conn.go:193, u-conn.go:386: raw is allocated -/
  | made (n : Nat) (a : Addr) (raw : Nat)
  /-- conn.go:194, u-conn.go:387: raw is filled -/
  | copied (n : Nat) (a : Addr) (raw : Nat)
  deriving DecidableEq, Repr

/-- a goroutine with the variables it refers to: raw (index of the array), n and raddr. All three are declared inside the loop,
so every goroutine has its own -/
structure Gor where
  raw : Nat
  n : Nat
  addr : Addr
  begun : Bool
  deriving DecidableEq, Repr

structure State where
  /-- arrays in the order of their allocation; the first is buf -/
  heap : List Bytes
  pc : Pc
  gors : List Gor
  /-- what the goroutines have begun to parse: number of the goroutine, sender, octets -/
  handled : List (Nat × Addr × Bytes)
  /-- what was received so far; for reference, not part of the program -/
  arrived : List (Addr × Bytes)
  deriving DecidableEq, Repr

/-- conn.go:179, u-conn.go:361: buf := make([]byte, 1500) -/
def init : State := ⟨[List.replicate 1500 0], .reading, [], [], []⟩

inductive Step where
  /-- a datagram is read -/
  | arrive (a : Addr) (d : Bytes)
  /-- raw := make([]byte, n) -/
  | make
  /-- copy(raw, buf) -/
  | copy
  /-- go func() -/
  | go
  /-- goroutine i begins to parse: message.Parse(raw) in conn.go:195, raw[:n] in u-conn.go:400, 414 and 421 -/
  | begin (i : Nat)
  /-- octet k of the array of goroutine i is written, by the goroutine (u-conn.go:413) or through a message made of it -/
  | write (i k : Nat) (x : UInt8)
  deriving DecidableEq, Repr

/-- copy(dst, src) -/
def overwrite (dst src : Bytes) : Bytes := src.take dst.length ++ dst.drop src.length

def array (s : State) (r : Nat) : Bytes := s.heap[r]?.getD []

/-- conn.go:179-205, u-conn.go:361-433 -/
def step (s : State) : Step → State
  | .arrive a d =>
    if s.pc = .reading then
      { s with heap := s.heap.set 0 (overwrite (array s 0) d), pc := .got (min d.length (array s 0).length) a,
               arrived := s.arrived ++ [(a, d)] }
    else s
  | .make =>
    match s.pc with
    | .got n a => { s with heap := s.heap ++ [List.replicate n 0], pc := .made n a s.heap.length }
    | _ => s
  | .copy =>
    match s.pc with
    | .made n a r => { s with heap := s.heap.set r (overwrite (array s r) (array s 0)), pc := .copied n a r }
    | _ => s
  | .go =>
    match s.pc with
    | .copied n a r => { s with gors := s.gors ++ [⟨r, n, a, false⟩], pc := .reading }
    | _ => s
  | .begin i =>
    match s.gors[i]? with
    | some g =>
      if g.begun then s else
        { s with gors := s.gors.set i { g with begun := true },
                 handled := s.handled ++ [(i, g.addr, (array s g.raw).take g.n)] }
    | none => s
  | .write i k x =>
    match s.gors[i]? with
    | some g => if g.begun then { s with heap := s.heap.set g.raw ((array s g.raw).set k x) } else s
    | none => s

def run (l : List Step) : State := l.foldl step init

end Verif.Datagrams
