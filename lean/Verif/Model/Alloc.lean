import Verif.Model.SyncMap
/-
Model of the allocation of local TEIDs: gtpv2/conn.go:748-774 `NewSenderFTEID` and gtpv1/u-conn.go:682-709 `NewFTEID`
(the same loop; the tables are iteiSessionMap and iteiMap).  A machine of atomic steps: each round of the loop does one
LoadOrStore on the table, which is its only access to shared state; the random number is chosen by the environment (0 also
stands for a failing rand.Read, gtpv2/conn.go:776-783, gtpv1/u-conn.go:711-718).  Any other use of the table (RegisterSession stores, RemoveSession,
CloseRelay and DelTunnel* delete) may happen between two steps.
Simplification: logging and the construction of the F-TEID IE from the number are left out.
-/
namespace Verif.Alloc

/-- what happened, in order -/
inductive Ev where
  | alloc (t : Nat) (k : UInt32)
  | fail (t : Nat)
  | stored (k : UInt32)
  | deleted (k : UInt32)
  deriving DecidableEq, Repr

structure State (V : Type) where
  map : SyncMap UInt32 V
  /-- the loop variable `try` of goroutine t, if it is in the loop -/
  pc : Nat → Option Nat
  log : List Ev

inductive Step (V : Type) where
  | start (t : Nat)
  | attempt (t : Nat) (r : UInt32)
  | store (k : UInt32) (v : V)
  | delete (k : UInt32)

def setPc (pc : Nat → Option Nat) (t : Nat) (p : Option Nat) : Nat → Option Nat := fun u => if u = t then p else pc u

/-- `continue` and the loop condition, gtpv2/conn.go:750 -/
def next {V} (s : State V) (t n : Nat) : State V :=
  if n + 1 < 0xffff then { s with pc := setPc s.pc t (some (n + 1)) }
  else { s with pc := setPc s.pc t none, log := s.log ++ [.fail t] }

/-- `mark` is the value stored for a taken TEID: (*Session)(nil) in gtpv2, the time in gtpv1 -/
def step {V} (mark : V) (s : State V) : Step V → State V
  | .start t =>
    match s.pc t with
    | none => { s with pc := setPc s.pc t (some 0) }
    | some _ => s
  | .attempt t r =>
    match s.pc t with
    | none => s
    | some n =>
      if r = 0 then next s t n else
      match s.map.loadOrStore r mark with
      | (_, true) => next s t n
      | (m, false) => { s with map := m, pc := setPc s.pc t none, log := s.log ++ [.alloc t r] }
  | .store k v => { s with map := s.map.store k v, log := s.log ++ [.stored k] }
  | .delete k => { s with map := s.map.delete k, log := s.log ++ [.deleted k] }

def run {V} (mark : V) (s : State V) (sched : List (Step V)) : State V := sched.foldl (step mark) s

end Verif.Alloc
