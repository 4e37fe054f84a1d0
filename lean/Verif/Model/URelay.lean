import Verif.Model.URead
/-
The deprecated relay between two user plane connections, gtpv1/relay.go.

Both goroutines of Run (relay.go:44-90) run the same code, so there is one program, run for each side.  What a connection
gives to ReadFromGTP is modelled in URead.lean; here any T-PDU may arrive at any time, and a closed connection returns zeros
without an error (u-conn.go:458-460).
-/
namespace Verif.V1.URelay
open Res URead UConn

inductive Side where
  | left
  | right
  deriving DecidableEq, Repr

/-- where one of the goroutines is; `p` is `buf[:n]` -/
inductive Pc where
  | top                                                   -- relay.go:47 the select
  | read                                                  -- relay.go:54 ReadFromGTP
  | got (teid : UInt32) (p : Bytes)                       -- relay.go:59 getPeer
  | found (teidOut : UInt32) (addr : Addr) (p : Bytes)    -- relay.go:63 WriteToGTP
  | stopped                                               -- relay.go:49 return
  deriving DecidableEq, Repr

/-- relay.go:17-22 `Relay`, with the history -/
structure State where
  closed : Bool
  pairs : SyncMap UInt32 (UInt32 × Addr)
  pc : Side → Pc
  /-- history: the AddPeer calls -/
  added : List (UInt32 × UInt32 × Addr)
  /-- history: what ReadFromGTP returned on a side; none: the connection is closed -/
  reads : Side → List (Option TPDU)
  /-- history: the datagrams the goroutine reading from a side wrote on the other -/
  sent : Side → List (Addr × Bytes)
  crashed : Bool

/-- relay.go:27-36 `NewRelay` and the start of the goroutines -/
def init : State := ⟨false, [], fun _ => .top, [], fun _ => [], fun _ => [], false⟩

inductive Step where
  /-- relay.go:117-122 `AddPeer` -/
  | addPeer (teidIn teidOut : UInt32) (a : Addr)
  /-- relay.go:99-108 `Close`; `success`: the deadlines could be set -/
  | close (success : Bool)
  /-- relay.go:47-52 -/
  | check (d : Side)
  /-- relay.go:54-57: ReadFromGTP returns this T-PDU, or zeros -/
  | read (d : Side) (o : Option TPDU)
  /-- relay.go:59-62 -/
  | lookup (d : Side)
  /-- relay.go:63-65; `success`: the socket write succeeds -/
  | write (d : Side) (success : Bool)
  deriving DecidableEq

/-- TEID and `buf[:n]` after ReadFromGTP with the buffer of 1600 octets -/
def view : Option TPDU → UInt32 × Bytes
  | none => (0, [])
  | some x => (x.teid, x.payload.take 1600)

def setPc (s : State) (d : Side) (p : Pc) : State := { s with pc := fun e => if e = d then p else s.pc e }

def step (s : State) : Step → State
  | .addPeer i o a => { s with pairs := s.pairs.store i (o, a), added := s.added ++ [(i, o, a)] }
  | .close success => if success then (if s.closed then { s with crashed := true } else { s with closed := true }) else s
  | .check d => match s.pc d with
    | .top => if s.closed then setPc s d .stopped else setPc s d .read
    | _ => s
  | .read d o => match s.pc d with
    | .read => { setPc s d (.got (view o).1 (view o).2) with
        reads := fun e => if e = d then s.reads e ++ [o] else s.reads e }
    | _ => s
  | .lookup d => match s.pc d with
    | .got t p => match s.pairs.load t with
      | some (o, a) => setPc s d (.found o a p)
      | none => setPc s d .top
    | _ => s
  | .write d success => match s.pc d with
    | .found o a p => match tpduMarshal (newTPDU o p) with
      | ok (_, b) =>
        if success then { setPc s d .top with sent := fun e => if e = d then s.sent e ++ [(a, b)] else s.sent e }
        else setPc s d .top
      | err _ => setPc s d .top
      | _ => { s with crashed := true }
    | _ => s

def run (s : State) (l : List Step) : State := l.foldl step s

end Verif.V1.URelay
