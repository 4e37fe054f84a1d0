import Verif.Base
/-
Kernel tunnels of a user plane connection: gtpv1/tunnel_linux.go, gtpv1/tunnel.go:22-47 (the checks of `enabled`) and
gtpv1/u-conn.go:344-351 (what happens to the device when the connection ends).

The kernel is the environment.  What is assumed of it and of the netlink library:
* a call that fails changes nothing; every call may fail at any time (the Bool given to each step);
* GTPPDPAdd fails when the device has a tunnel with the subscriber address or with the incoming TEID, else it adds one;
* GTPPDPDel deletes the tunnel with the incoming TEID of the value given to it, and fails when there is none;
* GTPPDPByMSAddress and GTPPDPByITEI return a tunnel of the device or fail;
* LinkAdd fails when a device of that name exists; a netlink.GTP value it has failed on does not name a device to the GTPPDP
  calls (its index stays zero), but LinkDel looks the name up.
Simplifications: addresses are the octets the kernel compares; the values of the relay map are in URelay.lean, here only its
keys; error texts are left out, `false` is a non nil error.
-/
namespace Verif.V1.Tunnel

/-- tunnel_linux.go:93-99, netlink.PDP with Version 1 -/
structure PDP where
  peer : Bytes
  ms : Bytes
  otei : Nat
  itei : Nat
  deriving DecidableEq, Repr

/-- the kernel and one connection -/
structure Sys where
  /-- the GTP devices of the kernel with their tunnels -/
  dev : String → Option (List PDP)
  /-- u-conn.go:225 -/
  enabled : Bool
  /-- u-conn.go:227, with true once LinkAdd has succeeded on it -/
  link : Option (String × Bool)
  /-- u-conn.go:208, pktConn is not nil -/
  sock : Bool
  /-- keys of the relay map (u-conn.go:215) -/
  relay : List Nat
  /-- keys of the table of TEIDs in use (u-conn.go:720-735) -/
  reserved : List Nat

/-- the tunnels the GTPPDP calls see through u.KernelGTP.Link -/
def Sys.tuns (s : Sys) : Option (List PDP) :=
  match s.link with
  | some (d, true) => s.dev d
  | _ => none

def Sys.setTuns (s : Sys) (l : List PDP) : Sys :=
  match s.link with
  | some (d, true) => { s with dev := fun x => if x = d then some l else s.dev x }
  | _ => s

/-- netlink.GTPPDPAdd -/
def kAdd (fail : Bool) (s : Sys) (p : PDP) : Option Sys :=
  if fail then none else
  match s.tuns with
  | none => none
  | some l => if l.any (fun q => q.ms = p.ms || q.itei = p.itei) then none else some (s.setTuns (l ++ [p]))

/-- netlink.GTPPDPDel -/
def kDel (fail : Bool) (s : Sys) (p : PDP) : Option Sys :=
  if fail then none else
  match s.tuns with
  | none => none
  | some l => if l.any (fun q => q.itei = p.itei) then some (s.setTuns (l.filter (fun q => q.itei ≠ p.itei))) else none

/-- netlink.GTPPDPByMSAddress -/
def kByMS (fail : Bool) (s : Sys) (ms : Bytes) : Option PDP :=
  if fail then none else
  match s.tuns with
  | none => none
  | some l => l.find? (fun q => q.ms = ms)

/-- netlink.GTPPDPByITEI -/
def kByITEI (fail : Bool) (s : Sys) (itei : Nat) : Option PDP :=
  if fail then none else
  match s.tuns with
  | none => none
  | some l => l.find? (fun q => q.itei = itei)

/-- the four exported functions on tunnels -/
inductive Call where
  | add (p : PDP)
  | override (p : PDP)
  | delITEI (itei : Nat)
  | delMS (ms : Bytes)
  deriving DecidableEq, Repr

/-- where a call is: before which use of shared state -/
inductive Pc where
  /-- tunnel_linux.go:114 -/
  | lookMS (p : PDP)
  /-- tunnel_linux.go:116 -/
  | dropMS (p q : PDP)
  /-- tunnel_linux.go:118 -/
  | lookITEI (p : PDP)
  /-- tunnel_linux.go:120 -/
  | dropITEI (p q : PDP)
  /-- tunnel_linux.go:100 -/
  | install (p : PDP)
  /-- tunnel_linux.go:132 -/
  | findITEI (itei : Nat)
  /-- tunnel_linux.go:151 -/
  | findMS (ms : Bytes)
  /-- tunnel_linux.go:137 with the TEID asked for, 157 with that of the tunnel found -/
  | remove (q : PDP) (itei : Nat)
  /-- tunnel_linux.go:141, 161 -/
  | release (itei : Nat)
  /-- returned; true is a nil error -/
  | done (ok : Bool)
  deriving DecidableEq, Repr

/-- tunnel_linux.go:89-91, 110-112, 128-130, 147-149: the check made first -/
def enter (s : Sys) (c : Call) : Pc :=
  if s.enabled then
    match c with
    | .add p => .install p
    | .override p => .lookMS p
    | .delITEI i => .findITEI i
    | .delMS a => .findMS a
  else .done false

/-- one use of shared state (tunnel_linux.go:88-163) -/
def step (fail : Bool) (s : Sys) (pc : Pc) : Sys × Pc :=
  match pc with
  | .lookMS p =>
    match kByMS fail s p.ms with
    | some q => (s, .dropMS p q)
    | none => (s, .lookITEI p)
  | .dropMS p q => ((kDel fail s q).getD s, .lookITEI p)
  | .lookITEI p =>
    match kByITEI fail s p.itei with
    | some q => (s, .dropITEI p q)
    | none => (s, .install p)
  | .dropITEI p q => ((kDel fail s q).getD s, .install p)
  | .install p =>
    match kAdd fail s p with
    | some s' => (s', .done true)
    | none => (s, .done false)
  | .findITEI i =>
    match kByITEI fail s i with
    | some q => (s, .remove q i)
    | none => (s, .done false)
  | .findMS a =>
    match kByMS fail s a with
    | some q => (s, .remove q q.itei)
    | none => (s, .done false)
  | .remove q i =>
    match kDel fail s q with
    | some s' => (s', .release i)
    | none => (s, .done false)
  | .release i => ({ s with reserved := s.reserved.filter (· ≠ i) }, .done true)
  | .done ok => (s, .done ok)

/-- a call that nothing else interferes with, the i-th use of shared state failing when `f i`; five are enough -/
def call (f : Nat → Bool) (s : Sys) (c : Call) : Sys × Pc :=
  [0, 1, 2, 3, 4].foldl (fun x i => step (f i) x.1 x.2) (s, enter s c)

/-- which calls fail in EnableKernelGTP -/
structure EnableFaults where
  sock : Bool
  file : Bool
  add : Bool
  setUp : Bool
  setMTU : Bool
  deriving DecidableEq, Repr

def EnableFaults.zero : EnableFaults := ⟨false, false, false, false, false⟩

/-- tunnel_linux.go:40-85 `EnableKernelGTP` -/
def enable (f : EnableFaults) (s : Sys) (devname : String) : Sys × Bool :=
  if s.sock = false ∧ f.sock then (s, false) else
  let s := { s with sock := true }
  if f.file then (s, false) else
  let s := { s with link := some (devname, false) }
  if f.add ∨ (s.dev devname).isSome then (s, false) else
  let s := { s with link := some (devname, true), dev := fun x => if x = devname then some [] else s.dev x }
  if f.setUp then (s, false) else
  if f.setMTU then (s, false) else
  ({ s with enabled := true, relay := [] }, true)

/-- tunnel.go:21-33 `RelayTo` -/
def relayTo (s : Sys) (teidIn : Nat) : Sys × Bool :=
  if s.enabled then (s, false) else ({ s with relay := teidIn :: s.relay.filter (· ≠ teidIn) }, true)

/-- tunnel.go:36-47 `CloseRelay` -/
def closeRelay (s : Sys) (teidIn : Nat) : Sys × Bool :=
  if s.enabled then (s, false)
  else ({ s with relay := s.relay.filter (· ≠ teidIn), reserved := s.reserved.filter (· ≠ teidIn) }, true)

/-- u-conn.go:344-351: the watcher of serve deletes the device; its error is only logged -/
def shutdown (fail : Bool) (s : Sys) : Sys :=
  if s.enabled then
    match s.link with
    | some (d, _) => if fail then s else { s with dev := fun x => if x = d then none else s.dev x }
    | none => s
  else s

/-- any number of calls at a time: goroutine i is at `pcs i` -/
structure Machine where
  sys : Sys
  pcs : Nat → Pc

inductive Event where
  /-- goroutine i, which is in no call, makes one -/
  | start (i : Nat) (c : Call)
  /-- goroutine i goes on to its next use of shared state -/
  | go (i : Nat) (fail : Bool)
  deriving DecidableEq, Repr

def Machine.step (m : Machine) (e : Event) : Machine :=
  match e with
  | .start i c =>
    match m.pcs i with
    | .done _ => { m with pcs := fun j => if j = i then enter m.sys c else m.pcs j }
    | _ => m
  | .go i fail =>
    ⟨(Tunnel.step fail m.sys (m.pcs i)).1, fun j => if j = i then (Tunnel.step fail m.sys (m.pcs i)).2 else m.pcs j⟩

def Machine.run (m : Machine) (l : List Event) : Machine := l.foldl Machine.step m

end Verif.V1.Tunnel
