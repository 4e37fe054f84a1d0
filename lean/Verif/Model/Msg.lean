import Verif.Base
/-
The common shape of all typed messages of gtpv0/message, gtpv1/message and gtpv2/message.

Every message type of /repo is a struct with a *Header and IE fields, and the same five functions: NewXxx,
MarshalTo, UnmarshalBinary, MarshalLen, SetLength.  They differ only in the tables below, which are extracted
from the Go text by tools/extract.py (one `Schema` per message type, each citing its file and lines).
The functions here are the common code; representative: gtpv2/message/echo-req.go, create-session-req.go,
gtpv1/message/create-pdp-context-req.go.

Simplifications: a scalar field (`*ie.IE`) is a list of length 0 (nil) or 1; slices have no nil entries
(neither constructors nor parsers put nil into them).
-/
namespace Verif.Msg
open Res

/-- what the case of a dispatch switch does with the IE -/
inductive Act where
  /-- no statement: the IE is ignored -/
  | drop
  /-- `m.F = i` -/
  | set (f : Nat)
  /-- `m.F = append(m.F, i)` -/
  | app (f : Nat)
  /-- `if m.F == nil { m.F = i } else { rest }` -/
  | free (f : Nat) (rest : Act)
  /-- `if m.F != nil { m.F = i } else { rest }` (only ContextResponse) -/
  | ifset (f : Nat) (rest : Act)
  deriving DecidableEq, Repr

/-- `case ie.T:` (inst = none) or `case ie.T: switch i.Instance() { case n: ... }` -/
structure Rule where
  typ : Nat
  inst : Option Nat
  act : Act
  deriving DecidableEq, Repr

/-- one block of MarshalTo: writes the IE(s) of the field; `adv` is false if the code forgets
`offset += ie.MarshalLen()` -/
structure Entry where
  field : Nat
  adv : Bool
  deriving DecidableEq, Repr

structure Schema where
  name : String
  /-- message type given to NewHeader by the constructor -/
  typ : UInt8
  /-- flags given to NewHeader by the constructor -/
  flags : UInt8
  /-- the constructor takes a TEID argument (otherwise 0) -/
  hasTEIDArg : Bool
  fields : List String
  /-- indices of the `[]*ie.IE` fields -/
  multi : List Nat
  newRules : List Rule
  newDefault : Act
  unRules : List Rule
  unDefault : Act
  /-- blocks of MarshalTo in order -/
  order : List Entry
  /-- fields summed by MarshalLen -/
  lens : List Nat
  /-- MarshalTo starts with `Payload = nil` -/
  reset : Bool
  /-- MarshalTo starts with `if len(b) < m.MarshalLen() { return ErrTooShortToMarshal }` -/
  lenCheck : Bool
  /-- UnmarshalBinary has `if len(Payload) < 2 { return nil }` -/
  early : Bool
  deriving Repr

/-- contents of the IE fields -/
abbrev Fields (ι : Type) := Nat → List ι

def Fields.empty {ι : Type} : Fields ι := fun _ => []

def upd {ι : Type} (F : Fields ι) (f : Nat) (l : List ι) : Fields ι := fun g => if g = f then l else F g

variable {ι η : Type}

def Act.apply : Act → Fields ι → ι → Fields ι
  | .drop, F, _ => F
  | .set f, F, x => upd F f [x]
  | .app f, F, x => upd F f (F f ++ [x])
  | .free f r, F, x => if (F f).isEmpty then upd F f [x] else r.apply F x
  | .ifset f r, F, x => if (F f).isEmpty then r.apply F x else upd F f [x]

/-- the case selected by the switch: first rule that matches, else the default -/
def sel (rules : List Rule) (d : Act) (t i : Nat) : Act :=
  match rules.find? (fun r => r.typ == t && (r.inst == none || r.inst == some i)) with
  | some r => r.act
  | none => d

/-- what the message code uses of package ie -/
structure IEOps (ι : Type) where
  typ : ι → UInt8
  /-- 0 for GTPv0/v1, whose IEs have no instance -/
  inst : ι → UInt8
  mlen : ι → Nat
  mto : ι → Bytes → Res Bytes
  parseMulti : Bytes → Res (List ι)

/-- what the message code uses of the Header type -/
structure HdrOps (η : Type) where
  payload : η → Bytes
  setPayload : η → Bytes → η
  mlen : η → Nat
  setLength : η → η
  mto : η → Bytes → Res Bytes
  parse : Bytes → Res η

/-- the loop `for _, i := range ies { switch i.Type { ... } }` -/
def classify (io : IEOps ι) (rules : List Rule) (d : Act) (xs : List ι) : Fields ι :=
  xs.foldl (fun F x => (sel rules d (io.typ x).toNat (io.inst x).toNat).apply F x) Fields.empty

structure Message (η ι : Type) where
  schema : Schema
  hdr : η
  fields : Fields ι

/-- the block `if ie := m.F; ie != nil { ie.MarshalTo(m.Payload[offset:]); offset += ie.MarshalLen() }` or the
loop over a slice field -/
def writeList (io : IEOps ι) (adv : Bool) : List ι → Nat → Bytes → Res (Nat × Bytes)
  | [], off, b => ok (off, b)
  | x :: xs, off, b => do
    let s ← sliceFrom b off
    let s' ← io.mto x s
    writeList io adv xs (if adv then off + io.mlen x else off) (b.take off ++ s')

def writeFields (io : IEOps ι) (F : Fields ι) : List Entry → Nat → Bytes → Res Bytes
  | [], _, b => ok b
  | e :: es, off, b => do
    let (off, b) ← writeList io e.adv (F e.field) off b
    writeFields io F es off b

/-- sum of the IE lengths, as in MarshalLen -/
def bodyLen (io : IEOps ι) (s : Schema) (F : Fields ι) : Nat :=
  (s.lens.map (fun f => ((F f).map io.mlen).sum)).sum

/-- `l := m.Header.MarshalLen() - len(m.Header.Payload); l += ...` -/
def marshalLen (ho : HdrOps η) (io : IEOps ι) (m : Message η ι) : Int :=
  (ho.mlen m.hdr : Int) - (ho.payload m.hdr).length + bodyLen io m.schema m.fields

/-- MarshalTo; also returns the message, whose Header (Payload, Length) it has changed.
`make([]byte, n)` panics for negative n. -/
def marshalTo (ho : HdrOps η) (io : IEOps ι) (m : Message η ι) (b : Bytes) : Res (Message η ι × Bytes) := do
  if m.schema.lenCheck && ((b.length : Int) < marshalLen ho io m) then err .tooShortMarshal else
  let m : Message η ι := if m.schema.reset then { m with hdr := ho.setPayload m.hdr [] } else m
  let n : Int := marshalLen ho io m - ho.mlen m.hdr
  if n < 0 then .panic else
  let p ← writeFields io m.fields m.schema.order 0 (List.replicate n.toNat 0)
  let h := ho.setLength (ho.setPayload m.hdr p)
  let b ← ho.mto h b
  ok ({ m with hdr := h }, b)

/-- Marshal: `b := make([]byte, m.MarshalLen()); m.MarshalTo(b)` -/
def marshal (ho : HdrOps η) (io : IEOps ι) (m : Message η ι) : Res (Message η ι × Bytes) :=
  let n := marshalLen ho io m
  if n < 0 then .panic else marshalTo ho io m (List.replicate n.toNat 0)

/-- UnmarshalBinary into a fresh struct of the given type -/
def unmarshal (ho : HdrOps η) (io : IEOps ι) (s : Schema) (b : Bytes) : Res (Message η ι) := do
  let h ← ho.parse b
  if s.early && (ho.payload h).length < 2 then ok { schema := s, hdr := h, fields := Fields.empty } else
  let ies ← io.parseMulti (ho.payload h)
  ok { schema := s, hdr := h, fields := classify io s.unRules s.unDefault ies }

/-- IE part of NewXxx: nil arguments are skipped (`if i == nil { continue }`) -/
def newFields (io : IEOps ι) (s : Schema) (ies : List (Option ι)) : Fields ι :=
  classify io s.newRules s.newDefault (ies.filterMap id)

/-- all IEs of the message in the order MarshalTo writes them -/
def emit (order : List Entry) (F : Fields ι) : List ι := order.flatMap (fun e => F e.field)

end Verif.Msg
