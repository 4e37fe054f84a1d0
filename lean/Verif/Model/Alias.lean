import Verif.Model.V2IE
/-
GTPv2 elements with the memory their payloads live in (gtpv2/ie/ie.go, ie_grouped.go).

Model/V2IE.lean treats a payload as a value.  In Go it is a slice, and `UnmarshalBinary` does not copy: the payload of a parsed
element, and of its children, is a part of the received buffer (ie.go:267), with capacity up to the end of that buffer.  Here an
element holds a payload as a view of the buffer or as octets of its own, and `Add` and `Remove` act on the buffer, too.

The memory is one array `m`: the received buffer up to its capacity.  Arrays allocated by constructors, `Marshal` and a growing
`append` are each held by one element, so they are modelled by their content, spare capacity in them being invisible.
-/
namespace Verif.V2
open Res

/-- a payload slice -/
inductive Pay where
  /-- `m[off : off+len]`, of capacity `m.length - off` -/
  | view (off len : Nat)
  /-- an array of its own -/
  | own (b : Bytes)
  deriving DecidableEq, Repr

def Pay.length : Pay → Nat
  | .view _ n => n
  | .own b => b.length
/-- the octets seen through the slice -/
def Pay.read (m : Bytes) : Pay → Bytes
  | .view o n => (m.drop o).take n
  | .own b => b

/-- ie.go:166-172 -/
inductive RIE where
  | mk (typ : UInt8) (len : UInt16) (inst : UInt8) (pay : Pay) (children : List RIE)
  deriving Repr

def RIE.typ : RIE → UInt8 | mk t _ _ _ _ => t
def RIE.inst : RIE → UInt8 | mk _ _ i _ _ => i
def RIE.pay : RIE → Pay | mk _ _ _ p _ => p
def RIE.children : RIE → List RIE | mk _ _ _ _ c => c

mutual
/-- what a program sees of an element in memory `m` -/
def RIE.deref (m : Bytes) : RIE → IE
  | .mk t n i p cs => .mk t n i (p.read m) (derefs m cs)
def derefs (m : Bytes) : List RIE → List IE
  | [] => []
  | c :: cs => c.deref m :: derefs m cs
end

variable (g : UInt8 → Bool)

mutual
/-- ie.go:281-290 `MarshalLen` -/
def RIE.marshalLen : RIE → Nat
  | .mk t _ _ p cs => if g t then 4 + rmarshalLens cs else 4 + p.length
def rmarshalLens : List RIE → Nat
  | [] => 0
  | c :: cs => c.marshalLen + rmarshalLens cs
end

mutual
/-- ie.go:245-278 `Parse`, `UnmarshalBinary` of the part `b` of the memory that begins at `off` -/
def rparseF : Nat → Bytes → Nat → Res RIE
  | 0, _, _ => diverge
  | fuel + 1, b, off => do
    if b.length < 4 then err .eof else
    let t ← idx b 0
    let s ← slice b 1 3
    let n ← rd16 s
    if n.toNat > b.length - 4 then err .invalidLength else
    let i ← idx b 3
    let p ← slice b 4 (4 + n.toNat)
    if g t then
      let cs ← rparseMultiF fuel p (off + 4)
      ok (.mk t n i (.view (off + 4) n.toNat) cs)
    else ok (.mk t n i (.view (off + 4) n.toNat) [])
/-- ie.go:330-341 `ParseMultiIEs` -/
def rparseMultiF : Nat → Bytes → Nat → Res (List RIE)
  | 0, b, _ => if b.length > 0 then diverge else ok []
  | fuel + 1, b, off => do
    if b.length > 0 then
      let i ← rparseF fuel b off
      let rest ← sliceFrom b (i.marshalLen g)
      let is ← rparseMultiF fuel rest (off + i.marshalLen g)
      ok (i :: is)
    else ok []
end

def rparse (b : Bytes) (off : Nat) : Res RIE := rparseF g (b.length + 1) b off
def rparseMulti (b : Bytes) (off : Nat) : Res (List RIE) := rparseMultiF g (b.length + 1) b off

/-- Go's `append(p, s...)`: in place while the capacity lasts, else into a new array -/
def Pay.append (m : Bytes) (s : Bytes) : Pay → Bytes × Pay
  | .own b => (m, .own (b ++ s))
  | .view o n =>
    if o + n + s.length ≤ m.length then (m.take (o + n) ++ s ++ m.drop (o + n + s.length), .view o (n + s.length))
    else (m, .own ((m.drop o).take n ++ s))

/-- ie_grouped.go:91-102 the loop of `Add` -/
def radd : List (Option RIE) → Bytes → Pay → List RIE → Res (Bytes × Pay × List RIE)
  | [], m, p, cs => ok (m, p, cs)
  | none :: r, m, p, cs => radd r m p cs
  | some c :: r, m, p, cs =>
    match (c.deref m).marshal g with
    | ok s => radd r (p.append m s).1 (p.append m s).2 (cs ++ [c])
    | err _ => radd r m p (cs ++ [c])
    | .panic => .panic
    | diverge => diverge

/-- ie_grouped.go:86-104 `Add`: the memory and the element afterwards -/
def RIE.add (m : Bytes) : RIE → List (Option RIE) → Res (Bytes × RIE)
  | .mk t n i p cs, ies =>
    if g t then do
      let (m, p, cs) ← radd g ies m p cs
      ok (m, .mk t (UInt16.ofNat p.length) i p cs)
    else ok (m, .mk t n i p cs)

/-- ie_grouped.go:112-130 the loop of `Remove`, see `IE.remove` -/
def rremove (m : Bytes) (typ ins : UInt8) : List RIE → List (Option RIE) → Nat → Pay → Res (Bytes × List (Option RIE) × Pay)
  | [], nc, _, p => ok (m, nc, p)
  | c :: r, nc, k, p =>
    if c.typ = typ ∧ c.inst &&& 0x0f = ins then
      if nc.length = 0 then .panic else rremove m typ ins r (nc.take (nc.length - 1)) k p
    else if k < nc.length then
      match (c.deref m).marshal g with
      | ok s => rremove (p.append m s).1 typ ins r (nc.set k (some c)) (k + 1) (p.append m s).2
      | err _ => rremove m typ ins r (nc.set k (some c)) (k + 1) p
      | .panic => .panic
      | diverge => diverge
    else .panic

/-- ie_grouped.go:107-131 `Remove`; line 112 sets the payload to nil, so that the appends allocate -/
def RIE.remove (m : Bytes) : RIE → UInt8 → UInt8 → Res (Bytes × RIE)
  | .mk t n i p cs, typ, ins =>
    if g t then do
      let (m, nc, p) ← rremove g m typ ins cs (List.replicate cs.length none) 0 (.own [])
      if nc.all Option.isSome then ok (m, .mk t (UInt16.ofNat p.length) i p (nc.filterMap id)) else .panic
    else ok (m, .mk t n i p cs)

end Verif.V2
