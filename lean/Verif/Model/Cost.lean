import Verif.Model.V2IE
import Verif.Model.V1IE
import Verif.Model.V1Header
/-
What parsing and serialising cost: the functions of Model/V2IE.lean, Model/V1IE.lean and Model/V1Header.lean once more, with a
count of the elements made (calls of UnmarshalBinary), of the calls of MarshalLen on an element and of how deep these calls are
nested on the stack.  Everything else they do for an element takes a fixed time (payloads are slices of the input and not
copied, gtpv2/ie/ie.go:267) or, when serialising, the time of copying the payload.  Theorem `fst` lemmas in Props/Cost.lean:
the results are those of the functions without a count.
-/
namespace Verif.Cost
open Res

structure Cost where
  /-- elements made -/
  calls : Nat
  /-- elements looked at by MarshalLen -/
  visits : Nat
  /-- nesting of calls of Parse -/
  depth : Nat
  deriving DecidableEq, Repr

/-- one thing after another -/
def Cost.seq (a b : Cost) : Cost := ⟨a.calls + b.calls, a.visits + b.visits, max a.depth b.depth⟩

/-- an outcome and what it took -/
structure Costed (α : Type) where
  res : Res α
  cost : Cost
  deriving DecidableEq, Repr

instance : Monad Costed where
  pure a := ⟨ok a, ⟨0, 0, 0⟩⟩
  bind x f :=
    match x with
    | ⟨ok a, c⟩ => ⟨(f a).res, c.seq (f a).cost⟩
    | ⟨err e, c⟩ => ⟨err e, c⟩
    | ⟨.panic, c⟩ => ⟨.panic, c⟩
    | ⟨diverge, c⟩ => ⟨diverge, c⟩

/-- something that costs a fixed time -/
def free {α : Type} (r : Res α) : Costed α := ⟨r, ⟨0, 0, 0⟩⟩
/-- MarshalLen has looked at `n` elements -/
def look (n : Nat) : Costed Unit := ⟨ok (), ⟨0, n, 0⟩⟩
/-- a call of Parse: a new element, one frame deeper -/
def call {α : Type} (x : Costed α) : Costed α := ⟨x.res, ⟨x.cost.calls + 1, x.cost.visits, x.cost.depth + 1⟩⟩

namespace V2
open Verif.V2
variable (g : UInt8 → Bool)

mutual
/-- gtpv2/ie/ie.go:281-290: the elements a call of `MarshalLen` looks at -/
def visits : IE → Nat
  | .mk t _ _ _ cs => if g t then 1 + visitss cs else 1
def visitss : List IE → Nat
  | [] => 0
  | c :: cs => visits c + visitss cs
end

/-- gtpv2/ie/ie.go:254-267: the first four octets and the payload -/
def head (b : Bytes) : Res (UInt8 × UInt16 × UInt8 × Bytes) := do
  if b.length < 4 then err .eof else
  let t ← idx b 0
  let s ← slice b 1 3
  let n ← rd16 s
  if n.toNat > b.length - 4 then err .invalidLength else
  let i ← idx b 3
  let p ← slice b 4 (4 + n.toNat)
  ok (t, n, i, p)

mutual
/-- gtpv2/ie/ie.go:245-278 `Parse`/`UnmarshalBinary` -/
def parseC : Nat → Bytes → Costed IE
  | 0, _ => free diverge
  | fuel + 1, b => call do
    let (t, n, i, p) ← free (head b)
    if g t then
      let cs ← parseMultiC fuel p
      pure (.mk t n i p cs)
    else pure (.mk t n i p [])
/-- gtpv2/ie/ie.go:330-341 `ParseMultiIEs` -/
def parseMultiC : Nat → Bytes → Costed (List IE)
  | 0, b => free (if b.length > 0 then diverge else ok [])
  | fuel + 1, b =>
    if b.length > 0 then do
      let i ← parseC fuel b
      look (visits g i)
      let rest ← free (sliceFrom b (i.marshalLen g))
      let is ← parseMultiC fuel rest
      pure (i :: is)
    else pure []
end

end V2

namespace TLV
open Verif.TLV
variable (c : Cfg)

/-- gtpv1/ie/ie.go:354-367, gtpv0/ie/ie.go:210-223 `ParseMultiIEs`; MarshalLen is called in Parse at most twice and once after it
(gtpv1/ie/ie.go:224, 229, 253; gtpv0/ie/ie.go:116, 121) -/
def parseMultiC : Nat → Bytes → Costed (List IE)
  | 0, b => free (if b.length > 0 then diverge else ok [])
  | fuel + 1, b =>
    if b.length > 0 then do
      let i ← call (do look 2; free (parse c b))
      look 1
      let rest ← free (sliceFrom b (i.marshalLen c))
      let is ← parseMultiC fuel rest
      pure (i :: is)
    else pure []

end TLV

/-- gtpv1/message/extension-header.go:110-129 `ParseMultiExtensionHeaders` -/
def extsC : Nat → UInt8 → Bytes → Costed (List V1.Ext)
  | 0, _, _ => free diverge
  | fuel + 1, next, b => do
    let eh ← call (free (V1.Ext.parse b))
    let eh := { eh with typ := next }
    look 1
    let rest ← free (sliceFrom b eh.marshalLen)
    if eh.next == 0 then pure [eh] else
    let ehs ← extsC fuel eh.next rest
    pure (eh :: ehs)

namespace V2
open Verif.V2
variable (g : UInt8 → Bool)

mutual
/-- gtpv2/ie/ie.go:212-242 `MarshalTo` -/
def writeC : IE → Bytes → Costed Bytes
  | .mk t n i p cs, b => call do
    let b ← free (do
      if b.length < 4 then err .eof else
      let b ← setAt b 0 t
      let b ← copyAt b 1 3 (be16 n)
      setAt b 3 i)
    if g t then writesC cs 4 b
    else do
      look (visits g (.mk t n i p cs))
      if b.length < (IE.mk t n i p cs).marshalLen g then free (err .eof) else do
      look (visits g (.mk t n i p cs))
      free (copyAt b 4 ((IE.mk t n i p cs).marshalLen g) p)
/-- gtpv2/ie/ie.go:223-232 the loop over ChildIEs -/
def writesC : List IE → Nat → Bytes → Costed Bytes
  | [], _, b => pure b
  | c :: cs, off, b => do
    look (visits g c)
    if b.length < off + c.marshalLen g then pure b else do
    look (visits g c)
    let s ← free (slice b off (off + c.marshalLen g))
    let s ← writeC c s
    look (visits g c)
    writesC cs (off + c.marshalLen g) (b.take off ++ s ++ b.drop (off + c.marshalLen g))
end

end V2

end Verif.Cost
