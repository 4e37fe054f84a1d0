import Verif.Base
/-
Model of gtpv2/ie/ie.go and gtpv2/ie/ie_grouped.go.

`g : UInt8 → Bool` is the "is this type grouped" function (ie_grouped.go:35-82).  The code lets the user
replace or extend it (`SetIsGroupedFun`, `AddGroupedIEType`), so every definition and theorem takes an
arbitrary `g`; `defaultGrouped` is the default one.
Simplifications: the mutex around the grouped map is not modelled (the function is assumed not to change
during a call); nil pointers inside ChildIEs are not representable.
-/
namespace Verif.V2
open Res

/-- ie.go:166-172 `type IE struct { Type; Length; instance; Payload; ChildIEs }` -/
inductive IE where
  | mk (typ : UInt8) (len : UInt16) (inst : UInt8) (payload : Bytes) (children : List IE)
  deriving Inhabited, Repr

mutual
def IE.decEq : (a b : IE) → Decidable (a = b)
  | .mk t n i p cs, .mk t' n' i' p' cs' =>
    match IE.decEqs cs cs' with
    | isTrue h =>
      if h' : t = t' ∧ n = n' ∧ i = i' ∧ p = p' then
        isTrue (by obtain ⟨rfl, rfl, rfl, rfl⟩ := h'; rw [h])
      else isFalse (by intro e; injection e with e1 e2 e3 e4 e5; exact h' ⟨e1, e2, e3, e4⟩)
    | isFalse h => isFalse (by intro e; injection e with e1 e2 e3 e4 e5; exact h e5)
def IE.decEqs : (a b : List IE) → Decidable (a = b)
  | [], [] => isTrue rfl
  | [], _ :: _ => isFalse (by simp)
  | _ :: _, [] => isFalse (by simp)
  | a :: as, b :: bs =>
    match IE.decEq a b, IE.decEqs as bs with
    | isTrue h, isTrue h' => isTrue (by rw [h, h'])
    | isFalse h, _ => isFalse (by intro e; injection e with e1 e2; exact h e1)
    | _, isFalse h => isFalse (by intro e; injection e with e1 e2; exact h e2)
end
instance : DecidableEq IE := IE.decEq

namespace IE
def typ : IE → UInt8 | mk t _ _ _ _ => t
def len : IE → UInt16 | mk _ n _ _ _ => n
/-- raw instance octet -/
def rawInst : IE → UInt8 | mk _ _ i _ _ => i
def payload : IE → Bytes | mk _ _ _ p _ => p
def children : IE → List IE | mk _ _ _ _ c => c
/-- ie.go:198-200 `Instance` -/
def instance' (x : IE) : UInt8 := x.rawInst &&& 0x0f
end IE

/-- ie_grouped.go:37-46 default map: BearerContext(93), PDNConnection(109), OverloadControlInformation(180),
LoadControlInformation(181), RemoteUEContext(191), SCEFPDNConnection(195), V2XContext(208), PC5QoSParameters(209);
type codes from the const block ie.go:17-163. -/
def defaultGrouped (t : UInt8) : Bool :=
  t == 93 || t == 109 || t == 180 || t == 181 || t == 191 || t == 195 || t == 208 || t == 209

variable (g : UInt8 → Bool)

mutual
/-- ie.go:281-290 `MarshalLen` -/
def IE.marshalLen : IE → Nat
  | .mk t _ _ p cs => if g t then 4 + marshalLens cs else 4 + p.length
/-- ie.go:284-286 the loop summing the children -/
def marshalLens : List IE → Nat
  | [] => 0
  | c :: cs => c.marshalLen + marshalLens cs
end

mutual
/-- ie.go:212-242 `MarshalTo`, as a transformer of the buffer -/
def IE.marshalTo : IE → Bytes → Res Bytes
  | .mk t n i p cs, b => do
    if b.length < 4 then err .eof else
    let b ← setAt b 0 t
    let b ← copyAt b 1 3 (be16 n)
    let b ← setAt b 3 i
    if g t then marshalChildren cs 4 b
    else if b.length < (IE.mk t n i p cs).marshalLen g then err .eof
    else copyAt b 4 ((IE.mk t n i p cs).marshalLen g) p
/-- ie.go:223-232 the loop over ChildIEs (`break` when the child does not fit) -/
def marshalChildren : List IE → Nat → Bytes → Res Bytes
  | [], _, b => ok b
  | c :: cs, off, b => do
    if b.length < off + c.marshalLen g then ok b else
    let b ← onSub b off (off + c.marshalLen g) (fun s => c.marshalTo s)
    marshalChildren cs (off + c.marshalLen g) b
end

/-- ie.go:203-209 `Marshal` -/
def IE.marshal (x : IE) : Res Bytes := x.marshalTo g (List.replicate (x.marshalLen g) 0)

mutual
/-- ie.go:245-278 `Parse`/`UnmarshalBinary`.  `fuel` bounds the nesting of calls; running out of it is the
outcome `diverge` (never reached, see `parseMulti_ok_iff`/`C06`). -/
def parseF : Nat → Bytes → Res IE
  | 0, _ => diverge
  | fuel + 1, b => do
    if b.length < 4 then err .eof else
    let t ← idx b 0
    let s ← slice b 1 3
    let n ← rd16 s
    if n.toNat > b.length - 4 then err .invalidLength else
    let i ← idx b 3
    let p ← slice b 4 (4 + n.toNat)
    if g t then
      let cs ← parseMultiF fuel p
      ok (.mk t n i p cs)
    else ok (.mk t n i p [])
/-- ie.go:330-341 `ParseMultiIEs` -/
def parseMultiF : Nat → Bytes → Res (List IE)
  | 0, b => if b.length > 0 then diverge else ok []
  | fuel + 1, b => do
    if b.length > 0 then
      let i ← parseF fuel b
      let rest ← sliceFrom b (i.marshalLen g)
      let is ← parseMultiF fuel rest
      ok (i :: is)
    else ok []
end

/-- ie.go:245-251 `Parse` -/
def parse (b : Bytes) : Res IE := parseF g (b.length + 1) b
/-- ie.go:330-341 `ParseMultiIEs` -/
def parseMulti (b : Bytes) : Res (List IE) := parseMultiF g (b.length + 1) b

/-- ie.go:293-302 `SetLength` (the value computed for grouped IEs is overwritten by the last line) -/
def IE.setLength : IE → IE
  | .mk t _ i p cs => .mk t (UInt16.ofNat p.length) i p cs

/-- ie.go:175-184 `New` -/
def newIE (t ins : UInt8) (data : Bytes) : IE := (IE.mk t 0 (ins &&& 0x0f) data []).setLength

/-- ie.go:187-195 `SetInstance` / `WithInstance` -/
def IE.withInstance : IE → UInt8 → IE
  | .mk t n _ p cs, ins => .mk t n (ins &&& 0x0f) p cs

/-- ie_grouped.go:12-30 `NewGroupedIE` (nil arguments are `none`); result `none` is the nil returned on a
marshal error -/
def newGrouped (t : UInt8) (ies : List (Option IE)) : Res (Option IE) :=
  let rec go : List (Option IE) → Bytes → List IE → Res (Option (Bytes × List IE))
    | [], p, cs => ok (some (p, cs))
    | none :: r, p, cs => go r p cs
    | some c :: r, p, cs =>
      match c.marshal g with
      | ok s => go r (p ++ s) (cs ++ [c])
      | err _ => ok none
      | .panic => .panic
      | diverge => diverge
  match newIE t 0 [] with
  | .mk t _ i p cs => do
    match ← go ies p cs with
    | some (p, cs) => ok (some (IE.mk t 0 i p cs).setLength)
    | none => ok none

/-- ie_grouped.go:86-104 `Add` -/
def IE.add : IE → List (Option IE) → Res IE
  | .mk t n i p cs, ies =>
    if g t then
      let rec go : List (Option IE) → Bytes → List IE → Res (Bytes × List IE)
        | [], p, cs => ok (p, cs)
        | none :: r, p, cs => go r p cs
        | some c :: r, p, cs =>
          match c.marshal g with
          | ok s => go r (p ++ s) (cs ++ [c])
          | err _ => go r p (cs ++ [c])
          | .panic => .panic
          | diverge => diverge
      do
        let (p, cs) ← go ies p cs
        ok (IE.mk t n i p cs).setLength
    else ok (.mk t n i p cs)

/-- ie_grouped.go:107-131 `Remove`; `nc` is the slice newChildren, `idx` the write index -/
def IE.remove : IE → UInt8 → UInt8 → Res IE
  | .mk t n i p cs, typ, ins =>
    if g t then
      let rec go : List IE → List (Option IE) → Nat → Bytes → Res (List (Option IE) × Bytes)
        | [], nc, _, p => ok (nc, p)
        | c :: r, nc, k, p =>
          if c.typ = typ ∧ c.instance' = ins then
            if nc.length = 0 then .panic else go r (nc.take (nc.length - 1)) k p
          else if k < nc.length then
            match c.marshal g with
            | ok s => go r (nc.set k (some c)) (k + 1) (p ++ s)
            | err _ => go r (nc.set k (some c)) (k + 1) p
            | .panic => .panic
            | diverge => diverge
          else .panic
      do
        let (nc, p) ← go cs (List.replicate cs.length none) 0 []
        -- a nil pointer left in newChildren would not be a value of our IE type; modelled as panic
        if nc.all Option.isSome then ok (IE.mk t n i p (nc.filterMap id)).setLength else .panic
    else ok (.mk t n i p cs)

/-- ie_grouped.go:137-148 `FindByType` -/
def IE.findByType : IE → UInt8 → UInt8 → Res IE
  | .mk t _ _ _ cs, typ, ins =>
    if g t then
      match cs.find? (fun c => c.typ == typ && c.instance' == ins) with
      | some c => ok c
      | none => err .notFound
    else err .invalidType

end Verif.V2
