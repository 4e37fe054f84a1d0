import Verif.Model.Typed.IndicationTab
/-
gtpv2/ie/indication.go.  The table of flags is in IndicationTab.lean.
-/
namespace Verif.V2
open Res

/-- utils.go:7-37 the function testing bit `k` (0 for `has1stBit`) -/
def hasBit (k : Nat) (f : UInt8) : Bool :=
  match k with
  | 0 => has1stBit f
  | 1 => has2ndBit f
  | 2 => has3rdBit f
  | 3 => has4thBit f
  | 4 => has5thBit f
  | 5 => has6thBit f
  | 6 => has7thBit f
  | _ => has8thBit f

/-- indication.go:17-110 `NewIndication`; `p` gives the value of each parameter -/
def newIndication (p : Ind → UInt8) : IE :=
  newIE 77 0 (indBlocks.map (fun blk => blk.foldl (fun o (f, s) => o ||| (p f <<< s)) 0))

/-- `bit, err := strconv.Atoi(string(r))` on one character, then `if bit > 1 { bit = 1 }` -/
def bitOf (c : UInt8) : Option UInt8 :=
  if 48 ≤ c ∧ c ≤ 57 then (if c - 48 > 1 then some 1 else some (c - 48)) else none

/-- indication.go:121-137 the loop of `NewIndicationFromBitSequence`; `none` is `return nil`.
Ranging over a Go string yields runes: a rune of several octets is not a digit and ends the loop with nil, as its first octet
does here. -/
def bitLoop : Bytes → Nat → Bytes → Res (Option Bytes)
  | [], _, p => ok (some p)
  | c :: cs, i, p =>
    match bitOf c with
    | none => ok none
    | some bit => do
      let o ← idx p (i / 8)
      let p ← setAt p (i / 8) (o ||| (bit <<< UInt8.ofNat (8 * (i / 8 + 1) - i - 1)))
      bitLoop cs (i + 1) p

/-- indication.go:115-140 `NewIndicationFromBitSequence` -/
def newIndicationBits (s : Bytes) : Res (Option IE) := do
  if s.length ≠ 72 then ok none else
  let p ← bitLoop s 0 (List.replicate 9 0)
  ok (p.map (newIE 77 0))

/-- indication.go:143-153 `NewIndicationFromOctets`: appends at most nine octets -/
def newIndicationOctets (octs : Bytes) : IE := newIE 77 0 (octs.take 9)

/-- indication.go:164-1008 an accessor `HasXXX`, given its row of the table -/
def IE.indFlag (a : Ind × Nat × Nat × Nat) (i : IE) : Res Bool :=
  if i.typ ≠ 77 then ok false
  else if i.payload.length < a.2.1 then ok false
  else do
    let o ← idx i.payload a.2.2.1
    ok (hasBit a.2.2.2 o)

end Verif.V2
