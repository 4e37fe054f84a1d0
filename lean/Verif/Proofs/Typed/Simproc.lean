import Lean.Meta.Tactic.Simp.BuiltinSimprocs.UInt
import Lean.Meta.LitValues
/-
simp evaluates `&&&`, `|||`, `>>>`, `<<<` on UInt8 literals.  The results are checked by the kernel by unfolding.
-/
open Lean Meta Simp

def u8bin (f : UInt8 → UInt8 → UInt8) (e : Expr) : SimpM DStep := do
  let args := e.getAppArgs
  unless args.size = 6 do return .continue
  let some (a, _) ← getOfNatValue? args[4]! ``UInt8 | return .continue
  let some (b, _) ← getOfNatValue? args[5]! ``UInt8 | return .continue
  return .done <| toExpr (f (.ofNat a) (.ofNat b))

dsimproc u8And ((_ &&& _ : UInt8)) := u8bin (· &&& ·)
dsimproc u8Or ((_ ||| _ : UInt8)) := u8bin (· ||| ·)
dsimproc u8Shl ((_ <<< _ : UInt8)) := u8bin (· <<< ·)
dsimproc u8Shr ((_ >>> _ : UInt8)) := u8bin (· >>> ·)

example : (3 : UInt8) &&& 7 = 3 := by simp
example (P : Prop) (h : P) : (if (0x87 : UInt8) >>> 4 = 8 then P else False) := by simpa using h
