import Verif.Model.V2Msg
/-
gtpv2/ie/ie_grouped.go:35-82: the two package variables that say which element types are grouped, and the calls that change them.
Simplification: the mutex is left out (calls one after the other; races are in Model/Locks.lean).
-/
namespace Verif.V2.Declare

/-- ie_grouped.go:35-53: the map as the list of its keys; `fn = none` is the function of lines 47-52, which looks into the map -/
structure Vars where
  map : List UInt8
  fn : Option (UInt8 → Bool)

/-- ie_grouped.go:37-46; type codes from ie.go:17-163 -/
def init : Vars := ⟨[93, 109, 180, 181, 191, 195, 208, 209], none⟩

inductive Call where
  | add (ts : List UInt8)
  | set (f : UInt8 → Bool)

/-- ie_grouped.go:56-60 `SetIsGroupedFun`, 66-72 `AddGroupedIEType` -/
def Vars.call (v : Vars) : Call → Vars
  | .add ts => { v with map := ts ++ v.map }
  | .set f => { v with fn := some f }

/-- ie_grouped.go:80-82 `IsGrouped` of an element of type t -/
def Vars.grouped (v : Vars) (t : UInt8) : Bool :=
  match v.fn with
  | none => v.map.contains t
  | some f => f t

end Verif.V2.Declare
