import Verif.Model.V0Msg
import Verif.Model.V1Msg
import Verif.Model.V2Msg
/-
Model of gtp.go, the version independent entry point.
-/
namespace Verif.Gtp
open Res

/-- what gtp.go `Parse` returns: a message of one of the three packages -/
inductive GMsg where
  | v0 : V0.AnyMsg → GMsg
  | v1 : V1.AnyMsg → GMsg
  | v2 : V2.Message → GMsg

/-- gtp.go:39-54 `Parse`; `g` tells the IE types taken as grouped by gtpv2/ie -/
def parse (g : UInt8 → Bool) (b : Bytes) : Res GMsg := do
  if b.length < 8 then err .tooShortParse else
  let f ← idx b 0
  match (f >>> 5).toNat with
  | 0 => do
    let m ← V0.parseMsg b
    ok (.v0 m)
  | 1 => do
    let m ← V1.parseMsg b
    ok (.v1 m)
  | 2 => do
    let m ← V2.parseMsg g b
    ok (.v2 m)
  | _ => err .invalidVersion

end Verif.Gtp
