import Verif.Model.Float64
import Verif.Model.Typed.Time
/-
gtpv2/ie/delay-value.go:13-15 `NewDelayValue`, which computes with float64.
-/
namespace Verif.V2

/-- time.Duration.Seconds of the Go library, for durations that are not negative:
    sec := d / Second; nsec := d % Second; return float64(sec) + float64(nsec)/1e9 -/
def secondsF (d : Nat) : F64.F64 :=
  F64.add (F64.ofNat (d / 1000000000)) (F64.div (F64.ofNat (d % 1000000000)) (F64.ofNat 1000000000))

/-- delay-value.go:14, delay.Seconds()*1000/50 -/
def delayF (d : Nat) : F64.F64 := F64.div (F64.mul (secondsF d) (F64.ofNat 1000)) (F64.ofNat 50)

/-- delay-value.go:13-15. What the conversion to uint8 yields for values it cannot hold (durations that are negative or not below
12.8 s) depends on the processor: none. -/
def newDelayValue (d : Duration) : Option IE :=
  if 0 ≤ d ∧ F64.trunc (delayF d.toNat) < 256 then some (newUint8IE 92 (UInt8.ofNat (F64.trunc (delayF d.toNat)))) else none

end Verif.V2
