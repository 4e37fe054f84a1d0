import Verif.Model.Typed.Plain
/-
Elements carrying times: gtpv2/ie/epc-timer.go, throttling.go, ue-timezone.go, uli-timestamp.go, delay-value.go.

A `time.Duration` is an `Int` of nanoseconds.  Go's `/` and `%` truncate towards zero: `Int.tdiv`, `Int.tmod`.  The products
formed here stay far inside int64, so no overflow is modelled.
`NewDelayValue` (delay-value.go:13-15) computes with float64, see Delay.lean; `NewUETimeZone` does, too, and is modelled for
offsets that are a whole number of quarter hours, for which the float64 operations are exact.
-/
namespace Verif.V2
open Res

abbrev Duration := Int
namespace Duration
def second : Duration := 1000000000
def minute : Duration := 60 * second
def hour : Duration := 60 * minute
/-- `time.Duration(math.MaxInt64)` -/
def infinite : Duration := 9223372036854775807
end Duration
open Duration

/-- conversion `uint8(x)` of an integer -/
def toU8 (x : Int) : UInt8 := UInt8.ofNat (x % 256).toNat

/-- epc-timer.go:31-50: unit bits and value -/
def timerUnit (d : Duration) : UInt8 × UInt8 :=
  if d.tmod (10 * hour) = 0 then (0x80, toU8 (d.tdiv (10 * hour)))
  else if d.tmod (1 * hour) = 0 then (0x60, toU8 (d.tdiv hour))
  else if d.tmod (10 * minute) = 0 then (0x40, toU8 (d.tdiv (10 * minute)))
  else if d.tmod (1 * minute) = 0 then (0x20, toU8 (d.tdiv minute))
  else if d.tmod (2 * second) = 0 then (0x00, toU8 (d.tdiv (2 * second)))
  else (0xe0, 0)

/-- epc-timer.go:15-53 `NewEPCTimer` -/
def newEPCTimer (d : Duration) : IE :=
  newUint8IE 156 ((timerUnit d).1 + ((timerUnit d).2 &&& (0x1f : UInt8)))

/-- epc-timer.go:56-58 `NewEPCTimerRaw` -/
def newEPCTimerRaw (x : UInt8) : IE := newUint8IE 156 x

/-- epc-timer.go:84-99: the duration an octet stands for -/
def timerValue (x : UInt8) : Duration :=
  let u := (x &&& (0xe0 : UInt8)) >>> 5
  let v : Duration := (x &&& (0x1f : UInt8)).toNat
  if u = 7 then infinite
  else if u = 4 then v * 10 * hour
  else if u = 3 then v * hour
  else if u = 2 then v * 10 * minute
  else if u = 1 then v * minute
  else if u = 0 then v * 2 * second
  else 0

/-- epc-timer.go:64-66, 76-106 `EPCTimer`, `Timer` -/
def IE.timer (i : IE) : Res Duration :=
  if i.payload.length < 1 then err .eof
  else if i.typ = 156 then do
    let x ← idx i.payload 0
    ok (timerValue x)
  else if i.typ = 180 then err .other
  else err .invalidType

/-! ### Throttling -/

/-- throttling.go:34-38 -/
structure Throttling where
  unit : UInt8
  delay : Duration
  factor : UInt8
  deriving DecidableEq, Repr

/-- throttling.go:41-78 `NewThrottlingFields` -/
def newThrottlingFields (d : Duration) (factor : UInt8) : Throttling :=
  let unit : UInt8 :=
    if d.tmod (10 * hour) = 0 then 4
    else if d.tmod (1 * hour) = 0 then 3
    else if d.tmod (10 * minute) = 0 then 2
    else if d.tmod (1 * minute) = 0 then 1
    else if d.tmod (2 * second) = 0 then 0
    else 0xe0
  ⟨unit, d, factor⟩

/-- throttling.go:97-111 -/
def Throttling.value (f : Throttling) : UInt8 :=
  if f.unit = 4 then toU8 (f.delay.tdiv (10 * hour))
  else if f.unit = 3 then toU8 (f.delay.tdiv hour)
  else if f.unit = 2 then toU8 (f.delay.tdiv (10 * minute))
  else if f.unit = 1 then toU8 (f.delay.tdiv minute)
  else if f.unit = 0 then toU8 (f.delay.tdiv (2 * second))
  else 0

/-- throttling.go:91-117 `MarshalTo` -/
def Throttling.marshalTo (f : Throttling) (b : Bytes) : Res Bytes := do
  if b.length < 2 then err .eof else
  let b ← setAt b 0 (((f.unit <<< 5) &&& (0xe0 : UInt8)) ||| (f.value &&& (0x1f : UInt8)))
  setAt b 1 f.factor

/-- throttling.go:13-21, 81-88, 159-161 `NewThrottling`, `Marshal`, `MarshalLen` -/
def newThrottling (d : Duration) (factor : UInt8) : Res (Option IE) :=
  build 154 ((newThrottlingFields d factor).marshalTo (List.replicate 2 0))

/-- throttling.go:120-156 `ParseThrottlingFields` -/
def parseThrottling (b : Bytes) : Res Throttling := do
  if b.length < 2 then err .eof else
  let x ← idx b 0
  let u := (x &&& (0xe0 : UInt8)) >>> 5
  let v : Duration := (x &&& (0x1f : UInt8)).toNat
  let d :=
    if u = 4 then v * (10 * hour)
    else if u = 3 then v * hour
    else if u = 2 then v * (10 * minute)
    else if u = 1 then v * minute
    else if u = 0 then v * (2 * second)
    else 0
  let f ← idx b 1
  ok ⟨u, d, f⟩

/-- throttling.go:24-31 -/
def IE.throttling (i : IE) : Res Throttling := if i.typ = 154 then parseThrottling i.payload else err .invalidType

/-! ### UE Time Zone -/

/-- ue-timezone.go:14-26 `NewUETimeZone` for an offset of `q` quarter hours -/
def newUETimeZone (q : Int) (dst : UInt8) : IE :=
  let a := q.natAbs
  let hex := UInt8.ofNat (((a % 10) <<< 4) ||| (a / 10))
  let hex := if q < 0 then hex ||| (0x08 : UInt8) else hex
  newIE 114 0 [hex, dst &&& (0x03 : UInt8)]

/-- ue-timezone.go:29-44 `TimeZone`; the sum in line 38 is computed in uint8 -/
def IE.timeZone (i : IE) : Res Duration :=
  if i.typ ≠ 114 then err .invalidType
  else if i.payload.length < 1 then err .eof
  else do
    let x ← idx i.payload 0
    let u := x &&& (0xf7 : UInt8)
    let dec : Int := ((u >>> 4) + (u &&& (0x0f : UInt8)) * 10).toNat
    let dec := if (x &&& (0x08 : UInt8)) >>> 3 = 1 then -dec else dec
    ok (dec * 15 * minute)

/-- ue-timezone.go:54-63 `DaylightSaving` -/
def IE.daylightSaving (i : IE) : Res UInt8 :=
  if i.typ ≠ 114 then err .invalidType
  else if i.payload.length < 2 then err .eof
  else idx i.payload 1

/-! ### ULI Timestamp -/

/-- `time.Sub` saturates at the limits of int64 -/
def saturate (x : Int) : Int := max (-9223372036854775808) (min x 9223372036854775807)

/-- seconds from 1900-01-01 to 1970-01-01 -/
def epochDelta : Int := 2208988800

/-- uli-timestamp.go:14-17 `NewULITimestamp` for the time `sec` seconds and `ns` nanoseconds after 1970-01-01 -/
def newULITimestamp (sec : Int) (ns : Nat) : IE :=
  let d := saturate ((sec + epochDelta) * 1000000000 + ns)
  let u64 := (d % 2 ^ 64).toNat
  newUint32IE 170 (UInt32.ofNat (u64 / 1000000000))

/-- uli-timestamp.go:20-31 `Timestamp`, as seconds after 1970-01-01: ULITimestamp 170, TWANIdentifierTimestamp 179 -/
def IE.timestamp (i : IE) : Res Int :=
  if i.payload.length < 4 then err .eof
  else if i.typ = 170 ∨ i.typ = 179 then do
    let v ← rd32 i.payload
    ok ((v - (2208988800 : UInt32)).toNat : Int)
  else err .invalidType

/-! ### Delay Value -/

/-- delay-value.go:20-22 -/
def newDelayValueRaw (x : UInt8) : IE := newUint8IE 92 x

/-- delay-value.go:28-37: the division is done in uint8 -/
def IE.delayValue (i : IE) : Res Duration :=
  if i.typ ≠ 92 then err .invalidType
  else if i.payload.length < 1 then err .eof
  else do
    let x ← idx i.payload 0
    ok (((x / 50).toNat : Int) * 1000000)

end Verif.V2
