import Verif.Model.V2IE
/-
gtpv2/ie/utils.go and the value accessors of gtpv2/ie/ie.go.
-/
namespace Verif.V2
open Res

/-- utils.go:7-9 -/
def has8thBit (f : UInt8) : Bool := ((f &&& (0x80 : UInt8)) >>> 7) == 1
/-- utils.go:11-13 -/
def has7thBit (f : UInt8) : Bool := ((f &&& (0x40 : UInt8)) >>> 6) == 1
/-- utils.go:15-17 -/
def has6thBit (f : UInt8) : Bool := ((f &&& (0x20 : UInt8)) >>> 5) == 1
/-- utils.go:19-21 -/
def has5thBit (f : UInt8) : Bool := ((f &&& (0x10 : UInt8)) >>> 4) == 1
/-- utils.go:23-25 -/
def has4thBit (f : UInt8) : Bool := ((f &&& (0x08 : UInt8)) >>> 3) == 1
/-- utils.go:27-29 -/
def has3rdBit (f : UInt8) : Bool := ((f &&& (0x04 : UInt8)) >>> 2) == 1
/-- utils.go:31-33 -/
def has2ndBit (f : UInt8) : Bool := ((f &&& (0x02 : UInt8)) >>> 1) == 1
/-- utils.go:35-37 -/
def has1stBit (f : UInt8) : Bool := (f &&& (0x01 : UInt8)) == 1

/-- `v, _ := f()`: the error is ignored and the zero value returned with it is used (all modelled accessors return the zero
value with an error) -/
def must {α : Type} (zero : α) (r : Res α) : Res α :=
  match r with
  | err _ => ok zero
  | r => r

variable (g : UInt8 → Bool)

/-- ie.go:380-389 `ValueAsUint8` -/
def IE.valueAsUint8 (i : IE) : Res UInt8 :=
  if g i.typ then err .invalidType
  else if i.payload.length < 1 then err .eof
  else idx i.payload 0

/-- ie.go:392-401 `ValueAsUint16` -/
def IE.valueAsUint16 (i : IE) : Res UInt16 :=
  if g i.typ then err .invalidType
  else if i.payload.length < 2 then err .eof
  else do
    let s ← slice i.payload 0 2
    rd16 s

/-- ie.go:404-413 `ValueAsUint32` -/
def IE.valueAsUint32 (i : IE) : Res UInt32 :=
  if g i.typ then err .invalidType
  else if i.payload.length < 4 then err .eof
  else do
    let s ← slice i.payload 0 4
    rd32 s

/-- ie.go:416-425 `ValueAsUint64` -/
def IE.valueAsUint64 (i : IE) : Res UInt64 :=
  if g i.typ then err .invalidType
  else if i.payload.length < 8 then err .eof
  else do
    let s ← slice i.payload 0 8
    rd64 s

/-- ie.go:428-434 `ValueAsString` -/
def IE.valueAsString (i : IE) : Res Bytes :=
  if g i.typ then err .invalidType else ok i.payload

/-- ie.go:344-346 `NewUint8IE` -/
def newUint8IE (t v : UInt8) : IE := newIE t 0 [v]
/-- ie.go:349-353 `NewUint16IE` -/
def newUint16IE (t : UInt8) (v : UInt16) : IE := newIE t 0 (be16 v)
/-- ie.go:356-360 `NewUint32IE` -/
def newUint32IE (t : UInt8) (v : UInt32) : IE := newIE t 0 (be32 v)
/-- ie.go:363-367 `NewUint64IE` -/
def newUint64IE (t : UInt8) (v : UInt64) : IE := newIE t 0 (be64 v)
/-- ie.go:370-372 `NewStringIE` -/
def newStringIE (t : UInt8) (v : Bytes) : IE := newIE t 0 v

end Verif.V2
