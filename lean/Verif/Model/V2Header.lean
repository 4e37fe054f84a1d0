import Verif.Base
import Verif.Model.Utils
/-
Model of gtpv2/message/header.go.
-/
namespace Verif.V2
open Res

/-- header.go:23-31 `type Header struct` (a nil and an empty Payload are not distinguished: only `len` and
`copy` are ever applied to it). -/
structure Header where
  flags : UInt8
  typ : UInt8
  length : UInt16
  teid : UInt32
  seq : UInt32
  spare : UInt8
  payload : Bytes
  deriving DecidableEq, Repr, Inhabited

namespace Header

/-- header.go:181-183 `HasTEID` -/
def hasTEID (h : Header) : Bool := ((h.flags >>> 3) &&& (1 : UInt8)) == 1

/-- header.go:138-145 `MarshalLen` -/
def marshalLen (h : Header) : Nat := 8 + h.payload.length + (if h.hasTEID then 4 else 0)

/-- header.go:148-153 `SetLength` (both statements are uint16 arithmetic) -/
def setLength (h : Header) : Header :=
  { h with length := UInt16.ofNat (4 + h.payload.length) + (if h.hasTEID then 4 else 0) }

/-- header.go:49-53 `NewHeaderFlags` (arguments are ints; the masks make the result depend on the low bits only,
the model takes them non-negative) -/
def newFlags (v p t : Nat) : UInt8 :=
  UInt8.ofNat (((v &&& 0x7) <<< 5) ||| ((p &&& 0x1) <<< 4) ||| ((t &&& 0x1) <<< 3))

/-- header.go:34-46 `NewHeader` -/
def new (flags mtype : UInt8) (teid seq : UInt32) (data : Bytes) : Header :=
  setLength { flags := flags, typ := mtype, length := 0, teid := teid, seq := seq, spare := 0, payload := data }

/-- header.go:65-79 `MarshalTo` -/
def marshalTo (h : Header) (b : Bytes) : Res Bytes := do
  let b ← setAt b 0 h.flags
  let b ← setAt b 1 h.typ
  let b ← copyAt b 2 4 (be16 h.length)
  let (b, offset) ← (if h.hasTEID then do
      let b ← copyAt b 4 8 (be32 h.teid)
      ok (b, 8)
    else ok (b, 4) : Res (Bytes × Nat))
  let b ← copyAt b offset (offset + 3) (Utils.uint32To24 h.seq)
  let b ← setAt b (offset + 3) h.spare
  copyAt b (offset + 4) h.marshalLen h.payload

/-- header.go:56-62 `Marshal` -/
def marshal (h : Header) : Res Bytes := h.marshalTo (List.replicate h.marshalLen 0)

/-- header.go:82-135 `ParseHeader`/`UnmarshalBinary` into a fresh struct.  `fixedHeaderSize+h.Length` is uint16
arithmetic and wraps around. -/
def parse (b : Bytes) : Res Header := do
  if b.length < 12 then err .tooShortParse else
  let flags ← idx b 0
  let typ ← idx b 1
  let s ← slice b 2 4
  let length ← rd16 s
  if length.toNat < 4 then err .tooShortParse else
  let h : Header := { flags, typ, length, teid := 0, seq := 0, spare := 0, payload := [] }
  if h.hasTEID then
    if length.toNat < 8 then err .tooShortParse else
    let s ← slice b 4 8
    let teid ← rd32 s
    let s ← slice b 8 11
    let seq := Utils.uint24To32 s
    let spare ← idx b 11
    let h := { h with teid, seq, spare }
    if length.toNat + 4 > b.length then
      let p ← sliceFrom b 12
      ok { h with payload := p }
    else if (4 + length).toNat ≥ 12 then
      let p ← slice b 12 (4 + length).toNat
      ok { h with payload := p }
    else err .invalidLength
  else
    let s ← slice b 4 7
    let seq := Utils.uint24To32 s
    let spare ← idx b 7
    let h := { h with seq, spare }
    if length.toNat + 4 > b.length then
      let p ← sliceFrom b 8
      ok { h with payload := p }
    else if (4 + length).toNat ≥ 8 then
      let p ← slice b 8 (4 + length).toNat
      ok { h with payload := p }
    else err .invalidLength

/-- header.go:185-190 `teid()`, the value returned by every message's `TEID()` -/
def teidAcc (h : Header) : UInt32 := if h.hasTEID then h.teid else 0
/-- header.go:193-196 `SetTEID` -/
def setTEID (h : Header) (t : UInt32) : Header := { h with flags := h.flags ||| ((1 : UInt8) <<< 3), teid := t }
/-- header.go:199-201 `Sequence` -/
def sequence (h : Header) : UInt32 := h.seq
/-- header.go:204-206 `SetSequenceNumber` -/
def setSequence (h : Header) (n : UInt32) : Header := { h with seq := n }
/-- header.go:169-171 `IsPiggybacking` -/
def isPiggybacking (h : Header) : Bool := ((h.flags >>> 4) &&& (1 : UInt8)) == 1
/-- header.go:176-178 `SetPiggybacking`; & and << have the same precedence in Go, so this is (val & 1) << 4 -/
def setPiggybacking (h : Header) (v : UInt8) : Header :=
  { h with flags := (h.flags &&& (0xef : UInt8)) ||| ((v &&& (0x01 : UInt8)) <<< 4) }
/-- header.go:209-211 `HasMessagePriority` -/
def hasPriority (h : Header) : Bool := ((h.flags >>> 2) &&& (1 : UInt8)) == 1
/-- header.go:215-218 `SetMessagePriority` -/
def setPriority (h : Header) (mp : UInt8) : Header :=
  { h with flags := h.flags ||| ((1 : UInt8) <<< 2), spare := mp &&& (0xf0 : UInt8) }
/-- header.go:224-226 `MessagePriority` -/
def priority (h : Header) : UInt8 := h.spare &&& (0xf0 : UInt8)
/-- header.go:234-236 `MessageType` -/
def messageType (h : Header) : UInt8 := h.typ
/-- header.go:229-231 `Version`: constant -/
def version (_ : Header) : Nat := 2
end Header
end Verif.V2
