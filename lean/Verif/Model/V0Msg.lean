import Verif.Model.V1IE
import Verif.Model.Utils
import Verif.Model.V0Tables
/-
Model of gtpv0/message: header, messages, T-PDU and the parser.
-/
namespace Verif.V0
open Res Msg

/-- gtpv0/message/header.go:15-24 `Header` -/
structure Header where
  flags : UInt8
  typ : UInt8
  length : UInt16
  seq : UInt16
  sndcp : UInt8
  label : UInt16
  tid : UInt64
  payload : Bytes
  deriving DecidableEq, Repr, Inhabited

namespace Header
/-- header.go:108-110 `MarshalLen` -/
def marshalLen (h : Header) : Nat := 20 + h.payload.length
/-- header.go:113-115 `SetLength` -/
def setLength (h : Header) : Header := { h with length := UInt16.ofNat h.payload.length }
/-- header.go:27-40 `NewHeader` -/
def new (flags mtype : UInt8) (seq label : UInt16) (tid : UInt64) (payload : Bytes) : Header :=
  setLength ⟨flags, mtype, 0, seq, 0xff, label, tid, payload⟩
/-- header.go:43-47 `HeaderFlags` (ints taken non-negative) -/
def newFlags (v p s : Nat) : UInt8 :=
  UInt8.ofNat (((v &&& 0x7) <<< 5) ||| ((p &&& 0x1) <<< 4) ||| (s &&& 0x1) ||| 0x0e)

/-- header.go:132-137 `tid`, the value returned by the `TID` method of every message -/
def tidStr (h : Header) : Res Bytes := Utils.swappedToStr (be64 h.tid) false

/-- header.go:59-75 `MarshalTo` -/
def marshalTo (h : Header) (b : Bytes) : Res Bytes := do
  if b.length < h.marshalLen then err .tooShortMarshal else
  let b ← setAt b 0 h.flags
  let b ← setAt b 1 h.typ
  let b ← copyAt b 2 4 (be16 h.length)
  let b ← copyAt b 4 6 (be16 h.seq)
  let b ← copyAt b 6 8 (be16 h.label)
  let b ← copyAt b 8 12 (be32 (UInt32.ofNat (h.sndcp.toNat * 2 ^ 24 + 0xffffff)))
  let b ← copyAt b 12 20 (be64 h.tid)
  copyAt b 20 h.marshalLen h.payload

/-- header.go:50-56 `Marshal` -/
def marshal (h : Header) : Res Bytes := h.marshalTo (List.replicate h.marshalLen 0)

/-- header.go:77-105 `ParseHeader`, `UnmarshalBinary`.  `20+h.Length` is uint16 arithmetic. -/
def parse (b : Bytes) : Res Header := do
  if b.length < 20 then err .tooShortParse else
  let flags ← idx b 0
  let typ ← idx b 1
  let s ← slice b 2 4
  let length ← rd16 s
  let s ← slice b 4 6
  let seq ← rd16 s
  let s ← slice b 6 8
  let label ← rd16 s
  let sndcp ← idx b 9
  let s ← slice b 12 20
  let tid ← rd64 s
  if length.toNat + 20 ≠ b.length then do
    let p ← sliceFrom b 20
    ok ⟨flags, typ, length, seq, sndcp, label, tid, p⟩
  else do
    let p ← slice b 20 (20 + length).toNat
    ok ⟨flags, typ, length, seq, sndcp, label, tid, p⟩
end Header

/-- gtpv0/message/header.go used by the messages -/
def hdrOps : HdrOps Header where
  payload := Header.payload
  setPayload h p := { h with payload := p }
  mlen := Header.marshalLen
  setLength := Header.setLength
  mto := Header.marshalTo
  parse := Header.parse

/-- gtpv0/ie/ie.go used by the messages -/
abbrev ieOps : IEOps TLV.IE := TLV.ieOps TLV.v0

abbrev Message := Msg.Message Header TLV.IE

/-- gtpv0/message/generic.go:14-117 `Generic` for message type t -/
def genericSchema (t : UInt8) : Schema where
  name := "Generic"
  typ := t
  flags := 0x1e
  hasTEIDArg := true
  fields := ["IEs"]
  multi := [0]
  newRules := []
  newDefault := .app 0
  unRules := []
  unDefault := .app 0
  order := [⟨0, true⟩]
  lens := [0]
  reset := true
  lenCheck := false
  early := true

/-- `SetLength` of a message: `m.Header.Length = uint16(m.MarshalLen() - 20)` -/
def setLength (m : Message) : Message :=
  { m with hdr := { m.hdr with length := UInt16.ofNat (marshalLen hdrOps ieOps m - 20).toNat } }

/-- NewXxx(seq, label, tid, ies...) (lines in Model/V0Tables.lean); for Generic: generic.go:20-34 -/
def newMessage (s : Schema) (seq label : UInt16) (tid : UInt64) (ies : List (Option TLV.IE)) : Message :=
  setLength { schema := s
              hdr := Header.new s.flags s.typ seq label tid []
              fields := newFields ieOps s ies }

/-- the struct chosen by `switch b[1]`, T-PDU aside -/
def schemaOf (t : UInt8) : Schema :=
  match Tab.dispatch.find? (fun p => p.1 == t) with
  | some p => p.2
  | none => genericSchema t

/-- a parsed message: a T-PDU is a header only -/
inductive AnyMsg where
  | msg : Message → AnyMsg
  | tpdu : Header → AnyMsg

/-- message.go:106-198 `Parse`; case MsgTypeTPDU with t-pdu.go:44-63 -/
def parseMsg (b : Bytes) : Res AnyMsg := do
  if b.length < 2 then err .tooShortParse else
  let t ← idx b 1
  if t == 255 then do
    let h ← Header.parse b
    ok (.tpdu h)
  else do
    let m ← unmarshal hdrOps ieOps (schemaOf t) b
    ok (.msg m)

/-- message.go:96-103 `Marshal` -/
def marshalMsg (m : Message) : Res (Message × Bytes) := marshal hdrOps ieOps m

/-- t-pdu.go:13-21 `NewTPDU` -/
def newTPDU (seq label : UInt16) (tid : UInt64) (payload : Bytes) : Header :=
  (Header.new 0x1e 255 seq label tid payload).setLength

/-- t-pdu.go:24-42 `Marshal`, `MarshalTo` (`t.Header.Payload = t.Payload` assigns the field to itself) -/
def tpduMarshal (h : Header) : Res (Header × Bytes) := do
  let b ← h.setLength.marshalTo (List.replicate h.marshalLen 0)
  ok (h.setLength, b)

end Verif.V0
