import Verif.Model.V1IE
import Verif.Model.V1Header
import Verif.Model.V1Tables
/-
GTPv1 messages: the common message code (Model/Msg.lean) with the GTPv1 header and IEs, constructors, T-PDU
(gtpv1/message/t-pdu.go), the parser gtpv1/message/message.go:117-215 and gtpv1/utils.go.
-/
namespace Verif.V1
open Res Msg

/-- gtpv1/message/header.go used by the messages -/
def hdrOps : HdrOps Header where
  payload := Header.payload
  setPayload h p := { h with payload := p }
  mlen := Header.marshalLen
  setLength := Header.setLength
  mto := Header.marshalTo
  parse := Header.parse

/-- gtpv1/ie/ie.go used by the messages -/
abbrev ieOps : IEOps TLV.IE := TLV.ieOps TLV.v1

abbrev Message := Msg.Message Header TLV.IE

/-- gtpv1/message/generic.go:15-118 `Generic` for message type t: one slice field holding all IEs (nil entries are
skipped by MarshalTo and MarshalLen; here they are left out) -/
def genericSchema (t : UInt8) : Schema where
  name := "Generic"
  typ := t
  flags := 0x32
  hasTEIDArg := true
  fields := ["IEs"]
  multi := [0]
  newRules := []
  newDefault := .app 0
  unRules := []
  unDefault := .app 0
  order := [⟨0, true⟩]
  lens := [0]
  reset := true
  lenCheck := false
  early := true

/-- `SetLength` of a message: `m.Header.Length = uint16(m.MarshalLen() - 8)` -/
def setLength (m : Message) : Message :=
  { m with hdr := { m.hdr with length := UInt16.ofNat (marshalLen hdrOps ieOps m - 8).toNat } }

/-- NewXxx(teid, seq, ies...) (lines in Model/V1Tables.lean; NewEndMarker has no arguments but IEs and uses zeros);
for Generic: generic.go:21-29 -/
def newMessage (s : Schema) (teid : UInt32) (seq : UInt16) (ies : List (Option TLV.IE)) : Message :=
  setLength { schema := s
              hdr := Header.new s.flags s.typ (if s.hasTEIDArg then teid else 0) seq []
              fields := newFields ieOps s ies }

/-- the struct chosen by `switch b[1]`, T-PDU aside -/
def schemaOf (t : UInt8) : Schema :=
  match Tab.dispatch.find? (fun p => p.1 == t) with
  | some p => p.2
  | none => genericSchema t

/-- a parsed message: a T-PDU is a header only -/
inductive AnyMsg where
  | msg : Message → AnyMsg
  | tpdu : Header → AnyMsg

/-- message.go:117-215 `Parse`; case MsgTypeTPDU with t-pdu.go:64-79 -/
def parseMsg (b : Bytes) : Res AnyMsg := do
  if b.length < 2 then err .tooShortParse else
  let t ← idx b 1
  if t == 255 then do
    let h ← Header.parse b
    ok (.tpdu h)
  else do
    let m ← unmarshal hdrOps ieOps (schemaOf t) b
    ok (.msg m)

/-- message.go:107-114 `Marshal` -/
def marshalMsg (m : Message) : Res (Message × Bytes) := marshal hdrOps ieOps m

/-- header.go:48-52 `NewHeaderWithExtensionHeaders` -/
def Header.newWithExts (flags mtype : UInt8) (teid : UInt32) (seq : UInt16) (payload : Bytes) (es : List Ext) : Header :=
  ((Header.new flags mtype teid seq payload).addExts es).1

/-- t-pdu.go:13-18 `NewTPDU`; gtpv1/utils.go:10-13 `Encapsulate` -/
def newTPDU (teid : UInt32) (payload : Bytes) : Header := (Header.new 0x30 255 teid 0 payload).setLength
/-- t-pdu.go:21-26 `NewTPDUWithSequence` -/
def newTPDUSeq (teid : UInt32) (seq : UInt16) (payload : Bytes) : Header := (Header.new 0x32 255 teid seq payload).setLength
/-- t-pdu.go:29-34 `NewTPDUWithExtentionHeader`; gtpv1/utils.go:17-20 `EncapsulateWithExtensionHeader` -/
def newTPDUExts (teid : UInt32) (payload : Bytes) (es : List Ext) : Header :=
  (Header.newWithExts 0x34 255 teid 0 payload es).setLength

/-- t-pdu.go:47-54 `MarshalTo`: the T-PDU afterwards and the buffer -/
def tpduMarshalTo (h : Header) (b : Bytes) : Res (Header × Bytes) := do
  if b.length < h.marshalLen then err .tooShortMarshal else
  let b ← h.setLength.marshalTo b
  ok (h.setLength, b)
/-- t-pdu.go:37-44 `Marshal` -/
def tpduMarshal (h : Header) : Res (Header × Bytes) := tpduMarshalTo h (List.replicate h.marshalLen 0)

/-- gtpv1/utils.go:38-48 `DecapsulateWithExtensionHeader` -/
def decapsulateExts (b : Bytes) : Res (UInt32 × Bytes × List Ext) := do
  let h ← Header.parse b
  if h.typ != 255 then err .invalidMsgType else ok (h.teid, h.payload, h.exts)
/-- gtpv1/utils.go:23-33 `Decapsulate` -/
def decapsulate (b : Bytes) : Res (UInt32 × Bytes) := do
  let h ← Header.parse b
  if h.typ != 255 then err .invalidMsgType else ok (h.teid, h.payload)

end Verif.V1
