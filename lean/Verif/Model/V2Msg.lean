import Verif.Model.V2IE
import Verif.Model.V2Header
import Verif.Model.V2Tables
/-
GTPv2 messages: the common message code (Model/Msg.lean) with the GTPv2 header and IEs, constructors and the parser
gtpv2/message/message.go:299-413, gtpv2/message/generic.go.
-/
namespace Verif.V2
open Res Msg

/-- gtpv2/message/header.go used by the messages -/
def hdrOps : HdrOps Header where
  payload := Header.payload
  setPayload h p := { h with payload := p }
  mlen := Header.marshalLen
  setLength := Header.setLength
  mto := Header.marshalTo
  parse := Header.parse

/-- gtpv2/ie/ie.go used by the messages -/
def ieOps (g : UInt8 → Bool) : IEOps IE where
  typ := IE.typ
  inst := IE.instance'
  mlen := IE.marshalLen g
  mto := IE.marshalTo g
  parseMulti := parseMulti g

abbrev Message := Msg.Message Header IE

/-- gtpv2/message/generic.go:14-119 `Generic` for message type t: one slice field holding all IEs.
(nil entries of IEs are skipped by MarshalTo/MarshalLen and not representable here) -/
def genericSchema (t : UInt8) : Schema where
  name := "Generic"
  typ := t
  flags := 0x48
  hasTEIDArg := true
  fields := ["IEs"]
  multi := [0]
  newRules := []
  newDefault := .app 0
  unRules := []
  unDefault := .app 0
  order := [⟨0, true⟩]
  lens := [0]
  reset := true
  lenCheck := false
  early := true

/-- `SetLength` of a message: `m.Header.Length = uint16(m.MarshalLen() - 4)` -/
def setLength (g : UInt8 → Bool) (m : Message) : Message :=
  { m with hdr := { m.hdr with length := UInt16.ofNat (marshalLen hdrOps (ieOps g) m - 4).toNat } }

/-- NewXxx(teid, seq, ies...) (lines in Model/V2Tables.lean); for Generic: generic.go:20-33 -/
def newMessage (g : UInt8 → Bool) (s : Schema) (teid seq : UInt32) (ies : List (Option IE)) : Message :=
  setLength g { schema := s
                hdr := Header.new s.flags s.typ (if s.hasTEIDArg then teid else 0) seq []
                fields := newFields (ieOps g) s ies }

/-- generic.go:20-33: NewGeneric keeps nil arguments and SetLength (generic.go:122-128) dereferences them -/
def newGeneric (g : UInt8 → Bool) (t : UInt8) (teid seq : UInt32) (ies : List (Option IE)) : Res Message :=
  if ies.all Option.isSome then ok (newMessage g (genericSchema t) teid seq ies) else .panic

/-- the struct chosen by `switch b[1]` -/
def schemaOf (t : UInt8) : Schema :=
  match Tab.dispatch.find? (fun p => p.1 == t) with
  | some p => p.2
  | none => genericSchema t

/-- message.go:309-413 `Parse` -/
def parseMsg (g : UInt8 → Bool) (b : Bytes) : Res Message := do
  if b.length < 2 then err .eof else
  let t ← idx b 1
  unmarshal hdrOps (ieOps g) (schemaOf t) b

/-- message.go:299-306 `Marshal` -/
def marshalMsg (g : UInt8 → Bool) (m : Message) : Res (Message × Bytes) := marshal hdrOps (ieOps g) m

end Verif.V2
