import Verif.Model.Generic
/-
Messages whose fields hold nil pointers: the common code of Model/Msg.lean with the nil checks it has, which lists `Option` stand for.

MarshalTo and MarshalLen look at every scalar field before they use it (`if ie := m.F; ie != nil`); the loops over list fields skip nil
entries in the fields of the tables below and call the methods of a nil *ie.IE otherwise.  Tables by tools/gen_nil.py from the Go text:
the message type, the list fields MarshalLen checks, those MarshalTo checks.
-/
namespace Verif.Msg
open Res
variable {ι η : Type}

structure NMessage (η ι : Type) where
  schema : Schema
  hdr : η
  fields : Nat → List (Option ι)

/-- which fields are checked for nil, by MarshalLen and by MarshalTo -/
structure Checks where
  len : Nat → Bool
  to : Nat → Bool

/-- the checks of the message type, from a table of names -/
def checksOf (t : List (String × List String × List String)) (s : Schema) : Checks :=
  let r := (t.find? (fun x => x.1 = s.name)).elim ([], []) Prod.snd
  let has := fun (l : List String) f => !s.multi.contains f || (s.fields[f]?).elim false l.contains
  ⟨has r.1, has r.2⟩

/-- one block of MarshalLen; `MarshalLen` of a nil element reads its type (gtpv2/ie/ie.go:281, gtpv1/ie/ie.go:306,
gtpv0/ie/ie.go:168) -/
def lenListN (io : IEOps ι) (chk : Bool) : List (Option ι) → Res Nat
  | [] => ok 0
  | none :: xs => if chk then lenListN io chk xs else .panic
  | some x :: xs => do
    let n ← lenListN io chk xs
    ok (io.mlen x + n)

def bodyLenN (io : IEOps ι) (ck : Checks) (F : Nat → List (Option ι)) : List Nat → Res Nat
  | [] => ok 0
  | f :: fs => do
    let n ← lenListN io (ck.len f) (F f)
    let r ← bodyLenN io ck F fs
    ok (n + r)

/-- MarshalLen; as `marshalLen` -/
def marshalLenN (ho : HdrOps η) (io : IEOps ι) (ck : Checks) (m : NMessage η ι) : Res Int := do
  let n ← bodyLenN io ck m.fields m.schema.lens
  ok ((ho.mlen m.hdr : Int) - (ho.payload m.hdr).length + n)

/-- one block of MarshalTo; as `writeList`.  `MarshalTo` of a nil GTPv2 element looks at the length of the buffer first
(gtpv2/ie/ie.go:212-218); the lists of the other versions are all checked -/
def writeListN (io : IEOps ι) (adv chk : Bool) : List (Option ι) → Nat → Bytes → Res (Nat × Bytes)
  | [], off, b => ok (off, b)
  | none :: xs, off, b =>
    if chk then writeListN io adv chk xs off b else do
      let s ← sliceFrom b off
      if s.length < 4 then err .eof else .panic
  | some x :: xs, off, b => do
    let s ← sliceFrom b off
    let s' ← io.mto x s
    writeListN io adv chk xs (if adv then off + io.mlen x else off) (b.take off ++ s')

def writeFieldsN (io : IEOps ι) (ck : Checks) (F : Nat → List (Option ι)) : List Entry → Nat → Bytes → Res Bytes
  | [], _, b => ok b
  | e :: es, off, b => do
    let (off, b) ← writeListN io e.adv (ck.to e.field) (F e.field) off b
    writeFieldsN io ck F es off b

/-- MarshalTo; as `marshalTo` -/
def marshalToN (ho : HdrOps η) (io : IEOps ι) (ck : Checks) (m : NMessage η ι) (b : Bytes) : Res (NMessage η ι × Bytes) := do
  let short ← if m.schema.lenCheck then do
      let n ← marshalLenN ho io ck m
      ok (decide ((b.length : Int) < n))
    else ok false
  if short then err .tooShortMarshal else
  let m : NMessage η ι := if m.schema.reset then { m with hdr := ho.setPayload m.hdr [] } else m
  let l ← marshalLenN ho io ck m
  let n : Int := l - ho.mlen m.hdr
  if n < 0 then .panic else
  let p ← writeFieldsN io ck m.fields m.schema.order 0 (List.replicate n.toNat 0)
  let h := ho.setLength (ho.setPayload m.hdr p)
  let b ← ho.mto h b
  ok ({ m with hdr := h }, b)

/-- Marshal; as `marshal` -/
def marshalN (ho : HdrOps η) (io : IEOps ι) (ck : Checks) (m : NMessage η ι) : Res (NMessage η ι × Bytes) := do
  let n ← marshalLenN ho io ck m
  if n < 0 then .panic else marshalToN ho io ck m (List.replicate n.toNat 0)

/-- the loop of NewXxx: `for _, i := range ies { if i == nil { continue }; switch i.Type { ... } }` (e.g. gtpv2/message/echo-req.go:29-43) -/
def classifyN (io : IEOps ι) (s : Schema) (ies : List (Option ι)) : Fields ι :=
  ies.foldl (fun F i => match i with
    | none => F
    | some x => (sel s.newRules s.newDefault (io.typ x).toNat (io.inst x).toNat).apply F x) Fields.empty

end Verif.Msg

namespace Verif.V2
open Res Msg
abbrev NMessage := Msg.NMessage Header IE

/-- gtpv2/message -/
def nilTable : List (String × List String × List String) :=
  [("ChangeNotificationRequest", ["AdditionalIEs"], ["AdditionalIEs"]),
   ("ChangeNotificationResponse", ["AdditionalIEs"], ["AdditionalIEs"]),
   ("ContextAcknowledge", ["AdditionalIEs"], ["AdditionalIEs"]), ("ContextRequest", ["AdditionalIEs"], ["AdditionalIEs"]),
   ("ContextResponse", ["AdditionalIEs"], ["AdditionalIEs"]), ("CreateBearerRequest", ["AdditionalIEs"], ["AdditionalIEs"]),
   ("CreateBearerResponse", ["AdditionalIEs"], ["AdditionalIEs"]),
   ("CreateSessionRequest", ["AdditionalIEs"], ["AdditionalIEs"]), ("CreateSessionResponse", [], ["AdditionalIEs"]),
   ("DeleteBearerCommand", ["AdditionalIEs"], ["AdditionalIEs"]),
   ("DeleteBearerFailureIndication", ["AdditionalIEs"], ["AdditionalIEs"]),
   ("DeleteBearerRequest", ["AdditionalIEs"], ["AdditionalIEs"]),
   ("DeleteBearerResponse", ["AdditionalIEs"], ["AdditionalIEs"]),
   ("DeletePDNConnectionSetRequest", ["AdditionalIEs"], ["AdditionalIEs"]),
   ("DeletePDNConnectionSetResponse", ["AdditionalIEs"], ["AdditionalIEs"]),
   ("DeleteSessionRequest", ["AdditionalIEs"], ["AdditionalIEs"]),
   ("DeleteSessionResponse", ["AdditionalIEs"], ["AdditionalIEs"]),
   ("DetachAcknowledge", ["AdditionalIEs"], ["AdditionalIEs"]), ("DetachNotification", ["AdditionalIEs"], ["AdditionalIEs"]),
   ("DownlinkDataNotificationAcknowledge", ["AdditionalIEs"], ["AdditionalIEs"]),
   ("DownlinkDataNotificationFailureIndication", ["AdditionalIEs"], ["AdditionalIEs"]),
   ("DownlinkDataNotification", ["AdditionalIEs"], ["AdditionalIEs"]), ("EchoRequest", [], []),
   ("EchoResponse", ["AdditionalIEs"], ["AdditionalIEs"]), ("Generic", ["IEs"], ["IEs"]),
   ("ModifyAccessBearersRequest", ["AdditionalIEs"], ["AdditionalIEs"]),
   ("ModifyAccessBearersResponse", ["AdditionalIEs"], ["AdditionalIEs"]),
   ("ModifyBearerCommand", ["AdditionalIEs"], ["AdditionalIEs"]),
   ("ModifyBearerFailureIndication", ["AdditionalIEs"], ["AdditionalIEs"]),
   ("ModifyBearerRequest", ["AdditionalIEs"], ["AdditionalIEs"]),
   ("ModifyBearerResponse", ["AdditionalIEs"], ["AdditionalIEs"]),
   ("PGWRestartNotificationAcknowledge", ["AdditionalIEs"], ["AdditionalIEs"]),
   ("PGWRestartNotification", ["AdditionalIEs"], ["AdditionalIEs"]),
   ("ReleaseAccessBearersRequest", ["AdditionalIEs"], ["AdditionalIEs"]),
   ("ReleaseAccessBearersResponse", ["AdditionalIEs"], ["AdditionalIEs"]),
   ("StopPagingIndication", ["AdditionalIEs"], ["AdditionalIEs"]),
   ("SuspendAcknowledge", ["AdditionalIEs"], ["AdditionalIEs"]), ("SuspendNotification", ["AdditionalIEs"], ["AdditionalIEs"]),
   ("UpdateBearerRequest", ["AdditionalIEs"], ["AdditionalIEs"]),
   ("UpdateBearerResponse", ["AdditionalIEs"], ["AdditionalIEs"]),
   ("UpdatePDNConnectionSetRequest", ["AdditionalIEs"], ["AdditionalIEs"]),
   ("UpdatePDNConnectionSetResponse", ["AdditionalIEs"], ["AdditionalIEs"]),
   ("VersionNotSupportedIndication", ["AdditionalIEs"], ["AdditionalIEs"])]

def checks (s : Schema) : Checks := checksOf nilTable s

def marshalMsgN (g : UInt8 → Bool) (m : NMessage) : Res (NMessage × Bytes) := marshalN hdrOps (ieOps g) (checks m.schema) m
def marshalToMsgN (g : UInt8 → Bool) (m : NMessage) (b : Bytes) : Res (NMessage × Bytes) := marshalToN hdrOps (ieOps g) (checks m.schema) m b
def marshalLenMsgN (g : UInt8 → Bool) (m : NMessage) : Res Int := marshalLenN hdrOps (ieOps g) (checks m.schema) m

/-- gtpv2/message/generic.go:36-46 `NewGenericWithoutTEID`, with nil arguments -/
def newGenericNoTEIDN (t : UInt8) (teid seq : UInt32) (ies : List (Option IE)) : NMessage :=
  ⟨genericSchema t, Header.new (Header.newFlags 2 0 0) t teid seq [], fun f => if f = 0 then ies else []⟩

end Verif.V2

namespace Verif.V1
open Res Msg
abbrev NMessage := Msg.NMessage Header TLV.IE

/-- gtpv1/message -/
def nilTable : List (String × List String × List String) :=
  [("CreatePDPContextRequest", ["AdditionalIEs"], ["AdditionalIEs"]),
   ("CreatePDPContextResponse", ["AdditionalIEs"], ["AdditionalIEs"]),
   ("DeletePDPContextRequest", ["AdditionalIEs"], ["AdditionalIEs"]),
   ("DeletePDPContextResponse", ["AdditionalIEs"], ["AdditionalIEs"]), ("EchoRequest", ["AdditionalIEs"], ["AdditionalIEs"]),
   ("EchoResponse", ["AdditionalIEs"], ["AdditionalIEs"]), ("EndMarker", ["AdditionalIEs"], ["AdditionalIEs"]),
   ("ErrorIndication", ["AdditionalIEs"], ["AdditionalIEs"]), ("Generic", ["IEs"], ["IEs"]),
   ("SupportedExtensionHeaderNotification", ["AdditionalIEs"], ["AdditionalIEs"]),
   ("UpdatePDPContextRequest", ["AdditionalIEs"], ["AdditionalIEs"]),
   ("UpdatePDPContextResponse", ["AdditionalIEs"], ["AdditionalIEs"]),
   ("VersionNotSupported", ["AdditionalIEs"], ["AdditionalIEs"])]

def checks (s : Schema) : Checks := checksOf nilTable s
def marshalMsgN (m : NMessage) : Res (NMessage × Bytes) := marshalN hdrOps ieOps (checks m.schema) m
def marshalToMsgN (m : NMessage) (b : Bytes) : Res (NMessage × Bytes) := marshalToN hdrOps ieOps (checks m.schema) m b
def marshalLenMsgN (m : NMessage) : Res Int := marshalLenN hdrOps ieOps (checks m.schema) m

end Verif.V1

namespace Verif.V0
open Res Msg
abbrev NMessage := Msg.NMessage Header TLV.IE

/-- gtpv0/message -/
def nilTable : List (String × List String × List String) :=
  [("CreatePDPContextRequest", ["AdditionalIEs"], ["AdditionalIEs"]),
   ("CreatePDPContextResponse", ["AdditionalIEs"], ["AdditionalIEs"]),
   ("DeletePDPContextRequest", ["AdditionalIEs"], ["AdditionalIEs"]),
   ("DeletePDPContextResponse", ["AdditionalIEs"], ["AdditionalIEs"]), ("EchoRequest", ["AdditionalIEs"], ["AdditionalIEs"]),
   ("EchoResponse", ["AdditionalIEs"], ["AdditionalIEs"]), ("Generic", ["IEs"], ["IEs"]),
   ("UpdatePDPContextRequest", ["AdditionalIEs"], ["AdditionalIEs"]),
   ("UpdatePDPContextResponse", ["AdditionalIEs"], ["AdditionalIEs"])]

def checks (s : Schema) : Checks := checksOf nilTable s
def marshalMsgN (m : NMessage) : Res (NMessage × Bytes) := marshalN hdrOps ieOps (checks m.schema) m
def marshalToMsgN (m : NMessage) (b : Bytes) : Res (NMessage × Bytes) := marshalToN hdrOps ieOps (checks m.schema) m b
def marshalLenMsgN (m : NMessage) : Res Int := marshalLenN hdrOps ieOps (checks m.schema) m

end Verif.V0
