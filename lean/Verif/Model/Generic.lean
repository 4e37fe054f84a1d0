import Verif.Model.V2Msg
import Verif.Model.V1Msg
import Verif.Model.V0Msg
/-
The functions that only Generic messages have: gtpv2/message/generic.go, gtpv1/message/generic.go,
gtpv0/message/generic.go; and the GTPv0 entry point Decapsulate.
-/
namespace Verif.V2
open Res Msg

/-- gtpv2/message/generic.go:36-46 `NewGenericWithoutTEID`: no SetLength; the TEID argument stays in the header, which has no
T flag. (nil arguments are skipped when serialising and not representable here) -/
def newGenericNoTEID (t : UInt8) (teid seq : UInt32) (ies : List IE) : Message :=
  { schema := genericSchema t
    hdr := Header.new (Header.newFlags 2 0 0) t teid seq []
    fields := upd Fields.empty 0 ies }

/-- gtpv2/message/generic.go:141-144 `AddIE`; its SetLength (122-128) dereferences nil arguments -/
def addIE (g : UInt8 → Bool) (m : Message) (ies : List (Option IE)) : Res Message :=
  if ies.all Option.isSome then ok (setLength g { m with fields := upd m.fields 0 (m.fields 0 ++ ies.filterMap id) }) else .panic

end Verif.V2

namespace Verif.V1
open Res Msg

/-- gtpv1/message/generic.go:120-123 `AddIE`; nil entries are skipped by SetLength and when serialising (dropped here) -/
def addIE (m : Message) (ies : List (Option TLV.IE)) : Message :=
  setLength { m with fields := upd m.fields 0 (m.fields 0 ++ ies.filterMap id) }

end Verif.V1

namespace Verif.V0
open Res Msg

/-- gtpv0/message/generic.go:124-127 `AddIE`; nil entries are skipped by SetLength and when serialising (dropped here) -/
def addIE (m : Message) (ies : List (Option TLV.IE)) : Message :=
  setLength { m with fields := upd m.fields 0 (m.fields 0 ++ ies.filterMap id) }

/-- gtpv0/message/message.go:201-211 `Decapsulate`; none for nil -/
def decapsulate (b : Bytes) : Res (Option Bytes) := do
  let h ← Header.parse b
  if h.typ ≠ 255 then ok none else ok (some h.payload)

end Verif.V0
