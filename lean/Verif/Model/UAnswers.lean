import Verif.Model.Dial
/-
What the user-plane connection sends on request of the application: gtpv1/u-conn.go WriteToGTP and EchoResponse
(EchoRequest is in Model/Dial.lean, RespondTo and ErrorIndication in Model/UConn.lean).
-/
namespace Verif.V1.UConn
open Res

/-- u-conn.go:494-504 `WriteToGTP`: the number of octets written is returned -/
def writeToGTP (u : UConn) (teid : UInt32) (p : Bytes) (a : Addr) (w : Bool) : List Ev × Res Nat :=
  match tpduMarshal (newTPDU teid p) with
  | ok (_, b) => ((writeTo u a b w).1, (writeTo u a b w).2 >>= fun _ => ok b.length)
  | err e => ([], err e)
  | .panic => ([], .panic)
  | .diverge => ([], .diverge)

/-- u-conn.go:617-627 `EchoResponse` -/
def echoResponse (u : UConn) (a : Addr) (w : Bool) : List Ev × Res Unit :=
  match marshalMsg (newMessage Tab.echoResponse 0 0 [some (TLV.newIE TLV.v1 14 [0])]) with
  | ok (_, b) => writeTo u a b w
  | err e => ([], err e)
  | .panic => ([], .panic)
  | .diverge => ([], .diverge)

end Verif.V1.UConn
