import Verif.Model.IPText
import Verif.Model.Typed.Addr
import Verif.Model.Typed.Plmn
import Verif.Model.Typed.V1
/-
The constructors that take an address as text and the accessors that give one (gtpv2/ie, gtpv1/ie, gtpv0/ie), and the use of the
text of a socket address in gtpv2/conn.go, gtpv2/session.go and gtpv1/u-conn.go.  A nil net.IP is `[]` (`ofOpt`).
-/
namespace Verif
open Res NetIP

namespace V2

/-- gtpv2/ie/ip-addr.go:13-23 `NewIPAddress` -/
def newIPAddressText (addr : Bytes) : IE :=
  let ip := ofOpt (parseIP addr)
  match to4 ip with
  | some v4 => newIE 74 0 v4
  | none => newIE 74 0 ip

/-- gtpv2/ie/f-teid.go:14-22 `NewFullyQualifiedTEID` -/
def newFTEIDText (ifType : UInt8) (teid : UInt32) (v4 v6 : Bytes) : Res (Option IE) :=
  newFTEID ifType teid (ofOpt (parseIP v4)) (ofOpt (parseIP v6))

/-- gtpv2/ie/paa.go:28-30 `NewPDNAddressAllocation` -/
def newPAAText (addr : Bytes) : Res (Option IE) := newPAA (ofOpt (parseIP addr)) 0
/-- gtpv2/ie/paa.go:33-35 `NewPDNAddressAllocationIPv6` -/
def newPAAIPv6Text (addr : Bytes) (pre : UInt8) : Res (Option IE) := newPAA (ofOpt (parseIP addr)) pre
/-- gtpv2/ie/paa.go:41-43 `NewPDNAddressAllocationDual` -/
def newPAADualText (v4 v6 : Bytes) (pre : UInt8) : Res (Option IE) :=
  newPAADual (ofOpt (parseIP v4)) (ofOpt (parseIP v6)) pre

/-- gtpv2/ie/s103pdf.go:14-22 `NewS103PDNDataForwardingInfo` -/
def newS103Text (addr : Bytes) (key : UInt32) (ebis : Bytes) : Res (Option IE) := newS103 (ofOpt (parseIP addr)) key ebis
/-- gtpv2/ie/s1udf.go:14-22 `NewS1UDataForwarding` -/
def newS1UDFText (ebi : UInt8) (addr : Bytes) (teid : UInt32) : Res (Option IE) := newS1UDF ebi (ofOpt (parseIP addr)) teid
/-- gtpv2/ie/fq-csid.go:22-30, 51-74 `NewFullyQualifiedCSID` -/
def newCSIDText (node : Bytes) (ids : List UInt16) : Res (Option IE) := newCSID node (parseIP node) ids

/-- gtpv2/ie/ip-addr.go:40-47 `IPAddress` -/
def IE.ipAddress (i : IE) : Res Bytes := do
  let ip ← i.ip
  ok (ipString ip)
/-- gtpv2/ie/s103pdf.go:184-190 `HSGWAddress` -/
def IE.hsgwAddress (i : IE) : Res Bytes := if i.typ ≠ 90 then err .invalidType else i.ipAddress
/-- gtpv2/ie/s1udf.go:154-160 `SGWAddress` -/
def IE.sgwAddress (i : IE) : Res Bytes := if i.typ ≠ 91 then err .invalidType else i.ipAddress

end V2

namespace TLV

/-- gtpv1/ie/gsn-address.go:13-15 `NewGSNAddress` -/
def newGSNAddressText1 (addr : Bytes) : Option IE := newGSNAddress1 (ofOpt (parseIP addr))
/-- gtpv0/ie/gsn-address.go:13-23 `NewGSNAddress` (133), charging-gateway-address.go:13-23 `NewChargingGatewayAddress` (251) -/
def newAddressText0 (t : UInt8) (addr : Bytes) : IE := newAddress0 t (ofOpt (parseIP addr))

/-- "ppp" -/
def pppText : Bytes := [112, 112, 112]

/-- gtpv1/ie/end-user-address.go:21-27 `NewEndUserAddress` -/
def newEUAddrText1 (addr : Bytes) : Res (Option IE) :=
  if addr = pppText then ok (some (newEUAddrPPP TLV.v1)) else newEUAddr1 (ofOpt (parseIP addr))
/-- gtpv0/ie/end-user-address.go:22-35 `NewEndUserAddress` -/
def newEUAddrText0 (addr : Bytes) : Res (Option IE) :=
  if addr = pppText then ok (some (newEUAddrPPP TLV.v0)) else newEUAddr0 (ofOpt (parseIP addr))

variable (c : Cfg)
/-- end-user-address.go:46-53 (gtpv1), :38-45 (gtpv0) `NewEndUserAddressIPv4` -/
def newEUAddrIPv4Text (addr : Bytes) : Res IE := newEUAddrIPv4 c (ofOpt (parseIP addr))
/-- end-user-address.go:56-63 (gtpv1), :48-55 (gtpv0) `NewEndUserAddressIPv6` -/
def newEUAddrIPv6Text (addr : Bytes) : Res IE := newEUAddrIPv6 c (ofOpt (parseIP addr))

/-- gtpv1/ie/gsn-address.go:34-43, gtpv0/ie/gsn-address.go:26-35 `GSNAddress` (133), gtpv0/ie/charging-gateway-address.go:26-35
`ChargingGatewayAddress` (251) -/
def IE.addressText (t : UInt8) (i : IE) : Res Bytes := do
  let ip ← i.address t
  ok (ipString ip)
/-- gtpv1/ie/ip.go:37-44, gtpv0/ie/end-user-address.go:146-165 `IPAddress` -/
def IE.ipAddress (i : IE) : Res Bytes := do
  let ip ← i.ip
  ok (ipString ip)

end TLV

/-- gtpv1/u-conn.go:631-640 the GSN Address element that `ErrorIndication` makes from the text of the local address; `none` if
the text cannot be split (the function returns the error), `some none` for a nil element -/
def localGSN (laddr : UDPAddr) : Option (Option TLV.IE) :=
  (splitHostPort laddr.string).map (fun hp => TLV.newGSNAddressText1 hp.1)

/-- gtpv2/conn.go:669, with the text stored by gtpv2/session.go:57 and 105: is the sender the peer of the session? -/
def samePeer (sender peer : UDPAddr) : Bool := sender.string = peer.string

end Verif
