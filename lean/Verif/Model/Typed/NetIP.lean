import Verif.Base
/-
net.IP of the Go standard library: a byte slice; a nil slice is `[]`.  To4 and To16; the text form
(net.ParseIP, String) is in Model/IPText.lean.
-/
namespace Verif.NetIP

/-- the first twelve octets of an IPv4-mapped IPv6 address -/
def v4Prefix : Bytes := [0, 0, 0, 0, 0, 0, 0, 0, 0, 0, 0xff, 0xff]

/-- net.IP.To4; nil is `none` -/
def to4 (ip : Bytes) : Option Bytes :=
  if ip.length = 4 then some ip
  else if ip.length = 16 ∧ ip.take 12 = v4Prefix then some (ip.drop 12)
  else none

/-- net.IP.To16; nil is `none` -/
def to16 (ip : Bytes) : Option Bytes :=
  if ip.length = 4 then some (v4Prefix ++ ip)
  else if ip.length = 16 then some ip
  else none

/-- a nil or non-nil slice as a slice value -/
def ofOpt (o : Option Bytes) : Bytes := o.getD []

end Verif.NetIP
