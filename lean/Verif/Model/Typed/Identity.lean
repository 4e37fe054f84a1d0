import Verif.Model.Typed.Bits
import Verif.Model.V1IE
import Verif.Model.Utils
/-
Subscriber and equipment identities: gtpv2/ie/imsi.go, msisdn.go, mei.go; gtpv1/ie/imsi.go, msisdn.go, imei.go;
gtpv0/ie/imsi.go, msisdn.go.  `none` is a nil IE.
-/
namespace Verif

/-- strings.TrimSuffix(s, "f") (standard library) -/
def trimF (s : Bytes) : Bytes := if s.getLast? = some 102 then s.dropLast else s

namespace V2
open Res Utils

/-- the constructors `NewIMSI` (imsi.go:14-21), `NewMSISDN` (msisdn.go:15-21), `NewMobileEquipmentIdentity` (mei.go:15-21)
differ in the type only -/
def newDigits (t : UInt8) (s : Bytes) : Res (Option IE) :=
  match strToSwapped s [102] with
  | ok b => ok (some (newIE t 0 b))
  | err _ => ok none
  | .panic => .panic
  | diverge => diverge

/-- imsi.go:14-21 `NewIMSI` -/
def newIMSI (s : Bytes) : Res (Option IE) := newDigits 1 s
/-- msisdn.go:15-21 `NewMSISDN` -/
def newMSISDN (s : Bytes) : Res (Option IE) := newDigits 76 s
/-- mei.go:15-21 `NewMobileEquipmentIdentity` -/
def newMEI (s : Bytes) : Res (Option IE) := newDigits 75 s

/-- imsi.go:24-33 `IMSI` -/
def IE.imsi (i : IE) : Res Bytes :=
  if i.typ ≠ 1 then err .invalidType
  else if i.payload.length < 1 then err .eof
  else swappedToStr i.payload true

/-- msisdn.go:24-34 `MSISDN` -/
def IE.msisdn (i : IE) : Res Bytes :=
  if i.typ ≠ 76 then err .invalidType
  else if i.payload.length < 1 then err .eof
  else do
    let s ← swappedToStr i.payload false
    ok (trimF s)

/-- mei.go:25-35 `MobileEquipmentIdentity` -/
def IE.mei (i : IE) : Res Bytes :=
  if i.typ ≠ 75 then err .invalidType
  else if i.payload.length < 1 then err .eof
  else do
    let s ← swappedToStr i.payload false
    ok (trimF s)

end V2

namespace TLV
open Res Utils
variable (c : Cfg)

/-- gtpv1/ie/imsi.go:14-20 `NewIMSI` -/
def newIMSI (s : Bytes) : Res (Option IE) :=
  match strToSwapped s [102] with
  | ok b => ok (some (newIE c 2 b))
  | err _ => ok none
  | .panic => .panic
  | diverge => diverge

/-- gtpv0/ie/imsi.go:14-20 `NewIMSI`: an empty IE instead of nil -/
def newIMSI0 (s : Bytes) : Res (Option IE) :=
  match strToSwapped s [102] with
  | ok b => ok (some (newIE c 2 b))
  | err _ => ok (some (newIE c 2 []))
  | .panic => .panic
  | diverge => diverge

/-- gtpv1/ie/imsi.go:23-32, gtpv0/ie/imsi.go:23-32 `IMSI` -/
def IE.imsi (i : IE) : Res Bytes :=
  if i.typ ≠ 2 then err .invalidType
  else if i.payload.length = 0 then err .eof
  else swappedToStr i.payload true

/-- gtpv1/ie/msisdn.go:14-20, gtpv0/ie/msisdn.go:14-20 `NewMSISDN`: nature of address 0x91 is put in front -/
def newMSISDN (s : Bytes) : Res (Option IE) :=
  match strToSwapped ([49, 57] ++ s) [102] with
  | ok b => ok (some (newIE c 134 b))
  | err _ => ok none
  | .panic => .panic
  | diverge => diverge

/-- gtpv1/ie/msisdn.go:23-32, gtpv0/ie/msisdn.go:23-32 `MSISDN` -/
def IE.msisdn (i : IE) : Res Bytes :=
  if i.typ ≠ 134 then err .invalidType
  else if i.payload.length < 2 then err .eof
  else do
    let p ← sliceFrom i.payload 1
    swappedToStr p false

/-- gtpv1/ie/imei.go:15-21 `NewIMEISV` -/
def newIMEISV (s : Bytes) : Res (Option IE) :=
  match strToSwapped s [102] with
  | ok b => ok (some (newIE c 154 b))
  | err _ => ok none
  | .panic => .panic
  | diverge => diverge

/-- gtpv1/ie/imei.go:24-33 `IMEISV` -/
def IE.imeisv (i : IE) : Res Bytes :=
  if i.typ ≠ 154 then err .invalidType
  else if i.payload.length = 0 then err .eof
  else do
    let s ← swappedToStr i.payload false
    ok (trimF s)

end TLV
end Verif
