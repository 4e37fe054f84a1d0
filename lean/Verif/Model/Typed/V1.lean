import Verif.Model.Typed.Identity
import Verif.Model.Typed.NetIP
import Verif.Model.Typed.Time
/-
The typed information elements of GTPv1 (gtpv1/ie/*.go) and GTPv0 (gtpv0/ie/*.go), apart from the identities
(Model/Typed/Identity.lean) and the protocol configuration options (Model/Typed/V1PCO.lean).

`none` is a nil IE.  An address given as text is represented by the result of net.ParseIP (`[]` for nil), and a text
`net.IP(x).String()` by the octets `x`; the texts are in Model/AddrText.lean.  Constructors fill the payload after `New` has set the length; the size of the payload
does not change by that, so the model gives `New` the filled payload.  The `Must...` variants ignore the error.
-/
namespace Verif.TLV
open Res Utils NetIP

variable (c : Cfg)

/-! ### elements holding one plain value -/

/-- a file `func NewX(v) *IE { return New(X, v) }`, `func (i *IE) X() { type check; length check; return value }` -/
structure Plain where
  name : String
  typ : UInt8
  deriving DecidableEq, Repr

/-- one octet: gtpv1/ie/cause.go, map-cause.go, recovery.go, nsapi.go, ranap-cause.go, apn-restriction.go (lines 10-24),
selection-mode.go:12-26, rat-type.go:10-27 -/
def plain8v1 : List Plain := [⟨"Cause", 1⟩, ⟨"MAPCause", 11⟩, ⟨"Recovery", 14⟩, ⟨"SelectionMode", 15⟩, ⟨"NSAPI", 20⟩,
  ⟨"RANAPCause", 21⟩, ⟨"APNRestriction", 149⟩, ⟨"RATType", 151⟩]
/-- one octet: gtpv0/ie/cause.go, recovery.go, ms-not-reachable-reason.go (lines 10-24), selection-mode.go:12-26 -/
def plain8v0 : List Plain := [⟨"Cause", 1⟩, ⟨"Recovery", 14⟩, ⟨"SelectionMode", 15⟩, ⟨"MSNotReachableReason", 19⟩]
/-- two octets: gtpv0/ie/flow-label.go:13-27, 37-51 -/
def plain16v0 : List Plain := [⟨"FlowLabelDataI", 16⟩, ⟨"FlowLabelSignalling", 17⟩]
/-- four octets: gtpv1/ie/charging-id.go:13-27, p-tmsi.go:13-27 -/
def plain32v1 : List Plain := [⟨"PacketTMSI", 5⟩, ⟨"ChargingID", 127⟩]
/-- four octets: gtpv0/ie/charging-id.go:13-27, p-tmsi.go:13-27, tlli.go:13-27 -/
def plain32v0 : List Plain := [⟨"TemporaryLogicalLinkIdentity", 4⟩, ⟨"PacketTMSI", 5⟩, ⟨"ChargingID", 127⟩]
/-- truth values: gtpv1/ie/reordering-required.go, ms-validated.go, teardown-ind.go (lines 8-25) -/
def plainBoolv1 : List Plain := [⟨"ReorderingRequired", 8⟩, ⟨"MSValidated", 13⟩, ⟨"TeardownInd", 19⟩]
/-- gtpv0/ie/reordering-required.go:8-25 -/
def plainBoolv0 : List Plain := [⟨"ReorderingRequired", 8⟩]
/-- octet strings: gtpv1/ie/extension-header-type-list.go:8-19, qos-profile.go:10-22 -/
def plainRawv1 : List Plain := [⟨"QoSProfile", 135⟩, ⟨"ExtensionHeaderTypeList", 141⟩]

/-- gtpv1/ie/ie.go:369-371, gtpv0/ie/ie.go:225-227 `newUint8ValIE` -/
def Plain.new8 (r : Plain) (v : UInt8) : IE := newIE c r.typ [v]
def Plain.get8 (r : Plain) (i : IE) : Res UInt8 :=
  if i.typ ≠ r.typ then err .invalidType
  else if i.payload.length = 0 then err .eof
  else idx i.payload 0

/-- gtpv0/ie/ie.go:229-233 `newUint16ValIE` -/
def Plain.new16 (r : Plain) (v : UInt16) : IE := newIE c r.typ (be16 v)
def Plain.get16 (r : Plain) (i : IE) : Res UInt16 :=
  if i.typ ≠ r.typ then err .invalidType
  else if i.payload.length < 2 then err .eof
  else rd16 i.payload

/-- gtpv1/ie/ie.go:380-384, gtpv0/ie/ie.go:235-239 `newUint32ValIE` -/
def Plain.new32 (r : Plain) (v : UInt32) : IE := newIE c r.typ (be32 v)
def Plain.get32 (r : Plain) (i : IE) : Res UInt32 :=
  if i.typ ≠ r.typ then err .invalidType
  else if i.payload.length < 4 then err .eof
  else rd32 i.payload

def Plain.newBool (r : Plain) (v : Bool) : IE := newIE c r.typ [if v then (0xff : UInt8) else 0xfe]
/-- `Payload[0]%2 == 1` or `Payload[0]&0x01 == 1`; false when type or length do not fit -/
def Plain.getBool (r : Plain) (i : IE) : Res Bool :=
  if i.typ ≠ r.typ then ok false
  else if i.payload.length = 0 then ok false
  else do
    let x ← idx i.payload 0
    ok (x % 2 == 1)

def Plain.newRaw (r : Plain) (v : Bytes) : IE := newIE c r.typ v
/-- also the accessors returning the whole payload of structured elements -/
def Plain.getRaw (r : Plain) (i : IE) : Res Bytes := if i.typ ≠ r.typ then err .invalidType else ok i.payload

/-! ### tunnel identifiers -/

/-- gtpv1/ie/teid.go:13-25 `NewTEIDDataI` (16), `NewTEIDCPlane` (17), `NewTEIDDataII` (18) -/
def newTEID (t : UInt8) (v : UInt32) : IE := newIE TLV.v1 t (be32 v)
/-- gtpv1/ie/teid.go:28-38 `TEID` -/
def IE.teid (i : IE) : Res UInt32 :=
  if i.payload.length < 4 then err .eof
  else if i.typ = 16 ∨ i.typ = 17 ∨ i.typ = 18 then rd32 i.payload
  else err .invalidType

/-- gtpv0/ie/flow-label.go:61-66 `NewFlowLabelDataII` -/
def newFlowLabelDataII (nsapi : UInt8) (label : UInt16) : IE := newIE TLV.v0 18 ((nsapi ||| (0xf0 : UInt8)) :: be16 label)
/-- gtpv0/ie/flow-label.go:84-95 `NSAPI` -/
def IE.nsapi0 (i : IE) : Res UInt8 :=
  if i.payload.length = 0 then err .eof
  else if i.typ = 18 then do
    let x ← idx i.payload 0
    ok (x &&& (0x0f : UInt8))
  else err .invalidType
/-- gtpv0/ie/flow-label.go:105-123 `FlowLabelData` -/
def IE.flowLabelData (i : IE) : Res UInt16 :=
  if i.payload.length < 2 then err .eof
  else if i.typ = 16 then Plain.get16 ⟨"FlowLabelDataI", 16⟩ i
  else if i.typ = 17 then Plain.get16 ⟨"FlowLabelSignalling", 17⟩ i
  else if i.typ = 18 then
    if i.payload.length < 3 then err .eof else do
    let s ← slice i.payload 1 3
    rd16 s
  else err .invalidType

/-! ### P-TMSI signature, private extension -/

/-- gtpv1/ie/p-tmsi-signature.go:14-16, gtpv0/ie/p-tmsi-signature.go:14-16 -/
def newPTMSISignature (v : UInt32) : IE := newIE c 12 (uint32To24 v)
/-- gtpv1/ie/p-tmsi-signature.go:19-28, gtpv0/ie/p-tmsi-signature.go:19-28 -/
def IE.ptmsiSignature (i : IE) : Res UInt32 :=
  if i.typ ≠ 12 then err .invalidType
  else if i.payload.length < 3 then err .eof
  else ok (uint24To32 i.payload)

/-- gtpv1/ie/private-extension.go:13-18, gtpv0/ie/private-extension.go:13-18 -/
def newPrivateExtension (id : UInt16) (val : Bytes) : IE := newIE c 255 (be16 id ++ val)
/-- private-extension.go:36-45 (both) `ExtensionIdentifier` -/
def IE.extensionIdentifier (i : IE) : Res UInt16 :=
  if i.typ ≠ 255 then err .invalidType
  else if i.payload.length < 2 then err .eof
  else do
    let s ← slice i.payload 0 2
    rd16 s
/-- private-extension.go:55-64 (both) `ExtensionValue` -/
def IE.extensionValue (i : IE) : Res Bytes :=
  if i.typ ≠ 255 then err .invalidType
  else if i.payload.length < 3 then err .eof
  else sliceFrom i.payload 2

/-! ### flags -/

/-- gtpv1/ie/common-flags.go:12-19 `NewCommonFlags` (148), extended-common-flags.go:12-19 `NewExtendedCommonFlags` (193); the
arguments are `int`, negative ones are not modelled -/
def newFlags8 (t : UInt8) (f7 f6 f5 f4 f3 f2 f1 f0 : Nat) : IE :=
  newIE TLV.v1 t [UInt8.ofNat (f7 <<< 7 ||| f6 <<< 6 ||| f5 <<< 5 ||| f4 <<< 4 ||| f3 <<< 3 ||| f2 <<< 2 ||| f1 <<< 1 ||| f0)]
/-- gtpv1/ie/extended-common-flags-ii.go:12-19 `NewExtendedCommonFlagsII` -/
def newFlagsII (f2 f1 f0 : Nat) : IE := newIE TLV.v1 218 [UInt8.ofNat (f2 <<< 2 ||| f1 <<< 1 ||| f0)]

/-- gtpv1/ie/common-flags.go:22-31, extended-common-flags.go:22-31, extended-common-flags-ii.go:22-31 -/
def IE.flags (t : UInt8) (i : IE) : Res UInt8 := Plain.get8 ⟨"flags", t⟩ i

/-- gtpv1/ie/common-flags.go:41-78, extended-common-flags.go:41-78, extended-common-flags-ii.go:41-53 `Is...`; flag number 0 is
read without a shift -/
def IE.isFlag (t k : UInt8) (i : IE) : Res Bool := do
  let x ← V2.must 0 (i.flags t)
  ok (((x >>> k) &&& (0x01 : UInt8)) != 0)

/-- a flag accessor: its name, the type it looks for and the shift it uses -/
structure Flag where
  name : String
  typ : UInt8
  shift : UInt8
  deriving DecidableEq, Repr

/-- the `Is...` accessors of gtpv1/ie/common-flags.go:41-78, extended-common-flags.go:41-78, extended-common-flags-ii.go:41-53 -/
def flagTab : List Flag := [
  ⟨"IsDualAddressBearer", 148, 7⟩, ⟨"IsUpgradeQoSSupported", 148, 6⟩, ⟨"IsNRSN", 148, 5⟩, ⟨"IsNoQoSNegotiation", 148, 4⟩,
  ⟨"IsMBMSCountingInformation", 148, 3⟩, ⟨"IsRANProceduresReady", 148, 2⟩, ⟨"IsMBMSServiceType", 148, 1⟩,
  ⟨"IsProhibitPayloadCompression", 148, 0⟩,
  ⟨"IsUASI", 193, 7⟩, ⟨"IsBDWI", 193, 6⟩, ⟨"IsPCRI", 193, 5⟩, ⟨"IsVB", 193, 4⟩, ⟨"IsRetLoc", 193, 3⟩, ⟨"IsCPSR", 193, 2⟩,
  ⟨"IsCCRSI", 193, 1⟩, ⟨"IsUnauthenticatedIMSI", 193, 0⟩,
  ⟨"IsPMTSMI", 218, 2⟩, ⟨"IsDTCI", 218, 1⟩, ⟨"IsPNSI", 218, 0⟩]
def Flag.get (f : Flag) (i : IE) : Res Bool := i.isFlag f.typ f.shift

/-! ### access point name -/

/-- gtpv1/ie/apn.go:13-24, gtpv0/ie/apn.go:13-24 `NewAccessPointName`: the loop of `EncodeFQDN`, on the payload -/
def newAPN (s : Bytes) : Res IE := do
  let b ← encodeFQDNLoop (splitDot s) 0 (List.replicate (s.length + 1) 0)
  ok (newIE c 131 b)

/-- gtpv1/ie/apn.go:37-45 -/
def apnLoop1 : Nat → Bytes → Nat → List Bytes → Res (List Bytes)
  | 0, _, _, _ => diverge
  | fuel + 1, b, off, acc =>
    if off < b.length then do
      let l ← idx b off
      if off + l.toNat + 1 > b.length then err .eof else
      let s ← slice b (off + 1) (off + l.toNat + 1)
      apnLoop1 fuel b (off + (l.toNat + 1)) (acc ++ [s])
    else ok acc
/-- gtpv1/ie/apn.go:27-48 `AccessPointName` -/
def IE.apn1 (i : IE) : Res Bytes :=
  if i.typ ≠ 131 then err .invalidType
  else do
    let ls ← apnLoop1 (i.payload.length + 1) i.payload 0 []
    ok (joinDot ls)

/-- gtpv0/ie/apn.go:40-48: the comparison is `>=` -/
def apnLoop0 : Nat → Bytes → Nat → List Bytes → Res (List Bytes)
  | 0, _, _, _ => diverge
  | fuel + 1, b, off, acc =>
    if off < b.length then do
      let l ← idx b off
      if off + l.toNat + 1 ≥ b.length then err .eof else
      let s ← slice b (off + 1) (off + l.toNat + 1)
      apnLoop0 fuel b (off + (l.toNat + 1)) (acc ++ [s])
    else ok acc
/-- gtpv0/ie/apn.go:27-51 `AccessPointName` -/
def IE.apn0 (i : IE) : Res Bytes :=
  if i.typ ≠ 131 then err .invalidType
  else if i.payload.length = 0 then err .eof
  else do
    let ls ← apnLoop0 (i.payload.length + 1) i.payload 0 []
    ok (joinDot ls)

/-! ### routeing area and location -/

/-- gtpv1/ie/rai.go:14-34 `NewRouteingAreaIdentity` -/
def newRAI1 (mcc mnc : Bytes) (lac : UInt16) (rac : UInt8) : Res (Option IE) :=
  match strToSwapped mcc [102] with
  | ok mc =>
    match strToSwapped mnc [102] with
    | ok mn => do
      let b := List.replicate 6 (0 : UInt8)
      let b ← copyAt b 0 2 mc
      let m0 ← idx mn 0
      let b ← setAt b 2 m0
      let b ← copyAt b 3 5 (be16 lac)
      let b ← setAt b 5 rac
      ok (some (newIE TLV.v1 3 b))
    | err _ => ok none
    | .panic => .panic
    | diverge => diverge
  | err _ => ok none
  | .panic => .panic
  | diverge => diverge

/-- gtpv0/ie/rai.go:15-30 `NewRouteingAreaIdentity` -/
def newRAI0 (mcc mnc : Bytes) (lac : UInt16) (rac : UInt8) : Res (Option IE) :=
  match encodePLMN mcc mnc with
  | ok p => do
    let b := List.replicate 6 (0 : UInt8)
    let b ← copyAt b 0 3 p
    let b ← copyAt b 3 5 (be16 lac)
    let b ← setAt b 5 rac
    ok (some (newIE TLV.v0 3 b))
  | err _ => ok none
  | .panic => .panic
  | diverge => diverge

/-- gtpv1/ie/uli.go:22-38 `NewUserLocationInformationWithCGI` (loc 0), :41-57 `...WithSAI` (loc 1) -/
def newULI8 (loc : UInt8) (mcc mnc : Bytes) (lac x : UInt16) : Res (Option IE) :=
  match encodePLMN mcc mnc with
  | ok p => do
    let b := List.replicate 8 (0 : UInt8)
    let b ← setAt b 0 loc
    let b ← copyAt b 1 4 p
    let b ← copyAt b 4 6 (be16 lac)
    let b ← copyAt b 6 8 (be16 x)
    ok (some (newIE TLV.v1 152 b))
  | err _ => ok none
  | .panic => .panic
  | diverge => diverge
/-- gtpv1/ie/uli.go:60-76 `NewUserLocationInformationWithRAI` -/
def newULIRAI (mcc mnc : Bytes) (lac : UInt16) (rac : UInt8) : Res (Option IE) :=
  match encodePLMN mcc mnc with
  | ok p => do
    let b := List.replicate 7 (0 : UInt8)
    let b ← setAt b 0 2
    let b ← copyAt b 1 4 p
    let b ← copyAt b 4 6 (be16 lac)
    let b ← setAt b 6 rac
    ok (some (newIE TLV.v1 152 b))
  | err _ => ok none
  | .panic => .panic
  | diverge => diverge

/-- gtpv1/ie/mcc-mnc.go:14-29 `MCC` -/
def IE.mcc1 (i : IE) : Res Bytes :=
  if i.typ = 3 then
    if i.payload.length < 2 then err .eof else do
    let s ← slice i.payload 0 2
    decodeMCC s
  else if i.typ = 152 then
    if i.payload.length < 3 then err .eof else do
    let s ← slice i.payload 1 3
    decodeMCC s
  else err .invalidType
/-- gtpv1/ie/mcc-mnc.go:39-54 `MNC` -/
def IE.mnc1 (i : IE) : Res Bytes :=
  if i.typ = 3 then
    if i.payload.length < 3 then err .eof else do
    let s ← slice i.payload 1 3
    decodeMNC s
  else if i.typ = 152 then
    if i.payload.length < 4 then err .eof else do
    let s ← slice i.payload 2 4
    decodeMNC s
  else err .invalidType
/-- gtpv1/ie/lac.go:13-28 `LAC` -/
def IE.lac1 (i : IE) : Res UInt16 :=
  if i.typ = 3 then
    if i.payload.length < 5 then err .eof else do
    let s ← slice i.payload 3 5
    rd16 s
  else if i.typ = 152 then
    if i.payload.length < 6 then err .eof else do
    let s ← slice i.payload 4 6
    rd16 s
  else err .invalidType
/-- gtpv1/ie/rac.go:10-26 `RAC` -/
def IE.rac1 (i : IE) : Res UInt8 :=
  if i.typ = 3 then
    if i.payload.length < 6 then err .eof else idx i.payload 5
  else if i.typ = 152 then
    if i.payload.length < 7 then err .eof else do
    let x ← idx i.payload 0
    if x = 2 then idx i.payload 6 else err .invalidType
  else err .invalidType
/-- gtpv1/ie/uli.go:94-109 `CGI` (loc 0), :119-134 `SAC` (loc 1) -/
def IE.cell (loc : UInt8) (i : IE) : Res UInt16 :=
  if i.typ ≠ 152 then err .invalidType
  else if i.payload.length < 2 then err .eof
  else do
    let x ← idx i.payload 0
    if x = loc then
      if i.payload.length < 8 then err .eof else do
      let s ← slice i.payload 6 8
      rd16 s
    else err .invalidType

/-- gtpv0/ie/rai.go:48-58 `MCC` -/
def IE.mcc0 (i : IE) : Res Bytes :=
  if i.typ = 3 then
    if i.payload.length < 2 then err .eof else do
    let s ← slice i.payload 0 2
    swappedToStr s false
  else err .invalidType
/-- gtpv0/ie/rai.go:68-78 `MNC` -/
def IE.mnc0 (i : IE) : Res Bytes :=
  if i.typ = 3 then
    if i.payload.length < 2 then err .eof else do
    let s ← slice i.payload 1 2
    swappedToStr s true
  else err .invalidType
/-- gtpv0/ie/rai.go:88-98 `LAC` -/
def IE.lac0 (i : IE) : Res UInt16 :=
  if i.typ = 3 then
    if i.payload.length < 5 then err .eof else do
    let s ← slice i.payload 3 5
    rd16 s
  else err .invalidType
/-- gtpv0/ie/rai.go:108-118 `RAC` -/
def IE.rac0 (i : IE) : Res UInt8 :=
  if i.typ = 3 then
    if i.payload.length < 6 then err .eof else idx i.payload 5
  else err .invalidType

/-! ### addresses -/

/-- gtpv1/ie/gsn-address.go:13-31 `NewGSNAddress`, `NewGSNAddressByIP` -/
def newGSNAddress1 (ip : Bytes) : Option IE :=
  if ip = [] then none else
  match to4 ip with
  | some v4 => some (newIE TLV.v1 133 v4)
  | none => some (newIE TLV.v1 133 ip)
/-- gtpv0/ie/gsn-address.go:13-23 (133), charging-gateway-address.go:13-23 (251) -/
def newAddress0 (t : UInt8) (ip : Bytes) : IE :=
  match to4 ip with
  | some v4 => newIE TLV.v0 t v4
  | none => newIE TLV.v0 t ip
/-- gtpv1/ie/gsn-address.go:34-43, gtpv0/ie/gsn-address.go:26-35 `GSNAddress` (133), gtpv0/ie/charging-gateway-address.go:26-35
`ChargingGatewayAddress` (251) -/
def IE.address (t : UInt8) (i : IE) : Res Bytes :=
  if i.typ ≠ t then err .invalidType
  else if i.payload.length < 4 then err .eof
  else ok i.payload

/-- end-user-address.go:65-75 (gtpv1), :57-67 (gtpv0) `newEUAddrV4` -/
def newEUAddrV4 (v4 : Bytes) : Res IE := do
  let b ← setAt (List.replicate 6 0) 0 0xf1
  let b ← setAt b 1 0x21
  let b ← copyFrom b 2 v4
  ok (newIE c 128 b)
/-- end-user-address.go:77-87 (gtpv1), :69-80 (gtpv0) `newEUAddrV6` -/
def newEUAddrV6 (v6 : Bytes) : Res IE := do
  let b ← setAt (List.replicate 18 0) 0 0xf1
  let b ← setAt b 1 0x57
  let b ← copyFrom b 2 v6
  ok (newIE c 128 b)
/-- end-user-address.go:90-97 (gtpv1), :83-90 (gtpv0) `NewEndUserAddressPPP` -/
def newEUAddrPPP : IE := newIE c 128 [0xf0, 0xf1]

/-- gtpv1/ie/end-user-address.go:30-43 `NewEndUserAddressByIP`, and `NewEndUserAddress` (:21-27) unless given "ppp" -/
def newEUAddr1 (ip : Bytes) : Res (Option IE) :=
  if ip = [] then ok none else
  match to4 ip with
  | some v4 => do ok (some (← newEUAddrV4 TLV.v1 v4))
  | none => do ok (some (← newEUAddrV6 TLV.v1 ip))
/-- gtpv0/ie/end-user-address.go:22-35 `NewEndUserAddress` unless given "ppp" -/
def newEUAddr0 (ip : Bytes) : Res (Option IE) :=
  match to4 ip with
  | some v4 => do ok (some (← newEUAddrV4 TLV.v0 v4))
  | none => do ok (some (← newEUAddrV6 TLV.v0 ip))
/-- end-user-address.go:46-53 (gtpv1), :38-45 (gtpv0) `NewEndUserAddressIPv4` -/
def newEUAddrIPv4 (ip : Bytes) : Res IE :=
  match to4 ip with
  | some v4 => newEUAddrV4 c v4
  | none => ok (newIE c 128 [0xf1, 0x21])
/-- end-user-address.go:56-63 (gtpv1), :48-55 (gtpv0) `NewEndUserAddressIPv6` -/
def newEUAddrIPv6 (ip : Bytes) : Res IE :=
  match to16 ip with
  | some v6 => newEUAddrV6 c v6
  | none => ok (newIE c 128 [0xf1, 0x57])

/-- end-user-address.go:115-124 (gtpv1), :108-117 (gtpv0) `PDPTypeOrganization` -/
def IE.pdpTypeOrganization (i : IE) : Res UInt8 := Plain.get8 ⟨"EndUserAddress", 128⟩ i
/-- end-user-address.go:134-143 (gtpv1), :127-136 (gtpv0) `PDPTypeNumber` -/
def IE.pdpTypeNumber (i : IE) : Res UInt8 :=
  if i.typ ≠ 128 then err .invalidType
  else if i.payload.length < 2 then err .eof
  else idx i.payload 1
/-- gtpv1/ie/ip.go:13-29 `IP`, :37-44 `IPAddress`; gtpv0/ie/end-user-address.go:146-165 `IPAddress` -/
def IE.ip (i : IE) : Res Bytes :=
  if i.payload.length < 4 then err .eof
  else if i.typ = 128 then do
    let o ← V2.must 0 i.pdpTypeOrganization
    if o ≠ 0xf1 then err .malformed else sliceFrom i.payload 2
  else if i.typ = 133 then ok i.payload
  else err .invalidType

/-! ### time -/

/-- gtpv1/ie/ms-timezone.go:21-33 `NewMSTimeZone` for an offset of `q` quarter hours (see Model/Typed/Time.lean) -/
def newMSTimeZone (q : Int) (dst : UInt8) : IE :=
  let a := q.natAbs
  let hex := UInt8.ofNat (((a % 10) <<< 4) ||| (a / 10))
  let hex := if q < 0 then hex ||| (0x08 : UInt8) else hex
  newIE TLV.v1 153 [hex, dst &&& (0x03 : UInt8)]
/-- gtpv1/ie/ms-timezone.go:36-51 `TimeZone` -/
def IE.timeZone (i : IE) : Res V2.Duration :=
  if i.typ ≠ 153 then err .invalidType
  else if i.payload.length = 0 then err .eof
  else do
    let x ← idx i.payload 0
    let u := x &&& (0xf7 : UInt8)
    let dec : Int := ((u >>> 4) + (u &&& (0x0f : UInt8)) * 10).toNat
    let dec := if (x &&& (0x08 : UInt8)) >>> 3 = 1 then -dec else dec
    ok (dec * 15 * V2.Duration.minute)
/-- gtpv1/ie/ms-timezone.go:61-70 `DaylightSaving` -/
def IE.daylightSaving (i : IE) : Res UInt8 :=
  if i.typ ≠ 153 then err .invalidType
  else if i.payload.length < 2 then err .eof
  else idx i.payload 1

/-- gtpv1/ie/uli-timestamp.go:14-17 `NewULITimestamp` for the time `sec` seconds and `ns` nanoseconds after 1970-01-01 -/
def newULITimestamp (sec : Int) (ns : Nat) : IE :=
  let d := V2.saturate ((sec + V2.epochDelta) * 1000000000 + ns)
  let u64 := (d % 2 ^ 64).toNat
  newIE TLV.v1 214 (be32 (UInt32.ofNat (u64 / 1000000000)))
/-- gtpv1/ie/uli-timestamp.go:20-31 `Timestamp`, as seconds after 1970-01-01 -/
def IE.timestamp (i : IE) : Res Int :=
  if i.payload.length < 4 then err .eof
  else if i.typ = 214 then do
    let v ← rd32 i.payload
    ok ((v - (2208988800 : UInt32)).toNat : Int)
  else err .invalidType

/-! ### authentication vectors -/

/-- gtpv1/ie/authentication-triplet.go:10-17 `NewAuthenticationTriplet` -/
def newTriplet (rand sres kc : Bytes) : Res IE := do
  let b := List.replicate 28 (0 : UInt8)
  let b ← copyAt b 0 16 rand
  let b ← copyAt b 16 20 sres
  let b ← copyAt b 20 28 kc
  ok (newIE TLV.v1 9 b)
/-- gtpv1/ie/authentication-triplet.go:35-45 `RAND` -/
def IE.rand (i : IE) : Res Bytes :=
  if i.typ = 9 ∨ i.typ = 136 then
    if i.payload.length < 16 then err .eof else slice i.payload 0 16
  else err .invalidType
/-- gtpv1/ie/authentication-triplet.go:55-65 `SRES` -/
def IE.sres (i : IE) : Res Bytes :=
  if i.typ = 9 then
    if i.payload.length < 20 then err .eof else slice i.payload 16 20
  else err .invalidType
/-- gtpv1/ie/authentication-triplet.go:75-85 `Kc` -/
def IE.kc (i : IE) : Res Bytes :=
  if i.typ = 9 then
    if i.payload.length < 28 then err .eof else slice i.payload 20 28
  else err .invalidType

/-- gtpv1/ie/authentication-quintuplet.go:10-29 `NewAuthenticationQuintuplet` -/
def newQuintuplet (rand xres ck ik autn : Bytes) : Res IE := do
  let b := List.replicate (16 + 1 + xres.length + 16 + 16 + 1 + autn.length) (0 : UInt8)
  let b ← copyAt b 0 16 rand
  let b ← setAt b 16 (UInt8.ofNat xres.length)
  let off := 17
  let b ← copyAt b off (off + xres.length) xres
  let off := off + xres.length
  let b ← copyAt b off (off + 16) ck
  let off := off + 16
  let b ← copyAt b off (off + 16) ik
  let off := off + 16
  let b ← setAt b off (UInt8.ofNat autn.length)
  let off := off + 1
  let b ← copyAt b off (off + autn.length) autn
  ok (newIE TLV.v1 136 b)
/-- gtpv1/ie/authentication-quintuplet.go:32-41 -/
def IE.quintuplet (i : IE) : Res Bytes :=
  if i.typ ≠ 136 then err .invalidType
  else if i.payload.length = 0 then err .eof
  else ok i.payload
/-- gtpv1/ie/authentication-quintuplet.go:51-70 `XRES` -/
def IE.xres (i : IE) : Res Bytes :=
  if i.payload.length = 0 then ok []
  else if i.typ = 136 then
    if i.payload.length < 17 then err .eof else do
    let n ← idx i.payload 16
    if i.payload.length < 17 + n.toNat then err .eof else slice i.payload 17 (17 + n.toNat)
  else err .invalidType
/-- gtpv1/ie/authentication-quintuplet.go:80-95 `CK` -/
def IE.ck (i : IE) : Res Bytes :=
  if i.typ = 136 then
    if i.payload.length < 18 then err .eof else do
    let n ← idx i.payload 16
    let off := 17 + n.toNat
    if i.payload.length < off + 16 then err .eof else slice i.payload off (off + 16)
  else err .invalidType
/-- gtpv1/ie/authentication-quintuplet.go:105-120 `IK` -/
def IE.ik (i : IE) : Res Bytes :=
  if i.typ = 136 then
    if i.payload.length < 34 then err .eof else do
    let n ← idx i.payload 16
    let off := 33 + n.toNat
    if i.payload.length < off + 16 then err .eof else slice i.payload off (off + 16)
  else err .invalidType
/-- gtpv1/ie/authentication-quintuplet.go:130-145 `AUTN` -/
def IE.autn (i : IE) : Res Bytes :=
  if i.typ = 136 then
    if i.payload.length < 50 then err .eof else do
    let n ← idx i.payload 16
    let off := 49 + n.toNat
    let k ← idx i.payload 50
    if i.payload.length < off + k.toNat then err .eof else slice i.payload off (off + k.toNat)
  else err .invalidType

/-! ### GTPv0 quality of service -/

/-- gtpv0/ie/qos-profile.go:10-17 `NewQualityOfServiceProfile` -/
def newQoS0 (delay reliability peak precedence mean : UInt8) : IE :=
  newIE TLV.v0 6 [((delay &&& (0x07 : UInt8)) <<< 3) ||| (reliability &&& (0x07 : UInt8)),
    ((peak &&& (0x0f : UInt8)) <<< 4) ||| (precedence &&& (0x07 : UInt8)), mean &&& (0x1f : UInt8)]
/-- gtpv0/ie/qos-profile.go:35-120: `QoSDelay` (0, 0x38), `QoSReliability` (0, 0x07), `QoSPeak` (1, 0xf0), `QoSPrecedence`
(1, 0x07), `QoSMean` (2, 0x0f): octet and mask -/
def IE.qos0 (k : Nat) (mask : UInt8) (i : IE) : Res UInt8 :=
  if i.typ ≠ 6 then err .invalidType
  else if i.payload.length < k + 1 then err .eof
  else do
    let x ← idx i.payload k
    ok (x &&& mask)
def IE.qosDelay (i : IE) : Res UInt8 := i.qos0 0 0x38
def IE.qosReliability (i : IE) : Res UInt8 := i.qos0 0 0x07
def IE.qosPeak (i : IE) : Res UInt8 := i.qos0 1 0xf0
def IE.qosPrecedence (i : IE) : Res UInt8 := i.qos0 1 0x07
def IE.qosMean (i : IE) : Res UInt8 := i.qos0 2 0x0f

end Verif.TLV
