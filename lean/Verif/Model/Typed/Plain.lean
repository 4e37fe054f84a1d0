import Verif.Model.Typed.QoS
/-
Information elements of GTPv2 holding one plain value: gtpv2/ie/apn.go, apn-restriction.go, charging-characteristics.go,
charging-id.go, cmi.go, csg-id.go, detach-type.go, ebi.go, fqdn.go, hop-counter.go, integer-number.go, ldn.go, node-type.go,
p-tmsi.go, p-tmsi-signature.go, pdn-type.go, port-number.go, private-extension.go, pti.go, rat-type.go, recovery.go,
rfsp-index.go, selection-mode.go, service-indicator.go, tmsi.go.

Most of these files are copies of each other: `func NewX(v) *IE { return NewUint8IE(X, v) }` and
`func (i *IE) X() (uint8, error) { if i.Type != X { return 0, &InvalidTypeError{} }; return i.ValueAsUint8() }`.
Such a file is one row of the tables `plain8`, `plain16`, `plain32`, `plainStr`, `plainName`.
-/
namespace Verif.V2
open Res Utils

variable (g : UInt8 → Bool)

/-- ie.go:375-377 `NewFQDNIE` -/
def newFQDNIE (t : UInt8) (v : Bytes) : Res IE := do
  let b ← encodeFQDN v
  ok (newIE t 0 b)

/-- ie.go:437-443 `ValueAsFQDN` -/
def IE.valueAsFQDN (i : IE) : Res Bytes :=
  if g i.typ then err .invalidType else decodeFQDN i.payload

/-- a row: name, the type given to the constructor and the types the accessor accepts -/
structure Plain where
  name : String
  ctor : UInt8
  acc : List UInt8
  deriving DecidableEq, Repr

/-- the files with a one octet value (lines 8-10 constructor, 13-18 or 13-20 accessor of each); cmi.go:10-27 accepts a second
type, read from another place, see `IE.cmi`; pdn-type.go:13-20 accepts two types -/
def plain8 : List Plain := [
  ⟨"Recovery", 3, [3]⟩,                           -- recovery.go:8-18
  ⟨"RATType", 82, [82]⟩,                          -- rat-type.go:8-20
  ⟨"PDNType", 99, [99, 79]⟩,                      -- pdn-type.go:8-20
  ⟨"ProcedureTransactionID", 100, [100]⟩,         -- pti.go:8-18
  ⟨"HopCounter", 113, [113]⟩,                     -- hop-counter.go:8-18
  ⟨"APNRestriction", 127, [127]⟩,                 -- apn-restriction.go:8-20, 29-31
  ⟨"SelectionMode", 128, [128]⟩,                  -- selection-mode.go:8-18
  ⟨"NodeType", 135, [135]⟩,                       -- node-type.go:8-18
  ⟨"RFSPIndex", 144, [144]⟩,                      -- rfsp-index.go:8-18
  ⟨"ServiceIndicator", 149, [149]⟩,               -- service-indicator.go:8-18
  ⟨"DetachType", 150, [150]⟩,                     -- detach-type.go:8-18
  ⟨"NodeFeatures", 152, [152]⟩]                   -- node-features.go:8-18

/-- the files with a two octet value -/
def plain16 : List Plain := [
  ⟨"ChargingCharacteristics", 95, [95]⟩,          -- charging-characteristics.go:8-18
  ⟨"PortNumber", 126, [126]⟩,                     -- port-number.go:8-20
  ⟨"IntegerNumber", 187, [187]⟩]                  -- integer-number.go:8-20

/-- the files with a four octet value -/
def plain32 : List Plain := [
  ⟨"TMSI", 88, [88]⟩,                             -- tmsi.go:8-20
  ⟨"PacketTMSI", 111, [111]⟩]                     -- p-tmsi.go:8-18

/-- string -/
def plainStr : List Plain := [⟨"LocalDistinguishedName", 151, [151]⟩]       -- ldn.go:8-18

/-- names encoded as labels -/
def plainName : List Plain := [
  ⟨"AccessPointName", 71, [71]⟩,                  -- apn.go:8-18
  ⟨"FullyQualifiedDomainName", 136, [136]⟩]       -- fqdn.go:8-18

/-- the test of the type in front of every accessor -/
def Plain.read {α : Type} (r : Plain) (i : IE) (k : Res α) : Res α :=
  if r.acc.contains i.typ then k else err .invalidType

def Plain.new8 (r : Plain) (v : UInt8) : IE := newUint8IE r.ctor v
def Plain.get8 (r : Plain) (i : IE) : Res UInt8 := r.read i (i.valueAsUint8 g)
def Plain.new16 (r : Plain) (v : UInt16) : IE := newUint16IE r.ctor v
def Plain.get16 (r : Plain) (i : IE) : Res UInt16 := r.read i (i.valueAsUint16 g)
def Plain.new32 (r : Plain) (v : UInt32) : IE := newUint32IE r.ctor v
def Plain.get32 (r : Plain) (i : IE) : Res UInt32 := r.read i (i.valueAsUint32 g)
def Plain.newStr (r : Plain) (v : Bytes) : IE := newStringIE r.ctor v
def Plain.getStr (r : Plain) (i : IE) : Res Bytes := r.read i (i.valueAsString g)
def Plain.newName (r : Plain) (v : Bytes) : Res IE := newFQDNIE r.ctor v
def Plain.getName (r : Plain) (i : IE) : Res Bytes := r.read i (i.valueAsFQDN g)

/-- the loop over the children of a Bearer Context IE, common to charging-id.go:17-28, ebi.go:17-28, bearer-flags.go:19-30,
cause.go:32-43, ran-nas-cause.go:28-39: the first child of type `t` is read with `f` -/
def inBearer {α : Type} (i : IE) (t : UInt8) (f : IE → Res α) : Res α := do
  let ies ← i.bearerContext g
  match ies.find? (fun c => c.typ == t) with
  | some c => f c
  | none => err .notFound

/-- charging-id.go:8-10 -/
def newChargingID (v : UInt32) : IE := newUint32IE 94 v
/-- charging-id.go:13-32 `ChargingID`; the child found has type 94, so the recursive call reads its value -/
def IE.chargingID (i : IE) : Res UInt32 :=
  if i.typ = 94 then i.valueAsUint32 g
  else if i.typ = 93 then inBearer g i 94 (fun c => c.valueAsUint32 g)
  else err .invalidType

/-- ebi.go:8-10 -/
def newEBI (v : UInt8) : IE := newUint8IE 73 (v &&& 0x0f)
/-- ebi.go:13-32 `EPSBearerID` -/
def IE.ebi (i : IE) : Res UInt8 :=
  if i.typ = 73 then i.valueAsUint8 g
  else if i.typ = 93 then inBearer g i 73 (fun c => c.valueAsUint8 g)
  else err .invalidType

/-- p-tmsi-signature.go:14-16 -/
def newPTMSISignature (v : UInt32) : IE := newIE 112 0 (uint32To24 v)
/-- p-tmsi-signature.go:19-28 -/
def IE.ptmsiSignature (i : IE) : Res UInt32 :=
  if i.typ ≠ 112 then err .invalidType
  else if i.payload.length < 1 then err .eof
  else ok (uint24To32 i.payload)

/-- csg-id.go:13-15 -/
def newCSGID (v : UInt32) : IE := newUint32IE 147 (v &&& 0x7ffffff)
/-- csg-id.go:18-30 -/
def IE.csgID (i : IE) : Res UInt32 :=
  if i.typ = 147 then i.valueAsUint32 g
  else if i.typ = 145 then
    if i.payload.length < 7 then err .eof else do
    let s ← slice i.payload 3 7
    let v ← rd32 s
    ok (v &&& 0x7ffffff)
  else err .invalidType

/-- cmi.go:10-12 -/
def newCMI (v : UInt8) : IE := newUint8IE 148 v
/-- cmi.go:15-27 -/
def IE.cmi (i : IE) : Res UInt8 :=
  if i.typ = 148 then i.valueAsUint8 g
  else if i.typ = 145 then
    if i.payload.length < 8 then err .eof else idx i.payload 7
  else err .invalidType

/-- private-extension.go:13-18 `NewPrivateExtension`: the payload of `New(t, 0, make([]byte, 2+len(value)))` is filled after
the length was set, which does not change its size -/
def newPrivateExtension (id : UInt16) (value : Bytes) : Res IE := do
  let b := List.replicate (2 + value.length) (0 : UInt8)
  let b ← copyAt b 0 2 (be16 id)
  let b ← copyFrom b 2 value
  ok (newIE 255 0 b)
/-- private-extension.go:21-31 -/
def IE.enterpriseID (i : IE) : Res UInt16 :=
  if i.typ ≠ 255 then err .invalidType
  else if i.payload.length < 2 then err .eof
  else do
    let s ← slice i.payload 0 2
    rd16 s
/-- private-extension.go:41-50 -/
def IE.privateExtension (i : IE) : Res Bytes :=
  if i.typ ≠ 255 then err .invalidType
  else if i.payload.length < 3 then err .eof
  else sliceFrom i.payload 2

/-! ### one-octet flag elements -/

/-- node-features.go:13-18 `NodeFeatures` -/
def IE.nodeFeatures (i : IE) : Res UInt8 := if i.typ ≠ 152 then err .invalidType else i.valueAsUint8 g

/-- the flag accessors: `v, err := i.X(); if err != nil { return false }; return test(v)` -/
def flagOf (r : Res UInt8) (test : UInt8 → Bool) : Res Bool :=
  match r with
  | ok v => ok (test v)
  | err _ => ok false
  | .panic => .panic
  | diverge => diverge

/-- node-features.go:27-94 `HasPRN`, `HasMABR`, `HasNTSR`, `HasCIOT`, `HasS1UN`, `HasETH`, `HasMTEDT` in this order -/
def IE.nodeFeatureFlags (i : IE) : List (Res Bool) :=
  [has1stBit, has2ndBit, has3rdBit, has4thBit, has5thBit, has6thBit, has7thBit].map (flagOf (i.nodeFeatures g))

/-- mbms-flags.go:8-12 `NewMBMSFlags` -/
def newMBMSFlags (lmri msri : UInt8) : IE :=
  newIE 171 0 [(0 : UInt8) ||| (((lmri <<< 1) &&& (0x02 : UInt8)) ||| (msri &&& (0x01 : UInt8)))]
/-- mbms-flags.go:15-20 `MBMSFlags` -/
def IE.mbmsFlags (i : IE) : Res UInt8 := if i.typ ≠ 171 then err .invalidType else i.valueAsUint8 g
/-- mbms-flags.go:30-37 `HasMSRI` -/
def IE.hasMSRI (i : IE) : Res Bool := flagOf (i.mbmsFlags g) has1stBit
/-- mbms-flags.go:40-47 `HasLMRI` -/
def IE.hasLMRI (i : IE) : Res Bool := flagOf (i.mbmsFlags g) has2ndBit
/-- mbms-flags.go:51-57 `LocalMBMSBearerContextRelease` -/
def IE.localMBMSRelease (i : IE) : Res Bool := flagOf (i.mbmsFlags g) (fun v => (v &&& (0x02 : UInt8)) == 1)
/-- mbms-flags.go:61-67 `MBMSSessionReEstablishment` -/
def IE.mbmsReEstablishment (i : IE) : Res Bool := flagOf (i.mbmsFlags g) (fun v => (v &&& (0x01 : UInt8)) == 1)

/-- bearer-flags.go:8-12 `NewBearerFlags` -/
def newBearerFlags (asi vInd vb ppc : UInt8) : IE :=
  newIE 97 0 [(0 : UInt8) ||| (((asi <<< 3) &&& (0x08 : UInt8)) ||| ((vInd <<< 2) &&& (0x04 : UInt8)) |||
    ((vb <<< 1) &&& (0x02 : UInt8)) ||| (ppc &&& (0x01 : UInt8)))]
/-- bearer-flags.go:15-34 `BearerFlags` -/
def IE.bearerFlags (i : IE) : Res UInt8 :=
  if i.typ = 97 then i.valueAsUint8 g
  else if i.typ = 93 then inBearer g i 97 (fun c => c.valueAsUint8 g)
  else err .invalidType
/-- bearer-flags.go:44-51 -/
def IE.hasPPC (i : IE) : Res Bool := flagOf (i.bearerFlags g) has1stBit
/-- bearer-flags.go:54-61 -/
def IE.hasVB (i : IE) : Res Bool := flagOf (i.bearerFlags g) has2ndBit
/-- bearer-flags.go:64-71 -/
def IE.hasVind (i : IE) : Res Bool := flagOf (i.bearerFlags g) has3rdBit
/-- bearer-flags.go:74-81 -/
def IE.hasASI (i : IE) : Res Bool := flagOf (i.bearerFlags g) has4thBit
/-- bearer-flags.go:85-91 `ActivityStatusIndicator` -/
def IE.activityStatus (i : IE) : Res Bool := flagOf (i.bearerFlags g) (fun v => (v &&& (0x08 : UInt8)) == 1)
/-- bearer-flags.go:95-101 `VSRVCC` -/
def IE.vsrvcc (i : IE) : Res Bool := flagOf (i.bearerFlags g) (fun v => (v &&& (0x04 : UInt8)) == 1)
/-- bearer-flags.go:104-110 `VoiceBearer` -/
def IE.voiceBearer (i : IE) : Res Bool := flagOf (i.bearerFlags g) (fun v => (v &&& (0x02 : UInt8)) == 1)
/-- bearer-flags.go:114-120 `ProhibitPayloadCompression` -/
def IE.prohibitCompression (i : IE) : Res Bool := flagOf (i.bearerFlags g) (fun v => (v &&& (0x01 : UInt8)) == 1)

/-! ### Cause -/

/-- cause.go:13-25 `NewCause`; the offending IE contributes its type only -/
def newCause (cause pce bce cs : UInt8) (offending : Option IE) : IE :=
  let p := [cause, ((pce <<< 2) &&& (0x04 : UInt8)) ||| ((bce <<< 1) &&& (0x02 : UInt8)) ||| (cs &&& (0x01 : UInt8))]
  match offending with
  | none => newIE 2 0 p
  | some o => newIE 2 0 (p ++ [o.typ, 0, 0, 0])

/-- cause.go:28-47 `Cause` -/
def IE.cause (i : IE) : Res UInt8 :=
  if i.typ = 2 then i.valueAsUint8 g
  else if i.typ = 93 then inBearer g i 2 (fun c => c.valueAsUint8 g)
  else err .invalidType

/-- cause.go:57-80 `CauseFlags`: for a Bearer Context it calls `child.Cause()` -/
def IE.causeFlags (i : IE) : Res UInt8 :=
  if i.typ = 2 then
    if i.payload.length < 2 then err .eof else idx i.payload 1
  else if i.typ = 93 then inBearer g i 2 (fun c => c.valueAsUint8 g)
  else err .invalidType

/-- cause.go:90-97 `HasCS` -/
def IE.hasCS (i : IE) : Res Bool := flagOf (i.causeFlags g) has2ndBit
/-- cause.go:100-107 `HasBCE` -/
def IE.hasBCE (i : IE) : Res Bool := flagOf (i.causeFlags g) has1stBit
/-- cause.go:110-117 `HasPCE` -/
def IE.hasPCE (i : IE) : Res Bool := flagOf (i.causeFlags g) has3rdBit

/-- cause.go:120-165: type, length, then one bit of the second octet -/
def causeBit (i : IE) (test : UInt8 → Bool) : Res Bool :=
  if i.typ ≠ 2 then ok false
  else if i.payload.length < 2 then ok false
  else do
    let v ← idx i.payload 1
    ok (test v)
/-- cause.go:120-133 `IsRemoteCause` -/
def IE.isRemoteCause (i : IE) : Res Bool := causeBit i (fun v => ((v >>> 2) &&& (0x01 : UInt8)) == 1)
/-- cause.go:136-149 `IsBearerContextIEError` -/
def IE.isBearerContextIEError (i : IE) : Res Bool := causeBit i (fun v => ((v >>> 1) &&& (0x01 : UInt8)) == 1)
/-- cause.go:152-165 `IsPDNConnectionIEError` -/
def IE.isPDNConnectionIEError (i : IE) : Res Bool := causeBit i (fun v => (v &&& (0x01 : UInt8)) == 1)

/-- cause.go:170-180 `OffendingIE` -/
def IE.offendingIE (i : IE) : Res IE :=
  if i.typ ≠ 2 then err .invalidType
  else if i.payload.length < 6 then err .eof
  else do
    let s ← slice i.payload 2 6
    parse g s

/-! ### RAN/NAS cause, paging and service information -/

/-- ran-nas-cause.go:46-50 -/
structure RANNAS where
  proto : UInt8
  ctype : UInt8
  cause : Bytes
  deriving DecidableEq, Repr

/-- ran-nas-cause.go:72-86 `MarshalTo` -/
def RANNAS.marshalTo (f : RANNAS) (b : Bytes) : Res Bytes := do
  if b.length < 1 then err .eof else
  let b ← setAt b 0 (((f.proto &&& (0x0f : UInt8)) <<< 4) ||| (f.ctype &&& (0x0f : UInt8)))
  if b.length < 1 + f.cause.length then err .eof else
  copyFrom b 1 f.cause

/-- ran-nas-cause.go:62-69, 113-115 `Marshal`, `MarshalLen` -/
def RANNAS.marshal (f : RANNAS) : Res Bytes := f.marshalTo (List.replicate (1 + f.cause.length) 0)

/-- ran-nas-cause.go:89-110 `ParseRANNASCauseFields` -/
def parseRANNAS (b : Bytes) : Res RANNAS := do
  if b.length < 2 then err .eof else
  let x ← idx b 0
  let c ← sliceFrom b 1
  ok ⟨(x &&& (0xf0 : UInt8)) >>> 4, x &&& (0x0f : UInt8), c⟩

/-- ran-nas-cause.go:13-21 `NewRANNASCause` -/
def newRANNAS (p t : UInt8) (c : Bytes) : Res (Option IE) := build 172 (RANNAS.marshal ⟨p, t, c⟩)

/-- ran-nas-cause.go:24-43 `RANNASCause` -/
def IE.ranNAS (i : IE) : Res RANNAS :=
  if i.typ = 172 then parseRANNAS i.payload
  else if i.typ = 93 then inBearer g i 172 (fun c => parseRANNAS c.payload)
  else err .invalidType

/-- paging-and-service-information.go:33-37 -/
structure Paging where
  ebi : UInt8
  flags : UInt8
  ppi : UInt8
  deriving DecidableEq, Repr

/-- paging-and-service-information.go:107-113 `MarshalLen` -/
def Paging.marshalLen (f : Paging) : Nat := 2 + (if has1stBit f.flags then 1 else 0)

/-- paging-and-service-information.go:59-75 `MarshalTo` -/
def Paging.marshalTo (f : Paging) (b : Bytes) : Res Bytes := do
  if b.length < 2 then err .eof else
  let b ← setAt b 0 (f.ebi &&& 0x0f)
  let b ← setAt b 1 f.flags
  if has1stBit f.flags then
    if b.length < 3 then err .eof else setAt b 2 (f.ppi &&& 0x7f)
  else ok b

/-- paging-and-service-information.go:49-56 `Marshal` -/
def Paging.marshal (f : Paging) : Res Bytes := f.marshalTo (List.replicate f.marshalLen 0)

/-- paging-and-service-information.go:12-20, 40-46 `NewPagingAndServiceInformation` -/
def newPaging (ebi flags ppi : UInt8) : Res (Option IE) := build 186 (Paging.marshal ⟨ebi &&& 0x0f, flags, ppi &&& 0x7f⟩)

/-- paging-and-service-information.go:78-104 `ParsePagingAndServiceInformationFields`: the flags are taken from the first octet -/
def parsePaging (b : Bytes) : Res Paging := do
  if b.length < 2 then err .eof else
  let x ← idx b 0
  if has1stBit x then
    if b.length < 3 then err .eof else do
    let p ← idx b 2
    ok ⟨x &&& 0x0f, x, p &&& 0x7f⟩
  else ok ⟨x &&& 0x0f, x, 0⟩

/-- paging-and-service-information.go:23-30 -/
def IE.paging (i : IE) : Res Paging := if i.typ = 186 then parsePaging i.payload else err .invalidType

/-- paging-and-service-information.go:116-132 `PagingPolicyIndication` -/
def IE.pagingPolicy (i : IE) : Res UInt8 :=
  if i.typ = 186 then do
    let f ← parsePaging i.payload
    if has1stBit f.flags = false then err .notFound else ok f.ppi
  else err .invalidType

end Verif.V2
