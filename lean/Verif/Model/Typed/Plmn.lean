import Verif.Model.Typed.Plain
import Verif.Model.Typed.ULI
/-
Elements with a PLMN in front: gtpv2/ie/plmn-id.go, serving-nw.go, global-cn-id.go, trace-reference.go, uci.go, guti.go; and
fq-csid.go.  The accessors `MCC` and `MNC` of mcc-mnc.go are `IE.plmn` in Model/Typed/ULI.lean.
-/
namespace Verif.V2
open Res Utils NetIP

/-! ### PLMN ID, Serving Network -/

/-- plmn-id.go:14-21 `NewPLMNID` (type 120), serving-nw.go:14-21 `NewServingNetwork` (type 83) -/
def newPLMN (t : UInt8) (mcc mnc : Bytes) : Res (Option IE) := build t (encodePLMN mcc mnc)

/-- plmn-id.go:24-38 `PLMNID` (type 120), serving-nw.go:24-38 `ServingNetwork` (type 83): MCC and MNC in one string -/
def IE.plmnString (t : UInt8) (i : IE) : Res Bytes :=
  if i.typ ≠ t then err .invalidType
  else if i.payload.length < 3 then err .eof
  else do
    let (mcc, mnc) ← decodePLMN i.payload
    ok (mcc ++ mnc)

/-! ### Global CN-ID -/

/-- global-cn-id.go:15-26 `NewGlobalCNID`; the payload has five octets, whatever is copied into it -/
def newGlobalCNID (mcc mnc : Bytes) (cnid : UInt16) : Res (Option IE) :=
  build 89 (do
    let plmn ← encodePLMN mcc mnc
    let b ← copyAt (List.replicate 5 0) 0 3 plmn
    copyAt b 3 5 (be16 (cnid &&& 0xfff)))

/-- global-cn-id.go:29-39 `CNID` -/
def IE.cnid (i : IE) : Res UInt16 :=
  if i.payload.length < 5 then err .eof
  else if i.typ = 89 then do
    let s ← slice i.payload 3 5
    rd16 s
  else err .invalidType

/-! ### Trace Reference -/

/-- trace-reference.go:25-28 -/
structure Trace where
  mcc : Bytes
  mnc : Bytes
  id : UInt32
  deriving DecidableEq, Repr

/-- trace-reference.go:50-68 `MarshalTo` -/
def Trace.marshalTo (f : Trace) (b : Bytes) : Res Bytes := do
  if b.length < 3 then err .eof else
  let plmn ← encodePLMN f.mcc f.mnc
  let b ← copyAt b 0 3 plmn
  if b.length < 6 then err .eof else
  copyAt b 3 6 (uint32To24 f.id)

/-- trace-reference.go:14-22, 40-47, 102-104 `NewTraceReference`, `Marshal`, `MarshalLen` -/
def newTrace (mcc mnc : Bytes) (id : UInt32) : Res (Option IE) :=
  build 115 (Trace.marshalTo ⟨mcc, mnc, id⟩ (List.replicate 6 0))

/-- trace-reference.go:71-99 `ParseTraceReferenceFields` -/
def parseTrace (b : Bytes) : Res Trace := do
  if b.length < 3 then err .eof else
  let s ← slice b 0 3
  let (mcc, mnc) ← decodePLMN s
  if b.length < 6 then err .eof else
  let t ← slice b 3 6
  ok ⟨mcc, mnc, uint24To32 t⟩

/-- trace-reference.go:107-117 `TraceID`: TraceReference 115, TraceInformation 96 -/
def IE.traceID (i : IE) : Res UInt32 :=
  if i.typ = 115 ∨ i.typ = 96 then
    if i.payload.length < 6 then err .eof else do
    let t ← slice i.payload 3 6
    ok (uint24To32 t)
  else err .invalidType

/-! ### User CSG Information -/

/-- uci.go:36-41 -/
structure UCI where
  mcc : Bytes
  mnc : Bytes
  csg : UInt32
  mode : UInt8
  flags : UInt8
  deriving DecidableEq, Repr

/-- uci.go:65-85 `MarshalTo` -/
def UCI.marshalTo (f : UCI) (b : Bytes) : Res Bytes := do
  if b.length < 3 then err .eof else
  let plmn ← encodePLMN f.mcc f.mnc
  let b ← copyAt b 0 3 plmn
  if b.length < 8 then err .eof else
  let b ← copyAt b 3 7 (be32 (f.csg &&& 0x7ffffff))
  setAt b 7 (((f.mode &&& (0x03 : UInt8)) <<< 6) ||| f.flags)

/-- uci.go:15-23, 44-62, 122-124 `NewUserCSGInformation`, `NewUserCSGInformationFields`, `Marshal`, `MarshalLen` -/
def newUCI (mcc mnc : Bytes) (csg : UInt32) (mode lcsg cmi : UInt8) : Res (Option IE) :=
  build 145 (UCI.marshalTo ⟨mcc, mnc, csg, mode, ((lcsg <<< 1) &&& (0x02 : UInt8)) ||| (cmi &&& (0x01 : UInt8))⟩
    (List.replicate 8 0))

/-- uci.go:88-119 `ParseUserCSGInformationFields` -/
def parseUCI (b : Bytes) : Res UCI := do
  if b.length < 3 then err .eof else
  let s ← slice b 0 3
  let (mcc, mnc) ← decodePLMN s
  if b.length ≤ 7 then err .eof else
  let c ← slice b 3 7
  let v ← rd32 c
  let x ← idx b 7
  ok ⟨mcc, mnc, v &&& 0x7ffffff, x >>> 6, x &&& (0x03 : UInt8)⟩

/-- uci.go:26-33 -/
def IE.uci (i : IE) : Res UCI := if i.typ = 145 then parseUCI i.payload else err .invalidType

/-- uci.go:127-137 `AccessMode` -/
def IE.accessMode (i : IE) : Res UInt8 :=
  if i.typ = 145 then
    if i.payload.length < 8 then err .eof else do
    let x ← idx i.payload 7
    ok (x >>> 6)
  else err .invalidType

/-! ### GUTI -/

/-- guti.go:36-41 -/
structure GUTI where
  mcc : Bytes
  mnc : Bytes
  group : UInt16
  code : UInt8
  mtmsi : UInt32
  deriving DecidableEq, Repr

/-- guti.go:65-85 `MarshalTo`: an error of the PLMN encoder is not passed on -/
def GUTI.marshalTo (f : GUTI) (b : Bytes) : Res Bytes := do
  if b.length < 3 then err .eof else
  match encodePLMN f.mcc f.mnc with
  | err _ => ok b
  | .panic => .panic
  | diverge => diverge
  | ok plmn => do
    let b ← copyAt b 0 3 plmn
    if b.length < 10 then err .eof else
    let b ← copyAt b 3 5 (be16 f.group)
    let b ← setAt b 5 f.code
    copyAt b 6 10 (be32 f.mtmsi)

/-- guti.go:15-23, 55-62, 122-124 `NewGUTI`, `Marshal`, `MarshalLen` -/
def newGUTI (mcc mnc : Bytes) (group : UInt16) (code : UInt8) (mtmsi : UInt32) : Res (Option IE) :=
  build 117 (GUTI.marshalTo ⟨mcc, mnc, group, code, mtmsi⟩ (List.replicate 10 0))

/-- guti.go:88-119 `ParseGUTIFields`.  `DecodePLMN(b[1:3])` slices its two octet argument up to index 3, which Go allows as far
as the capacity goes; `spare` are the octets behind `b` within its capacity. -/
def parseGUTI (b spare : Bytes) : Res GUTI := do
  if b.length < 3 then err .eof else
  let s ← slice b 1 3
  let mcc ← decodeMCC s
  let t ← slice (b ++ spare) 2 4
  let mnc ← decodeMNC t
  if b.length < 10 then err .eof else
  let x ← slice b 3 5
  let group ← rd16 x
  let code ← idx b 5
  let y ← slice b 6 10
  let m ← rd32 y
  ok ⟨mcc, mnc, group, code, m⟩

/-- guti.go:26-33 -/
def IE.guti (i : IE) (spare : Bytes) : Res GUTI := if i.typ = 117 then parseGUTI i.payload spare else err .invalidType

/-- guti.go:127-137 -/
def IE.mmeGroupID (i : IE) : Res UInt16 :=
  if i.typ = 117 then
    if i.payload.length < 5 then err .eof else do
    let x ← slice i.payload 3 5
    rd16 x
  else err .invalidType
/-- guti.go:147-157 -/
def IE.mmeCode (i : IE) : Res UInt8 :=
  if i.typ = 117 then
    if i.payload.length < 6 then err .eof else idx i.payload 5
  else err .invalidType
/-- guti.go:167-177 -/
def IE.mtmsi (i : IE) : Res UInt32 :=
  if i.typ = 117 then
    if i.payload.length < 10 then err .eof else do
    let x ← slice i.payload 6 10
    rd32 x
  else err .invalidType

/-! ### Fully qualified CSID -/

/-- fq-csid.go:43-48 -/
structure CSID where
  kind : UInt8
  num : UInt8
  node : Bytes
  ids : List UInt16
  deriving DecidableEq, Repr

/-- fq-csid.go:51-74 `NewFullyQualifiedCSIDFields`.  `ip` is the result of `net.ParseIP(nodeID)`, `none` for nil.  The nil
returned for a node identity that is neither an address nor hexadecimal is `none`. -/
def newCSIDFields (node : Bytes) (ip : Option Bytes) (ids : List UInt16) : Option CSID :=
  match ip with
  | none =>
    match hexDecode node with
    | ok b => some ⟨2, UInt8.ofNat ids.length, b, ids⟩
    | _ => none
  | some a =>
    match to4 a with
    | some v4 => some ⟨0, UInt8.ofNat ids.length, v4, ids⟩
    | none => some ⟨1, UInt8.ofNat ids.length, a, ids⟩

/-- fq-csid.go:159-173 `MarshalLen` -/
def CSID.marshalLen (f : CSID) : Nat :=
  1 + (if f.kind = 0 ∨ f.kind = 2 then 4 else if f.kind = 1 then 16 else 0) + f.ids.length * 2

/-- fq-csid.go:102-107 the loop of `MarshalTo`; `off` is `offset+n*2` -/
def putCSIDs : List UInt16 → Nat → Bytes → Res Bytes
  | [], _, b => ok b
  | x :: xs, off, b => do
    if b.length < off + 2 then ok b else
    let b ← copyAt b off (off + 2) (be16 x)
    putCSIDs xs (off + 2) b

/-- fq-csid.go:87-110 `MarshalTo` -/
def CSID.marshalTo (f : CSID) (b : Bytes) : Res Bytes := do
  if b.length < 1 then err .eof else
  let b ← setAt b 0 (((f.kind <<< 4) &&& (0xf0 : UInt8)) ||| (f.num &&& (0x0f : UInt8)))
  if b.length < 1 + f.node.length then err .eof else
  let b ← copyAt b 1 (1 + f.node.length) f.node
  putCSIDs f.ids (1 + f.node.length) b

/-- fq-csid.go:22-30, 77-84 `NewFullyQualifiedCSID`, `Marshal`; `Marshal` of nil fields dereferences nil -/
def newCSID (node : Bytes) (ip : Option Bytes) (ids : List UInt16) : Res (Option IE) :=
  match newCSIDFields node ip ids with
  | none => .panic
  | some f => build 132 (f.marshalTo (List.replicate f.marshalLen 0))

/-- fq-csid.go:150-153, 249-252 the loops reading CSIDs from `offset` on -/
def getCSIDs : Nat → Bytes → Nat → Res (List UInt16)
  | 0, _, _ => diverge
  | fuel + 1, b, off =>
    if off + 2 ≤ b.length then do
      let s ← slice b off (off + 2)
      let x ← rd16 s
      let xs ← getCSIDs fuel b (off + 2)
      ok (x :: xs)
    else ok []

/-- fq-csid.go:113-156 `ParseFullyQualifiedCSIDFields` -/
def parseCSID (b : Bytes) : Res CSID := do
  if b.length < 1 then err .eof else
  let x ← idx b 0
  let kind := (x >>> 4) &&& (0x0f : UInt8)
  let num := x &&& (0x0f : UInt8)
  if kind = 0 ∨ kind = 2 then
    if b.length < 5 then err .eof else do
    let node ← slice b 1 5
    let ids ← getCSIDs (b.length + 1) b 5
    ok ⟨kind, num, node, ids⟩
  else if kind = 1 then
    if b.length < 17 then err .eof else do
    let node ← slice b 1 17
    let ids ← getCSIDs (b.length + 1) b 17
    ok ⟨kind, num, node, ids⟩
  else err .malformed

/-- fq-csid.go:33-40 -/
def IE.csid (i : IE) : Res CSID := if i.typ = 132 then parseCSID i.payload else err .invalidType

/-- fq-csid.go:176-187 -/
def IE.nodeIDType (i : IE) : Res UInt8 :=
  if i.payload.length < 1 then err .eof
  else if i.typ = 132 then do
    let x ← idx i.payload 0
    ok ((x >>> 4) &&& (0x0f : UInt8))
  else err .invalidType

/-- fq-csid.go:197-221 -/
def IE.nodeID (i : IE) : Res Bytes :=
  if i.payload.length < 1 then err .eof
  else if i.typ = 132 then do
    let x ← idx i.payload 0
    let kind := (x >>> 4) &&& (0x0f : UInt8)
    if kind = 0 ∨ kind = 2 then
      if i.payload.length < 6 then err .eof else slice i.payload 1 5
    else if kind = 1 then
      if i.payload.length < 18 then err .eof else slice i.payload 1 17
    else err .malformed
  else err .invalidType

/-- fq-csid.go:231-257 -/
def IE.csids (i : IE) : Res (List UInt16) :=
  if i.payload.length < 1 then err .eof
  else if i.typ = 132 then do
    let x ← idx i.payload 0
    let kind := (x >>> 4) &&& (0x0f : UInt8)
    if kind = 0 ∨ kind = 2 then getCSIDs (i.payload.length + 1) i.payload 5
    else if kind = 1 then getCSIDs (i.payload.length + 1) i.payload 17
    else err .malformed
  else err .invalidType

end Verif.V2
