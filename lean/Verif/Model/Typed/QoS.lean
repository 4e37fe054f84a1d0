import Verif.Model.Typed.Addr
import Verif.Model.Utils
/-
gtpv2/ie/ambr.go, arp.go, bearer-qos.go, flow-qos.go.
-/
namespace Verif.V2
open Res Utils

variable (g : UInt8 → Bool)

/-! ### Aggregate Maximum Bit Rate -/

/-- ambr.go:34-37 -/
structure AMBR where
  up : UInt32
  down : UInt32
  deriving DecidableEq, Repr

/-- ambr.go:58-67 `MarshalTo` -/
def AMBR.marshalTo (f : AMBR) (b : Bytes) : Res Bytes := do
  if b.length < 8 then err .eof else
  let b ← copyAt b 0 4 (be32 f.up)
  copyAt b 4 8 (be32 f.down)

/-- ambr.go:48-55, 92-94 `Marshal`, `MarshalLen` -/
def AMBR.marshal (f : AMBR) : Res Bytes := f.marshalTo (List.replicate 8 0)

/-- ambr.go:70-89 `ParseAggregateMaximumBitRateFields` -/
def parseAMBR (b : Bytes) : Res AMBR := do
  if b.length < 8 then err .eof else
  let s ← slice b 0 4
  let u ← rd32 s
  let s ← slice b 4 8
  let d ← rd32 s
  ok ⟨u, d⟩

/-- ambr.go:13-21 `NewAggregateMaximumBitRate` -/
def newAMBR (up down : UInt32) : Res (Option IE) := build 72 (AMBR.marshal ⟨up, down⟩)

/-- ambr.go:24-31 `AggregateMaximumBitRate` -/
def IE.ambr (i : IE) : Res AMBR := if i.typ = 72 then parseAMBR i.payload else err .invalidType

/-- ambr.go:98-107 `AggregateMaximumBitRateUp` -/
def IE.ambrUp (i : IE) : Res UInt32 :=
  if i.typ ≠ 72 then err .invalidType
  else if i.payload.length < 4 then err .eof
  else do
    let s ← slice i.payload 0 4
    rd32 s

/-- ambr.go:118-127 `AggregateMaximumBitRateDown` -/
def IE.ambrDown (i : IE) : Res UInt32 :=
  if i.typ ≠ 72 then err .invalidType
  else if i.payload.length < 8 then err .eof
  else do
    let s ← slice i.payload 4 8
    rd32 s

/-! ### Bearer QoS -/

/-- bearer-qos.go:48-55 -/
structure BearerQoS where
  arp : UInt8
  qci : UInt8
  mbrUp : UInt64
  mbrDown : UInt64
  gbrUp : UInt64
  gbrDown : UInt64
  deriving DecidableEq, Repr

/-- the octet (pci<<6 & 0x40) | (pl<<2 & 0x3c) | (pvi & 0x01) of bearer-qos.go:60 and arp.go:10 -/
def arpOctet (pci pl pvi : UInt8) : UInt8 :=
  ((pci <<< 6) &&& (0x40 : UInt8)) ||| ((pl <<< 2) &&& (0x3c : UInt8)) ||| (pvi &&& (0x01 : UInt8))

/-- bearer-qos.go:80-94 `MarshalTo` -/
def BearerQoS.marshalTo (f : BearerQoS) (b : Bytes) : Res Bytes := do
  if b.length < 22 then err .eof else
  let b ← setAt b 0 f.arp
  let b ← setAt b 1 f.qci
  let b ← copyAt b 2 7 (uint64To40 f.mbrUp)
  let b ← copyAt b 7 12 (uint64To40 f.mbrDown)
  let b ← copyAt b 12 17 (uint64To40 f.gbrUp)
  copyAt b 17 22 (uint64To40 f.gbrDown)

/-- bearer-qos.go:70-77, 124-126 `Marshal`, `MarshalLen` -/
def BearerQoS.marshal (f : BearerQoS) : Res Bytes := f.marshalTo (List.replicate 22 0)

/-- bearer-qos.go:97-121 `ParseBearerQoSFields` -/
def parseBearerQoS (b : Bytes) : Res BearerQoS := do
  if b.length < 22 then err .eof else
  let a ← idx b 0
  let q ← idx b 1
  let s1 ← slice b 2 7
  let s2 ← slice b 7 12
  let s3 ← slice b 12 17
  let s4 ← slice b 17 22
  ok ⟨a, q, uint40To64 s1, uint40To64 s2, uint40To64 s3, uint40To64 s4⟩

/-- bearer-qos.go:15-23, 58-67 `NewBearerQoS` -/
def newBearerQoS (pci pl pvi qci : UInt8) (umbr dmbr ugbr dgbr : UInt64) : Res (Option IE) :=
  build 80 (BearerQoS.marshal ⟨arpOctet pci pl pvi, qci, umbr, dmbr, ugbr, dgbr⟩)

/-- bearer-context.go:158-172 `BearerContext`: the payload of a Bearer Context IE, parsed again -/
def IE.bearerContext (i : IE) : Res (List IE) :=
  if i.typ ≠ 93 then err .invalidType
  else if i.payload.length < 1 then err .eof
  else parseMulti g i.payload

/-- bearer-qos.go:26-45 `BearerQoS`; the type of the child found is 80, so the recursive call parses its payload -/
def IE.bearerQoS (i : IE) : Res BearerQoS :=
  if i.typ = 80 then parseBearerQoS i.payload
  else if i.typ = 93 then do
    let ies ← i.bearerContext g
    match ies.find? (fun c => c.typ == 80) with
    | some c => parseBearerQoS c.payload
    | none => err .notFound
  else err .invalidType

/-! ### Allocation/Retention Priority -/

/-- arp.go:8-12 `NewAllocationRetensionPriority` -/
def newARP (pci pl pvi : UInt8) : IE := newIE 155 0 [(0 : UInt8) ||| arpOctet pci pl pvi]

/-- arp.go:15-20 `AllocationRetensionPriority` -/
def IE.arp (i : IE) : Res UInt8 := if i.typ ≠ 155 then err .invalidType else i.valueAsUint8 g

/-- arp.go:23-30 `HasPVI` (and 67-69 `PreemptionVulnerability`) -/
def IE.hasPVI (i : IE) : Res Bool :=
  match i.arp g with
  | ok v => ok (has1stBit v)
  | err _ => ok false
  | .panic => .panic
  | diverge => diverge

/-- arp.go:33-40 `HasPCI` (and 74-76 `PreemptionCapability`) -/
def IE.hasPCI (i : IE) : Res Bool :=
  match i.arp g with
  | ok v => ok (has7thBit v)
  | err _ => ok false
  | .panic => .panic
  | diverge => diverge

/-- arp.go:43-62 `PriorityLevel` -/
def IE.priorityLevel (i : IE) : Res UInt8 :=
  if i.typ = 155 then do
    let v ← i.arp g
    ok ((v &&& 0x3c) >>> 2)
  else if i.typ = 80 then do
    let v ← i.bearerQoS g
    ok ((v.arp &&& 0x3c) >>> 2)
  else err .invalidType

/-! ### Flow QoS -/

/-- flow-qos.go:35-41 -/
structure FlowQoS where
  qci : UInt8
  mbrUp : UInt64
  mbrDown : UInt64
  gbrUp : UInt64
  gbrDown : UInt64
  deriving DecidableEq, Repr

/-- flow-qos.go:65-78 `MarshalTo` -/
def FlowQoS.marshalTo (f : FlowQoS) (b : Bytes) : Res Bytes := do
  if b.length < 21 then err .eof else
  let b ← setAt b 0 f.qci
  let b ← copyAt b 1 6 (uint64To40 f.mbrUp)
  let b ← copyAt b 6 11 (uint64To40 f.mbrDown)
  let b ← copyAt b 11 16 (uint64To40 f.gbrUp)
  copyAt b 16 21 (uint64To40 f.gbrDown)

/-- flow-qos.go:55-62, 107-109 `Marshal`, `MarshalLen` -/
def FlowQoS.marshal (f : FlowQoS) : Res Bytes := f.marshalTo (List.replicate 21 0)

/-- flow-qos.go:81-104 `ParseFlowQoSFields` -/
def parseFlowQoS (b : Bytes) : Res FlowQoS := do
  if b.length < 21 then err .eof else
  let q ← idx b 0
  let s1 ← slice b 1 6
  let s2 ← slice b 6 11
  let s3 ← slice b 11 16
  let s4 ← slice b 16 21
  ok ⟨q, uint40To64 s1, uint40To64 s2, uint40To64 s3, uint40To64 s4⟩

/-- flow-qos.go:14-22 `NewFlowQoS` -/
def newFlowQoS (qci : UInt8) (umbr dmbr ugbr dgbr : UInt64) : Res (Option IE) :=
  build 81 (FlowQoS.marshal ⟨qci, umbr, dmbr, ugbr, dgbr⟩)

/-- flow-qos.go:25-32 `FlowQoS` -/
def IE.flowQoS (i : IE) : Res FlowQoS := if i.typ = 81 then parseFlowQoS i.payload else err .invalidType

/-- bearer-qos.go:129-141 `QCILabel` -/
def IE.qciLabel (i : IE) : Res UInt8 :=
  if i.typ = 80 then
    if i.payload.length < 2 then err .eof else idx i.payload 1
  else if i.typ = 81 then i.valueAsUint8 g
  else err .invalidType

/-- the two cases of bearer-qos.go:144-234: `b0`, `b1` bound the slice for Bearer QoS, `f0`, `f1` the one for Flow QoS; the
length check is against the upper bound -/
def bitRate (i : IE) (b0 b1 f0 f1 : Nat) : Res UInt64 :=
  if i.typ = 80 then
    if i.payload.length < b1 then err .eof else do
    let s ← slice i.payload b0 b1
    ok (uint40To64 s)
  else if i.typ = 81 then
    if i.payload.length < f1 then err .eof else do
    let s ← slice i.payload f0 f1
    ok (uint40To64 s)
  else err .eof

/-- bearer-qos.go:144-159 `MBRForUplink` -/
def IE.mbrUp (i : IE) : Res UInt64 := bitRate i 2 7 2 6
/-- bearer-qos.go:169-184 `MBRForDownlink` -/
def IE.mbrDown (i : IE) : Res UInt64 := bitRate i 7 12 6 11
/-- bearer-qos.go:194-209 `GBRForUplink` -/
def IE.gbrUp (i : IE) : Res UInt64 := bitRate i 12 17 11 16
/-- bearer-qos.go:219-234 `GBRForDownlink` -/
def IE.gbrDown (i : IE) : Res UInt64 := bitRate i 17 22 16 21

end Verif.V2
