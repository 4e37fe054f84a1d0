import Verif.Model.Typed.QoS
import Verif.Model.Typed.NetIP
import Verif.Model.Utils
/-
gtpv2/ie/tft.go, bearer-tft.go, tad.go.
Simplifications: the components of a packet filter are never nil pointers (the code dereferences them without a check); nil
slices are empty lists; the constructors of components from net.IP and net.IPMask take the octets.
-/
namespace Verif.V2
open Res NetIP

/-! ### components -/

/-- tft.go:356-359 `TFTPFComponent` -/
structure Comp where
  typ : UInt8
  contents : Bytes
  deriving DecidableEq, Repr

/-- tft.go:841-843 `MarshalLen` -/
def Comp.marshalLen (c : Comp) : Nat := 1 + c.contents.length

/-- tft.go:759-768 `MarshalTo` -/
def Comp.marshalTo (c : Comp) (b : Bytes) : Res Bytes := do
  if b.length < 1 + c.contents.length then err .eof else
  let b ← setAt b 0 c.typ
  copyAt b 1 (1 + c.contents.length) c.contents

/-- tft.go:803-832 the switch over the component types -/
def compLen (t : UInt8) : Nat :=
  if t = 0x10 ∨ t = 0x11 then 8
  else if t = 0x20 then 32
  else if t = 0x21 ∨ t = 0x23 then 17
  else if t = 0x30 then 1
  else if t = 0x40 ∨ t = 0x50 then 2
  else if t = 0x41 ∨ t = 0x51 then 4
  else if t = 0x60 then 4
  else if t = 0x70 then 2
  else if t = 0x80 then 3
  else if t = 0x81 ∨ t = 0x82 then 6
  else if t = 0x83 ∨ t = 0x84 then 2
  else if t = 0x85 ∨ t = 0x86 then 1
  else if t = 0x87 then 2
  else 0

/-- tft.go:771-838 `ParseTFTPFComponent` -/
def parseComp (b : Bytes) : Res Comp := do
  if b.length < 1 then err .eof else
  let t ← idx b 0
  if b.length < 1 + compLen t then err .eof else
  let c ← slice b 1 (1 + compLen t)
  ok ⟨t, c⟩

/-- tft.go:781-792 `ParseMultiTFTPFComponent`; running out of fuel would be an endless loop -/
def parseComps : Nat → Bytes → Res (List Comp)
  | 0, _ => diverge
  | fuel + 1, b =>
    if b.length > 0 then do
      let c ← parseComp b
      let b ← sliceFrom b c.marshalLen
      let cs ← parseComps fuel b
      ok (c :: cs)
    else ok []

/-- tft.go:370-382 `NewTFTPFComponentIPv4RemoteAddress` .. `IPv6RemoteAddress`, with `ip` the result of To4 or To16 -/
def compAddr (t : UInt8) (ip mask : Bytes) : Comp := ⟨t, ip ++ mask⟩
/-- tft.go:385-392 the two constructors with a prefix length -/
def compPrefix (t : UInt8) (ip : Bytes) (prefixLen : UInt8) : Comp := ⟨t, ip ++ [prefixLen]⟩
/-- tft.go:395-397, 471-478 the constructors with one octet -/
def compU8 (t v : UInt8) : Comp := ⟨t, [v]⟩
/-- tft.go:400-404, 415-419, 457-468, 481-485 the constructors with two octets -/
def compU16 (t : UInt8) (v : UInt16) : Comp := ⟨t, be16 v⟩
/-- tft.go:407-412, 422-427 the port ranges -/
def compRange (t : UInt8) (low high : UInt16) : Comp := ⟨t, be16 low ++ be16 high⟩
/-- tft.go:430-434 `NewTFTPFComponentSecurityParameterIndex` -/
def compU32 (t : UInt8) (v : UInt32) : Comp := ⟨t, be32 v⟩
/-- tft.go:437-439 `NewTFTPFComponentTypeOfServiceTrafficClass` -/
def compPair (t : UInt8) (x y : UInt8) : Comp := ⟨t, [x, y]⟩
/-- tft.go:442-444 `NewTFTPFComponentFlowLabel` -/
def compU24 (t : UInt8) (v : UInt32) : Comp := ⟨t, Utils.uint32To24 v⟩
/-- tft.go:447-454 the MAC addresses -/
def compMAC (t : UInt8) (mac : Bytes) : Comp := ⟨t, mac⟩

/-- the common head of the component accessors -/
def Comp.guard {α : Type} (c : Comp) (t : UInt8) (n : Nat) (k : Res α) : Res α :=
  if c.typ ≠ t then err .invalidType else if c.contents.length < n then err .eof else k

/-- tft.go:488-509 `IPv4RemoteAddress` (t = 0x10), `IPv4LocalAddress` (t = 0x11): address and mask -/
def Comp.ipv4 (t : UInt8) (c : Comp) : Res (Bytes × Bytes) := c.guard t 8 do
  let a ← slice c.contents 0 4
  let m ← slice c.contents 4 8
  ok (a, m)

/-- tft.go:512-521 `IPv6RemoteAddress` -/
def Comp.ipv6 (c : Comp) : Res (Bytes × Bytes) := c.guard 0x20 32 do
  let a ← slice c.contents 0 16
  let m ← slice c.contents 17 32
  ok (a, m)

/-- net.CIDRMask(ones, 128) of the standard library; nil for more than 128 -/
def cidrMask (ones : Nat) : Bytes :=
  if ones > 128 then [] else
  (List.range 16).map (fun i => UInt8.ofNat (256 - 2 ^ (8 - min 8 (ones - 8 * i))))

/-- tft.go:525-555 `IPv6RemoteAddressPrefixLength` (t = 0x21), `IPv6LocalAddressPrefixLength` (t = 0x23) -/
def Comp.ipv6Prefix (t : UInt8) (c : Comp) : Res (Bytes × Bytes) := c.guard t 17 do
  let a ← slice c.contents 0 16
  let m ← idx c.contents 17
  ok (a, cidrMask m.toNat)

/-- tft.go:559-568, 713-734 the accessors of one octet -/
def Comp.u8 (t : UInt8) (c : Comp) : Res UInt8 := c.guard t 1 (idx c.contents 0)

/-- tft.go:571-580, 598-607, 689-710, 737-746 the accessors of two octets -/
def Comp.u16 (t : UInt8) (c : Comp) : Res UInt16 := c.guard t 2 do
  let s ← slice c.contents 0 2
  rd16 s

/-- tft.go:584-595, 611-622 the port ranges -/
def Comp.range (t : UInt8) (c : Comp) : Res (UInt16 × UInt16) := c.guard t 4 do
  let s ← slice c.contents 0 2
  let low ← rd16 s
  let s ← slice c.contents 2 4
  let high ← rd16 s
  ok (low, high)

/-- tft.go:626-635 `SecurityParameterIndex` -/
def Comp.u32 (t : UInt8) (c : Comp) : Res UInt32 := c.guard t 4 do
  let s ← slice c.contents 0 4
  rd32 s

/-- tft.go:639-648 `TypeOfServiceTrafficClass` -/
def Comp.pair (t : UInt8) (c : Comp) : Res (UInt8 × UInt8) := c.guard t 2 do
  let x ← idx c.contents 0
  let y ← idx c.contents 1
  ok (x, y)

/-- tft.go:651-660 `FlowLabel` -/
def Comp.u24 (t : UInt8) (c : Comp) : Res UInt32 := c.guard t 3 do
  let s ← slice c.contents 0 3
  ok (Utils.uint24To32 s)

/-- tft.go:664-686 the MAC addresses -/
def Comp.mac (t : UInt8) (c : Comp) : Res Bytes := c.guard t 6 (slice c.contents 0 6)

/-! ### packet filters -/

/-- tft.go:216-222 `TFTPacketFilter` -/
structure Filter where
  dir : UInt8
  ident : UInt8
  prec : UInt8
  len : UInt8
  comps : List Comp
  deriving DecidableEq, Repr

/-- tft.go:312-317, 322-327 the sum of the lengths of the components -/
def compsLen (cs : List Comp) : Nat := (cs.map Comp.marshalLen).sum

/-- tft.go:311-318 `SetLength` -/
def Filter.setLength (p : Filter) : Filter := { p with len := UInt8.ofNat (compsLen p.comps) }

/-- tft.go:225-235 `NewTFTPacketFilter` -/
def newFilter (dir ident prec : UInt8) (comps : List Comp) : Filter := Filter.setLength ⟨dir, ident, prec, 0, comps⟩

/-- tft.go:321-329 `MarshalLen` -/
def Filter.marshalLen (p : Filter) : Nat := 3 + compsLen p.comps

/-- tft.go:260-269 the loop over the components -/
def putComps : List Comp → Nat → Bytes → Res Bytes
  | [], _, b => ok b
  | c :: cs, off, b => do
    if b.length < off + c.marshalLen then err .eof else
    let b ← onSub b off (off + c.marshalLen) c.marshalTo
    putComps cs (off + c.marshalLen) b

/-- tft.go:248-272 `MarshalTo` -/
def Filter.marshalTo (p : Filter) (b : Bytes) : Res Bytes := do
  if b.length < 3 then err .eof else
  let b ← setAt b 0 (((p.dir &&& 3) <<< 4) ||| (p.ident &&& 0xf))
  let b ← setAt b 1 p.prec
  let b ← setAt b 2 p.len
  putComps p.comps 3 b

/-- tft.go:275-308 `ParseTFTPacketFilter` -/
def parseFilter (b : Bytes) : Res Filter := do
  if b.length < 3 then err .eof else
  let b0 ← idx b 0
  let b1 ← idx b 1
  let b2 ← idx b 2
  if b.length < 3 + b2.toNat then err .eof else
  let s ← slice b 3 (3 + b2.toNat)
  let cs ← parseComps (s.length + 1) s
  ok ⟨(b0 >>> 4) &&& 3, b0 &&& 0xf, b1, b2, cs⟩

/-! ### parameters -/

/-- tft.go:853-857 `TFTParameter` -/
structure Param where
  ident : UInt8
  len : UInt8
  contents : Bytes
  deriving DecidableEq, Repr

/-- tft.go:860-866 `NewTFTParameter` -/
def newParam (ident : UInt8) (contents : Bytes) : Param := ⟨ident, UInt8.ofNat contents.length, contents⟩

/-- tft.go:944-946 `MarshalLen` -/
def Param.marshalLen (p : Param) : Nat := 2 + p.contents.length

/-- tft.go:879-895 `MarshalTo` -/
def Param.marshalTo (p : Param) (b : Bytes) : Res Bytes := do
  if b.length < 2 then err .eof else
  let b ← setAt b 0 p.ident
  let b ← setAt b 1 p.len
  if b.length < 2 + p.contents.length then err .eof else
  copyAt b 2 (2 + p.contents.length) p.contents

/-- tft.go:898-936 `ParseTFTParameter` -/
def parseParam (b : Bytes) : Res Param := do
  if b.length < 2 then err .eof else
  let b0 ← idx b 0
  let b1 ← idx b 1
  if b.length < 2 + b1.toNat then err .eof else
  let c ← slice b 2 (2 + b1.toNat)
  ok ⟨b0, b1, c⟩

/-- tft.go:908-919 `ParseMultiTFTParameters` -/
def parseParams : Nat → Bytes → Res (List Param)
  | 0, _ => diverge
  | fuel + 1, b =>
    if b.length > 0 then do
      let p ← parseParam b
      let b ← sliceFrom b p.marshalLen
      let ps ← parseParams fuel b
      ok (p :: ps)
    else ok []

/-! ### the template -/

/-- tft.go:39-44 `TrafficFlowTemplate` -/
structure TFT where
  op : UInt8
  filters : List Filter
  ids : Bytes
  params : List Param
  deriving DecidableEq, Repr

/-- tft.go:47-68 `NewTrafficFlowTemplate`; nil pointers are dropped -/
def newTFT (op : UInt8) (filters : List (Option Filter)) (ids : Bytes) (params : List (Option Param)) : TFT :=
  ⟨op, filters.filterMap id, ids, params.filterMap id⟩

/-- tft.go:99-101 and 152-154 the operations with packet filters -/
def opFilters (op : UInt8) : Bool := op == 1 || op == 3 || op == 4

/-- tft.go:185-205 `MarshalLen` -/
def TFT.marshalLen (f : TFT) : Nat :=
  1 + (f.filters.map Filter.marshalLen).sum + f.ids.length + (f.params.map Param.marshalLen).sum

/-- tft.go:102-110 the loop over the packet filters; returns buffer and offset -/
def putFilters : List Filter → Nat → Bytes → Res (Bytes × Nat)
  | [], off, b => ok (b, off)
  | p :: ps, off, b => do
    let b ← onSub b off b.length p.marshalTo
    putFilters ps (off + p.marshalLen) b

/-- tft.go:116-125 the loop over the parameters -/
def putParams : List Param → Nat → Bytes → Res Bytes
  | [], _, b => ok b
  | p :: ps, off, b => do
    let b ← onSub b off b.length p.marshalTo
    putParams ps (off + p.marshalLen) b

/-- tft.go:81-128 `MarshalTo` -/
def TFT.marshalTo (f : TFT) (b : Bytes) : Res Bytes := do
  if b.length < 1 then err .eof else
  let pf := if f.op = 5 then f.ids.length else f.filters.length
  let b ← setAt b 0 (((f.op &&& 7) <<< 5) ||| (UInt8.ofNat (f.params.length % 2) <<< 4) ||| UInt8.ofNat (pf % 16))
  let (b, off) ←
    if opFilters f.op then putFilters f.filters 1 b
    else if f.op = 5 then do
      let b ← copyAt b 1 (1 + pf) f.ids
      ok (b, 1 + pf)
    else ok (b, 1)
  putParams f.params off b

/-- tft.go:71-78 `Marshal` -/
def TFT.marshal (f : TFT) : Res Bytes := f.marshalTo (List.replicate f.marshalLen 0)

/-- tft.go:155-163 the loop over the packet filters; returns the filters and the offset -/
def getFilters (b : Bytes) : Nat → Nat → Res (List Filter × Nat)
  | 0, off => ok ([], off)
  | n + 1, off => do
    let s ← sliceFrom b off
    let p ← parseFilter s
    let (ps, off) ← getFilters b n (off + p.marshalLen)
    ok (p :: ps, off)

/-- tft.go:131-182 `ParseTrafficFlowTemplate` -/
def parseTFT (b : Bytes) : Res TFT := do
  if b.length < 1 then err .eof else
  let b0 ← idx b 0
  let op := b0 >>> 5
  let hasParams := ((b0 >>> 4) &&& 1) == 1
  let n := (b0 &&& 0xf).toNat
  let (f, off) ←
    if opFilters op then do
      let (ps, off) ← getFilters b n 1
      ok ((⟨op, ps, [], []⟩ : TFT), off)
    else if op = 5 then
      if b.length < 1 + n then err .eof else do
      let ids ← slice b 1 (1 + n)
      ok (⟨op, [], ids, []⟩, 1 + n)
    else ok (⟨op, [], [], []⟩, 1)
  if hasParams then do
    let s ← sliceFrom b off
    let ps ← parseParams (s.length + 1) s
    ok { f with params := ps }
  else ok f

variable (g : UInt8 → Bool)

/-- bearer-tft.go:22-30 `NewBearerTFT`, and tad.go:11-19 `NewTrafficAggregateDescription` (t = 85) -/
def newBearerTFT (t op : UInt8) (filters : List (Option Filter)) (ids : Bytes) (params : List (Option Param)) : Res (Option IE) :=
  build t (newTFT op filters ids params).marshal

/-- tft.go:17-36 `TrafficFlowTemplate`, the same as `BearerTFT` and `TrafficAggregateDescription` -/
def IE.tft (i : IE) : Res TFT :=
  if i.typ = 84 ∨ i.typ = 85 then parseTFT i.payload
  else if i.typ = 93 then do
    let ies ← i.bearerContext g
    match ies.find? (fun c => c.typ == 84) with
    | some c => parseTFT c.payload
    | none => err .notFound
  else err .invalidType

end Verif.V2
