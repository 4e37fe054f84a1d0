import Verif.Model.Typed.Bits
import Verif.Model.Typed.NetIP
/-
gtpv2/ie/f-teid.go, ip-addr.go, paa.go, s103pdf.go, s1udf.go.
The constructors taking addresses as text are modelled here from the parsed net.IP on, i.e. as their ...NetIP variants, which
have the same body; the text and the accessors returning text (IPAddress, HSGWAddress, SGWAddress) are in Model/AddrText.lean.
A nil net.IP is `[]`, except in the F-TEID fields where the code compares with nil (`Option`).
The `Must...` variants are `must zero` of the accessor.
-/
namespace Verif.V2
open Res NetIP

/-- the common end of all typed constructors: `b, err := v.Marshal(); if err != nil { return nil }; return New(t, 0x00, b)`;
`none` is the nil IE -/
def build (t : UInt8) (r : Res Bytes) : Res (Option IE) :=
  match r with
  | ok b => ok (some (newIE t 0 b))
  | err _ => ok none
  | .panic => .panic
  | diverge => diverge

/-! ### F-TEID -/

/-- f-teid.go:46-52 `FullyQualifiedTEIDFields` -/
structure FTEID where
  flags : UInt8
  ifType : UInt8
  teid : UInt32
  v4 : Option Bytes
  v6 : Option Bytes
  deriving DecidableEq, Repr

/-- f-teid.go:55-71 `NewFullyQualifiedTEIDFields` -/
def newFTEIDFields (ifType : UInt8) (teid : UInt32) (v4 v6 : Bytes) : FTEID :=
  let f : FTEID := ⟨0, ifType, teid, none, none⟩
  let f := match to4 v4 with
    | some v => { f with flags := f.flags ||| 0x80, v4 := some v }
    | none => f
  match to16 v6 with
    | some v => { f with flags := f.flags ||| 0x40, v6 := some v }
    | none => f

/-- f-teid.go:161-171 `MarshalLen` -/
def FTEID.marshalLen (f : FTEID) : Nat :=
  5 + (if has8thBit f.flags then 4 else 0) + (if has7thBit f.flags then 16 else 0)

/-- f-teid.go:94-103 the IPv4 part of `MarshalTo`; returns buffer and offset -/
def FTEID.putV4 (f : FTEID) (b : Bytes) (off : Nat) : Res (Bytes × Nat) :=
  match f.v4 with
  | none => ok (b, off)
  | some a =>
    if b.length < off + 4 then err .eof else
    match to4 a with
    | none => ok (b, off)
    | some v => do
      let b0 ← idx b 0
      let b ← setAt b 0 (b0 ||| 0x80)
      let b ← copyAt b off (off + 4) v
      ok (b, off + 4)

/-- f-teid.go:104-112 the IPv6 part of `MarshalTo` -/
def FTEID.putV6 (f : FTEID) (b : Bytes) (off : Nat) : Res Bytes :=
  match f.v6 with
  | none => ok b
  | some a =>
    if b.length < off + 16 then err .eof else
    match to16 a with
    | none => ok b
    | some v => do
      let b0 ← idx b 0
      let b ← setAt b 0 (b0 ||| 0x40)
      copyAt b off (off + 16) v

/-- f-teid.go:84-115 `MarshalTo` -/
def FTEID.marshalTo (f : FTEID) (b : Bytes) : Res Bytes := do
  if b.length < 5 then err .eof else
  let b ← setAt b 0 f.ifType
  let b ← copyAt b 1 5 (be32 f.teid)
  let (b, off) ← f.putV4 b 5
  f.putV6 b off

/-- f-teid.go:74-81 `Marshal` -/
def FTEID.marshal (f : FTEID) : Res Bytes := f.marshalTo (List.replicate f.marshalLen 0)

/-- f-teid.go:139-147 the IPv4 part of `UnmarshalBinary` -/
def FTEID.getV4 (b : Bytes) (f : FTEID) (off : Nat) : Res (FTEID × Nat) :=
  if has8thBit f.flags then
    if b.length < off + 4 then err .eof else do
    let a ← slice b off (off + 4)
    match to4 a with
    | some v => ok ({ f with v4 := some v }, off + 4)
    | none => ok (f, off)
  else ok (f, off)

/-- f-teid.go:148-155 the IPv6 part of `UnmarshalBinary` -/
def FTEID.getV6 (b : Bytes) (f : FTEID) (off : Nat) : Res FTEID :=
  if has7thBit f.flags then
    if b.length < off + 16 then err .eof else do
    let a ← slice b off (off + 16)
    match to16 a with
    | some v => ok { f with v6 := some v }
    | none => ok f
  else ok f

/-- f-teid.go:118-156 `ParseFullyQualifiedTEIDFields` -/
def parseFTEID (b : Bytes) : Res FTEID := do
  if b.length < 5 then err .eof else
  let b0 ← idx b 0
  let s ← slice b 1 5
  let teid ← rd32 s
  let (f, off) ← FTEID.getV4 b ⟨b0 &&& 0xc0, b0 &&& 0x3f, teid, none, none⟩ 5
  FTEID.getV6 b f off

/-- f-teid.go:14-33 `NewFullyQualifiedTEIDNetIP` (and `NewFullyQualifiedTEID`) -/
def newFTEID (ifType : UInt8) (teid : UInt32) (v4 v6 : Bytes) : Res (Option IE) :=
  build 87 (newFTEIDFields ifType teid v4 v6).marshal

/-- f-teid.go:36-43 `FullyQualifiedTEID` -/
def IE.fteid (i : IE) : Res FTEID := if i.typ = 87 then parseFTEID i.payload else err .invalidType

/-- f-teid.go:174-185 `HasIPv4` -/
def IE.hasIPv4 (i : IE) : Res Bool :=
  if i.typ = 87 then
    if i.payload.length < 1 then ok false else do
    let b0 ← idx i.payload 0
    ok (has8thBit b0)
  else ok false

/-- f-teid.go:188-199 `HasIPv6` -/
def IE.hasIPv6 (i : IE) : Res Bool :=
  if i.typ = 87 then
    if i.payload.length < 1 then ok false else do
    let b0 ← idx i.payload 0
    ok (has7thBit b0)
  else ok false

/-- f-teid.go:202-211 `InterfaceType` -/
def IE.interfaceType (i : IE) : Res UInt8 :=
  if i.typ ≠ 87 then err .invalidType
  else if i.payload.length < 1 then err .eof
  else do
    let b0 ← idx i.payload 0
    ok (b0 &&& 0x3f)

/-- the inner switch shared by f-teid.go:225-238 and 258-271: a 32-bit value behind an address of 4 or 16 octets whose length
is in the first octet -/
def keyAfterAddr (p : Bytes) : Res UInt32 := do
  let b0 ← idx p 0
  if b0 = 4 then
    if p.length < 9 then err .eof else
    let s ← slice p 5 9
    rd32 s
  else if b0 = 16 then
    if p.length < 21 then err .eof else
    let s ← slice p 17 21
    rd32 s
  else err .malformed

/-- f-teid.go:221-246 `GREKey` -/
def IE.greKey (i : IE) : Res UInt32 :=
  if i.payload.length < 6 then err .eof
  else if i.typ = 87 then do
    let s ← slice i.payload 1 5
    rd32 s
  else if i.typ = 90 then keyAfterAddr i.payload
  else err .invalidType

/-- f-teid.go:256-282 `TEID` -/
def IE.teid (i : IE) : Res UInt32 :=
  if i.payload.length < 5 then err .eof
  else if i.typ = 87 then do
    let s ← slice i.payload 1 5
    rd32 s
  else if i.typ = 91 then keyAfterAddr i.payload
  else err .invalidType

/-! ### PDN Address Allocation -/

/-- paa.go:77-82 `PDNAddressAllocationFields` -/
structure PAA where
  pdnType : UInt8
  v4 : Bytes
  prefixLen : UInt8
  v6 : Bytes
  deriving DecidableEq, Repr

/-- paa.go:208-222 `MarshalLen` -/
def PAA.marshalLen (f : PAA) : Nat :=
  if f.pdnType = 1 then 5 else if f.pdnType = 2 then 18 else if f.pdnType = 3 then 22 else 1

/-- paa.go:105-150 `MarshalTo` -/
def PAA.marshalTo (f : PAA) (b : Bytes) : Res Bytes := do
  if b.length < 1 then err .eof else
  let b ← setAt b 0 (f.pdnType &&& 0x07)
  if f.pdnType = 1 then
    if b.length < 5 then err .eof else
    copyAt b 1 5 (ofOpt (to4 f.v4))
  else if f.pdnType = 2 then
    if b.length < 18 then err .eof else
    let b ← setAt b 1 f.prefixLen
    copyAt b 2 18 (ofOpt (to16 f.v6))
  else if f.pdnType = 3 then
    if b.length < 22 then err .eof else
    let b ← setAt b 1 f.prefixLen
    let b ← copyAt b 2 18 (ofOpt (to16 f.v6))
    copyAt b 18 22 (ofOpt (to4 f.v4))
  else ok b

/-- paa.go:95-102 `Marshal` -/
def PAA.marshal (f : PAA) : Res Bytes := f.marshalTo (List.replicate f.marshalLen 0)

/-- paa.go:153-205 `ParsePDNAddressAllocationFields` -/
def parsePAA (b : Bytes) : Res PAA := do
  if b.length < 1 then err .eof else
  let b0 ← idx b 0
  let t := b0 &&& 0x07
  if t = 1 then
    if b.length < 5 then err .eof else
    let v4 ← slice b 1 5
    ok ⟨t, v4, 0, []⟩
  else if t = 2 then
    if b.length < 18 then err .eof else
    let p ← idx b 1
    let v6 ← slice b 2 18
    ok ⟨t, [], p, v6⟩
  else if t = 3 then
    if b.length < 22 then err .eof else
    let p ← idx b 1
    let v6 ← slice b 2 18
    let v4 ← slice b 18 22
    ok ⟨t, v4, p, v6⟩
  else ok ⟨t, [], 0, []⟩

/-- paa.go:46-62 `NewPDNAddressAllocationNetIP` (28-35: `NewPDNAddressAllocation`, `...IPv6`) -/
def newPAA (ip : Bytes) (v6prefix : UInt8) : Res (Option IE) :=
  build 79 <| PAA.marshal <|
    match to4 ip with
    | some v4 => ⟨1, v4, 0, []⟩
    | none =>
      match to16 ip with
      | some v6 => ⟨2, [], v6prefix, v6⟩
      | none => ⟨4, [], 0, []⟩

/-- paa.go:66-74 `NewPDNAddressAllocationDualNetIP` (41-43: `NewPDNAddressAllocationDual`) -/
def newPAADual (v4 v6 : Bytes) (v6prefix : UInt8) : Res (Option IE) :=
  build 79 (PAA.marshal ⟨3, v4, v6prefix, v6⟩)

/-! ### S103 PDN Data Forwarding Info -/

/-- s103pdf.go:46-52 -/
structure S103 where
  addrLen : UInt8
  addr : Bytes
  greKey : UInt32
  ebiNum : UInt8
  ebis : Bytes
  deriving DecidableEq, Repr

/-- s103pdf.go:55-78 `NewS103PDNDataForwardingInfoFields` -/
def newS103Fields (ip : Bytes) (key : UInt32) (ebis : Bytes) : S103 :=
  match to4 ip with
  | some v => ⟨4, v, key, UInt8.ofNat ebis.length, ebis⟩
  | none =>
    match to16 ip with
    | some v => ⟨16, v, key, UInt8.ofNat ebis.length, ebis⟩
    | none => ⟨UInt8.ofNat ip.length, ip, key, UInt8.ofNat ebis.length, ebis⟩

/-- s103pdf.go:179-181 `MarshalLen` -/
def S103.marshalLen (f : S103) : Nat := 1 + f.addrLen.toNat + 4 + 1 + f.ebiNum.toNat

/-- s103pdf.go:118-121 the loop writing the bearer IDs -/
def putEBIs : Bytes → Nat → Bytes → Res Bytes
  | [], _, b => ok b
  | e :: es, off, b => do
    let b ← setAt b off (e &&& 0x0f)
    putEBIs es (off + 1) b

/-- s103pdf.go:91-124 `MarshalTo` -/
def S103.marshalTo (f : S103) (b : Bytes) : Res Bytes := do
  if b.length < 2 then err .eof else
  let b ← setAt b 0 f.addrLen
  if b.length < 1 + f.addrLen.toNat then err .eof else
  let b ← copyAt b 1 (1 + f.addrLen.toNat) f.addr
  let off := 1 + f.addrLen.toNat
  if b.length < off + 4 then err .eof else
  let b ← copyAt b off (off + 4) (be32 f.greKey)
  let off := off + 4
  let b ← setAt b off f.ebiNum
  let off := off + 1
  if b.length < off + f.ebiNum.toNat then err .eof else
  putEBIs f.ebis off b

/-- s103pdf.go:80-87 `Marshal` -/
def S103.marshal (f : S103) : Res Bytes := f.marshalTo (List.replicate f.marshalLen 0)

/-- s103pdf.go:170-173 the loop reading `n` bearer IDs -/
def getEBIs (b : Bytes) : Nat → Nat → Res Bytes
  | 0, _ => ok []
  | n + 1, off => do
    let x ← idx b off
    let xs ← getEBIs b n (off + 1)
    ok (x :: xs)

/-- s103pdf.go:127-176 `ParseS103PDNDataForwardingInfoFields` -/
def parseS103 (b : Bytes) : Res S103 := do
  if b.length < 2 then err .eof else
  let n ← idx b 0
  if b.length < 1 + n.toNat then err .eof else
  let a ← slice b 1 (1 + n.toNat)
  let off := 1 + n.toNat
  if b.length < off + 4 then err .eof else
  let s ← slice b off (off + 4)
  let key ← rd32 s
  let off := off + 4
  if b.length ≤ off then err .eof else
  let k ← idx b off
  let off := off + 1
  if b.length < off + k.toNat then err .eof else
  let es ← getEBIs b k.toNat off
  ok ⟨n, a, key, k, es⟩

/-- s103pdf.go:14-33 `NewS103PDNDataForwardingInfoNetIP` (and `NewS103PDNDataForwardingInfo`) -/
def newS103 (ip : Bytes) (key : UInt32) (ebis : Bytes) : Res (Option IE) :=
  build 90 (newS103Fields ip key ebis).marshal

/-- s103pdf.go:36-43 `S103PDNDataForwardingInfo` -/
def IE.s103 (i : IE) : Res S103 := if i.typ = 90 then parseS103 i.payload else err .invalidType

/-- s103pdf.go:227-232 the loop of `EBIs` -/
def collectEBIs (p : Bytes) : Nat → Nat → Res Bytes
  | 0, _ => ok []
  | n + 1, off =>
    if p.length ≤ off then ok [] else do
    let x ← idx p off
    let xs ← collectEBIs p n (off + 1)
    ok (x :: xs)

/-- s103pdf.go:200-234 `EBIs` -/
def IE.ebis (i : IE) : Res Bytes :=
  if i.typ ≠ 90 then err .invalidType
  else if i.payload.length < 1 then err .eof
  else do
    let b0 ← idx i.payload 0
    if b0 = 4 then
      if i.payload.length ≤ 9 then err .eof else
      let n ← idx i.payload 9
      collectEBIs i.payload n.toNat 10
    else if b0 = 16 then
      if i.payload.length ≤ 21 then err .eof else
      let n ← idx i.payload 21
      collectEBIs i.payload n.toNat 22
    else err .malformed

/-! ### S1-U Data Forwarding -/

/-- s1udf.go:46-51 -/
structure S1UDF where
  ebi : UInt8
  addrLen : UInt8
  addr : Bytes
  teid : UInt32
  deriving DecidableEq, Repr

/-- s1udf.go:54-76 `NewS1UDataForwardingFields` -/
def newS1UDFFields (ebi : UInt8) (ip : Bytes) (teid : UInt32) : S1UDF :=
  match to4 ip with
  | some v => ⟨ebi, 4, v, teid⟩
  | none =>
    match to16 ip with
    | some v => ⟨ebi, 16, v, teid⟩
    | none => ⟨ebi, UInt8.ofNat ip.length, ip, teid⟩

/-- s1udf.go:149-151 `MarshalLen` -/
def S1UDF.marshalLen (f : S1UDF) : Nat := 2 + f.addrLen.toNat + 4

/-- s1udf.go:89-111 `MarshalTo` -/
def S1UDF.marshalTo (f : S1UDF) (b : Bytes) : Res Bytes := do
  if b.length < 2 then err .eof else
  let b ← setAt b 0 (f.ebi &&& 0x0f)
  let b ← setAt b 1 f.addrLen
  if b.length < 2 + f.addrLen.toNat then err .eof else
  let b ← copyAt b 2 (2 + f.addrLen.toNat) f.addr
  let off := 2 + f.addrLen.toNat
  if b.length < off + 4 then err .eof else
  copyAt b off (off + 4) (be32 f.teid)

/-- s1udf.go:78-86 `Marshal` -/
def S1UDF.marshal (f : S1UDF) : Res Bytes := f.marshalTo (List.replicate f.marshalLen 0)

/-- s1udf.go:114-146 `ParseS1UDataForwardingFields` -/
def parseS1UDF (b : Bytes) : Res S1UDF := do
  if b.length < 2 then err .eof else
  let b0 ← idx b 0
  let n ← idx b 1
  if b.length < 2 + n.toNat then err .eof else
  let a ← slice b 2 (2 + n.toNat)
  let off := 2 + n.toNat
  if b.length < off + 4 then err .eof else
  let s ← slice b off (off + 4)
  let teid ← rd32 s
  ok ⟨b0 &&& 0x0f, n, a, teid⟩

/-- s1udf.go:14-33 `NewS1UDataForwardingNetIP` (and `NewS1UDataForwarding`) -/
def newS1UDF (ebi : UInt8) (ip : Bytes) (teid : UInt32) : Res (Option IE) :=
  build 91 (newS1UDFFields ebi ip teid).marshal

/-- s1udf.go:36-43 `S1UDataForwarding` -/
def IE.s1udf (i : IE) : Res S1UDF := if i.typ = 91 then parseS1UDF i.payload else err .invalidType

/-! ### IP Address -/

/-- ip-addr.go:26-37 `NewIPAddressNetIP` -/
def newIPAddress (ip : Bytes) : IE :=
  match to4 ip with
  | some v => newIE 74 0 v
  | none =>
    match to16 ip with
    | some v => newIE 74 0 v
    | none => newIE 74 0 ip

/-- the inner switches ip-addr.go:84-97 and 98-111: an address of 4 or 16 octets whose length is at `at` -/
def addrAt (p : Bytes) (at_ : Nat) : Res Bytes := do
  let n ← idx p at_
  if n = 4 then
    if p.length < at_ + 5 then err .eof else
    slice p (at_ + 1) (at_ + 5)
  else if n = 16 then
    if p.length < at_ + 17 then err .eof else
    slice p (at_ + 1) (at_ + 17)
  else err .malformed

/-- ip-addr.go:64-132 `IP` -/
def IE.ip (i : IE) : Res Bytes :=
  if i.payload.length < 4 then err .eof
  else if i.typ = 74 then ok i.payload
  else if i.typ = 79 then
    if i.payload.length < 5 then err .eof else do
    let f ← parsePAA i.payload
    if f.pdnType = 1 ∨ f.pdnType = 3 then ok f.v4
    else if f.pdnType = 2 then ok f.v6
    else err .notFound
  else if i.typ = 90 then addrAt i.payload 0
  else if i.typ = 91 then addrAt i.payload 1
  else if i.typ = 87 then do
    let f ← parseFTEID i.payload
    let h4 ← i.hasIPv4
    let h6 ← i.hasIPv6
    if h4 then ok (ofOpt f.v4)
    else if h6 then ok (ofOpt f.v6)
    else err .notFound
  else err .invalidType

/-- `if v := ip.To4(); v != nil { return v, nil }; return nil, ErrIEValueNotFound` (and the same with To16) -/
def orNotFound : Option Bytes → Res Bytes
  | some v => ok v
  | none => err .notFound

/-- ip-addr.go:142-152 `IPv4` -/
def IE.ipv4 (i : IE) : Res Bytes := do
  let a ← i.ip
  orNotFound (to4 a)

/-- ip-addr.go:162-203 `IPv6` -/
def IE.ipv6 (i : IE) : Res Bytes :=
  if i.payload.length < 4 then err .eof
  else if i.typ = 74 ∨ i.typ = 90 ∨ i.typ = 91 then do
    let a ← i.ip
    orNotFound (to16 a)
  else if i.typ = 79 then do
    let f ← parsePAA i.payload
    orNotFound (to16 f.v6)
  else if i.typ = 87 then do
    let f ← parseFTEID i.payload
    let h6 ← i.hasIPv6
    if h6 then orNotFound (to16 (ofOpt f.v6)) else err .notFound
  else err .invalidType

end Verif.V2
