import Verif.Base
/-
Model of gtpv1/message/header.go and gtpv1/message/extension-header.go.
-/
namespace Verif.V1
open Res

/-- extension-header.go:28-33 `ExtensionHeader` -/
structure Ext where
  typ : UInt8
  length : UInt8
  content : Bytes
  next : UInt8
  deriving DecidableEq, Repr, Inhabited

/-- extension-header.go:157-159 `pad4Len`: `n + ((4 - n) & 0b11)` on two's complement ints -/
def pad4Len (n : Nat) : Nat := n + (4 - n % 4) % 4

namespace Ext
/-- extension-header.go:153-155 `IsComprehensionRequired` -/
def comprehension (e : Ext) : Bool := e.typ >>> 7 == 1

/-- extension-header.go:132-134 `MarshalLen` -/
def marshalLen (e : Ext) : Nat := pad4Len (e.content.length + 2)

/-- extension-header.go:137-139 `SetLength` -/
def setLength (e : Ext) : Ext := { e with length := UInt8.ofNat (pad4Len (e.content.length + 2) / 4) }

/-- extension-header.go:40-49 `NewExtensionHeader` -/
def new (typ : UInt8) (content : Bytes) (next : UInt8) : Ext := setLength ⟨typ, 0, content, next⟩

/-- extension-header.go:61-76 `MarshalTo`; with Length = 0 the slice expression b[1:-1] panics -/
def marshalTo (e : Ext) (b : Bytes) : Res Bytes := do
  if b.length < e.marshalLen then err .tooShortMarshal else
  let b ← setAt b 0 e.length
  if e.length.toNat = 0 then .panic else
  let offset := e.length.toNat * 4 - 1
  if b.length < offset + 1 then err .tooShortMarshal else
  let b ← copyAt b 1 offset e.content
  setAt b offset e.next

/-- extension-header.go:52-58 `Marshal` -/
def marshal (e : Ext) : Res Bytes := e.marshalTo (List.replicate e.marshalLen 0)

/-- extension-header.go:79-107 `ParseExtensionHeader`, `UnmarshalBinary` into a fresh struct -/
def parse (b : Bytes) : Res Ext := do
  if b.length < 2 then err .tooShortParse else
  let n ← idx b 0
  if n == 0 then err .invalidLength else
  let offset := n.toNat * 4 - 1
  if b.length < offset + 1 then err .tooShortParse else
  let content ← slice b 1 offset
  let next ← idx b offset
  ok ⟨0, n, content, next⟩

/-- extension-header.go:110-129 `ParseMultiExtensionHeaders`; fuel counts loop iterations -/
def parseMultiF : Nat → UInt8 → Bytes → Res (List Ext)
  | 0, _, _ => diverge
  | fuel + 1, next, b => do
    let eh ← parse b
    let eh := { eh with typ := next }
    let rest ← sliceFrom b eh.marshalLen
    if eh.next == 0 then ok [eh] else
    let ehs ← parseMultiF fuel eh.next rest
    ok (eh :: ehs)

/-- extension-header.go:110-129 `ParseMultiExtensionHeaders` -/
def parseMulti (b : Bytes) : Res (List Ext) := parseMultiF (b.length + 1) 0 b

/-- the loop of header.go:100-105 (MarshalTo): the header is written into b[offset:] -/
def writeAll : List Ext → Nat → Bytes → Res (Nat × Bytes)
  | [], off, b => ok (off, b)
  | e :: es, off, b => do
    let s ← sliceFrom b off
    let s' ← e.marshalTo s
    writeAll es (off + e.marshalLen) (b.take off ++ s')

end Ext

/-- header.go:13-23 `Header` -/
structure Header where
  flags : UInt8
  typ : UInt8
  length : UInt16
  teid : UInt32
  seq : UInt16
  npdu : UInt8
  next : UInt8
  exts : List Ext
  payload : Bytes
  deriving DecidableEq, Repr, Inhabited

namespace Header

/-- header.go:192-194 `HasSequence` -/
def hasSeq (h : Header) : Bool := ((h.flags >>> 1) &&& (1 : UInt8)) == 1
/-- header.go:210-212 `HasNPDUNumber` -/
def hasNPDU (h : Header) : Bool := (h.flags &&& (1 : UInt8)) == 1
/-- header.go:228-230 `HasExtensionHeader` -/
def hasExt (h : Header) : Bool := ((h.flags >>> 2) &&& (1 : UInt8)) == 1

/-- header.go:245-258 `MarshalLen` -/
def marshalLen (h : Header) : Nat :=
  h.payload.length + 8 + (if h.hasSeq || h.hasNPDU || h.hasExt then 4 else 0)
    + (if h.hasExt then (h.exts.map Ext.marshalLen).sum else 0)

/-- header.go:261-263 `SetLength` -/
def setLength (h : Header) : Header := { h with length := UInt16.ofNat (h.marshalLen - 8) }

/-- header.go:26-38 `NewHeader` -/
def new (flags mtype : UInt8) (teid : UInt32) (seq : UInt16) (payload : Bytes) : Header :=
  setLength ⟨flags, mtype, 0, teid, seq, 0, 0, [], payload⟩

/-- header.go:55-59 `NewHeaderFlags` (ints taken non-negative) -/
def newFlags (v p e s n : Nat) : UInt8 :=
  UInt8.ofNat (((v &&& 0x7) <<< 5) ||| ((p &&& 0x1) <<< 4) ||| ((e &&& 0x1) <<< 2) ||| ((s &&& 0x1) <<< 1) ||| (n &&& 0x1))

/-- header.go:181-184 `SetTEID` -/
def setTEID (h : Header) (t : UInt32) : Header := { h with flags := h.flags ||| ((1 : UInt8) <<< 3), teid := t }

/-- header.go:197-201 `SetSequenceNumber` (`WithSequenceNumber` 204-207) -/
def setSequence (h : Header) (n : UInt16) : Header := setLength { h with flags := h.flags ||| (0x02 : UInt8), seq := n }

/-- header.go:215-219 `SetNPDUNumber` (`WithNPDUNumber` 222-225) -/
def setNPDU (h : Header) (n : UInt8) : Header := setLength { h with flags := h.flags ||| (0x01 : UInt8), npdu := n }

/-- header.go:187-189 `Sequence` -/
def sequence (h : Header) : UInt16 := h.seq

/-- header.go:233-236 `SetNextExtensionHeaderType` -/
def setNextExt (h : Header) (t : UInt8) : Header := { h with flags := h.flags ||| (0x04 : UInt8), next := t }

/-- the loop of `AddExtensionHeaders`: appends while the types chain; second component: `next` after the loop, none when
a mismatch made it return early -/
def addLoop : UInt8 → List Ext → List Ext → List Ext × Option UInt8
  | next, [], acc => (acc, some next)
  | next, e :: es, acc => if next != e.typ then (acc, none) else addLoop e.next es (acc ++ [e])

/-- header.go:296-319 `AddExtensionHeaders`: the header after the call and whether it returned nil -/
def addExts (h : Header) : List Ext → Header × Bool
  | [] => (h, true)
  | e :: es =>
    let h := { h with flags := h.flags ||| (0x04 : UInt8), next := e.typ }
    let r := addLoop e.typ (e :: es) h.exts
    let h := { h with exts := r.1 }
    if r.2 == some 0 then (setLength h, true) else (h, false)

/-- header.go:83-85 `if s { PutUint16(b[offset:offset+2], h.SequenceNumber) }` -/
def putSeq (h : Header) (b : Bytes) : Res Bytes := if h.hasSeq then copyAt b 8 10 (be16 h.seq) else ok b
/-- header.go:87-89 `if pn { b[offset+2] = h.NPDUNumber }` -/
def putNPDU (h : Header) (b : Bytes) : Res Bytes := if h.hasNPDU then setAt b 10 h.npdu else ok b
/-- header.go:91-93 `if e { b[offset+3] = h.NextExtensionHeaderType }` -/
def putNext (h : Header) (b : Bytes) : Res Bytes := if h.hasExt then setAt b 11 h.next else ok b
/-- header.go:99-106 `if e { for ... }` -/
def putExts (h : Header) (offset : Nat) (b : Bytes) : Res (Nat × Bytes) :=
  if h.hasExt then Ext.writeAll h.exts offset b else ok (offset, b)

/-- header.go:71-110 `MarshalTo`; the result is the buffer after the call -/
def marshalTo (h : Header) (b : Bytes) : Res Bytes := do
  if b.length < h.marshalLen then err .tooShortMarshal else
  let b ← setAt b 0 h.flags
  let b ← setAt b 1 h.typ
  let b ← copyAt b 2 4 (be16 h.length)
  let b ← copyAt b 4 8 (be32 h.teid)
  let b ← h.putSeq b
  let b ← h.putNPDU b
  let b ← h.putNext b
  let offset := if h.hasSeq || h.hasNPDU || h.hasExt then 12 else 8
  let r ← h.putExts offset b
  copyFrom r.2 r.1 h.payload

/-- header.go:62-68 `Marshal` -/
def marshal (h : Header) : Res Bytes := h.marshalTo (List.replicate h.marshalLen 0)

/-- header.go:146-148 `if s { h.SequenceNumber = Uint16(b[offset:offset+2]) }` -/
def getSeq (h : Header) (b : Bytes) : Res Header :=
  if h.hasSeq then do
    let s ← slice b 8 10
    let n ← rd16 s
    ok { h with seq := n }
  else ok h
/-- header.go:150-152 `if pn { h.NPDUNumber = b[offset+2] }` -/
def getNPDU (h : Header) (b : Bytes) : Res Header :=
  if h.hasNPDU then do
    let n ← idx b 10
    ok { h with npdu := n }
  else ok h
/-- header.go:154-156 `if e { h.NextExtensionHeaderType = b[offset+3] }` -/
def getNext (h : Header) (b : Bytes) : Res Header :=
  if h.hasExt then do
    let n ← idx b 11
    ok { h with next := n }
  else ok h
/-- header.go:141-158 `if s || pn || e { ... offset += 4 }` -/
def getOpt (h : Header) (b : Bytes) : Res (Header × Nat) :=
  if h.hasSeq || h.hasNPDU || h.hasExt then
    if h.length.toNat < 4 then err .tooShortParse else do
    let h ← h.getSeq b
    let h ← h.getNPDU b
    let h ← h.getNext b
    ok (h, 12)
  else ok (h, 8)
/-- header.go:160-171 `if e { ... }`: extension headers; indexing the empty list would panic -/
def getExts (h : Header) (offset : Nat) (b : Bytes) : Res (Header × Nat) :=
  if h.hasExt then do
    let s ← sliceFrom b offset
    let ehs ← Ext.parseMulti s
    match ehs with
    | [] => .panic
    | e :: es =>
      let ehs := { e with typ := h.next } :: es
      ok ({ h with exts := ehs }, offset + (ehs.map Ext.marshalLen).sum)
  else ok (h, offset)

/-- header.go:113-178 `ParseHeader`, `UnmarshalBinary` into a fresh struct.  `8+h.Length` is uint16 arithmetic and wraps
around. -/
def parse (b : Bytes) : Res Header := do
  if b.length < 8 then err .tooShortParse else
  let flags ← idx b 0
  let typ ← idx b 1
  let s ← slice b 2 4
  let length ← rd16 s
  let s ← slice b 4 8
  let teid ← rd32 s
  if b.length < length.toNat + 8 then err .tooShortParse else
  let h : Header := ⟨flags, typ, length, teid, 0, 0, 0, [], []⟩
  let r ← h.getOpt b
  let r ← r.1.getExts r.2 b
  if r.2 > length.toNat + 8 then err .invalidLength else
  let p ← slice b r.2 (8 + length).toNat
  ok { r.1 with payload := p }

end Header
end Verif.V1
