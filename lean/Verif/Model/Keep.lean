import Verif.Model.V2Msg
import Verif.Model.V1Msg
import Verif.Model.V0Msg
/-
Messages that are kept while the buffer they were read from is used again.

Reading copies numbers into the structs; payloads of headers, elements and extension headers are slices of the buffer
(gtpv2/message/header.go:111, 115, 125, 129, gtpv2/ie/ie.go:267, gtpv1/message/header.go:176, gtpv1/message/extension-header.go:103,
gtpv1/ie/ie.go:229, 245, 264, gtpv0/message/header.go:100, 103, gtpv0/ie/ie.go:120, 136).  So an element that was read is here the element
with the place in the buffer where it began; what a program sees of it depends on what the buffer holds when it looks.

Simplifications: the buffer is the only memory that changes (the program does not assign to the structs meanwhile; Add, which appends to
a payload, is in Model/Alias.lean); a read of the buffer at the same time as a write is not modelled.
-/
namespace Verif

/-- `m[off:off+n]` -/
def look (m : Bytes) (off n : Nat) : Bytes := (m.drop off).take n

namespace Msg
open Res
variable {ι η : Type}

/-- where a version has its slices: where the payload of a header begins, what is seen of a header and of an element that began at a
place, when the buffer holds m -/
structure Mem (η ι : Type) where
  start : η → Nat
  hseen : Bytes → η → η
  seen : Bytes → Nat → ι → ι

/-- the loops of ParseMultiIEs: each element begins where the one before ends (`b = b[i.MarshalLen():]`) -/
def positions (io : IEOps ι) : Nat → List ι → List (ι × Nat)
  | _, [] => []
  | off, x :: xs => (x, off) :: positions io (off + io.mlen x) xs

/-- elements with their places, for the code that puts elements into fields -/
def ioAt (io : IEOps ι) : IEOps (ι × Nat) where
  typ p := io.typ p.1
  inst p := io.inst p.1
  mlen p := io.mlen p.1
  mto p := io.mto p.1
  parseMulti b := do
    let xs ← io.parseMulti b
    ok (positions io 0 xs)

/-- UnmarshalBinary, as `unmarshal`, with the places -/
def keep (ho : HdrOps η) (io : IEOps ι) (mm : Mem η ι) (s : Schema) (b : Bytes) : Res (Message η (ι × Nat)) := do
  let h ← ho.parse b
  if s.early && (ho.payload h).length < 2 then ok { schema := s, hdr := h, fields := Fields.empty } else
  let ies ← io.parseMulti (ho.payload h)
  ok { schema := s, hdr := h, fields := classify (ioAt io) s.unRules s.unDefault (positions io (mm.start h) ies) }

/-- what is seen of the message when the buffer holds `m` -/
def view (mm : Mem η ι) (m : Bytes) (M : Message η (ι × Nat)) : Message η ι :=
  { schema := M.schema, hdr := mm.hseen m M.hdr, fields := fun f => (M.fields f).map fun p => mm.seen m p.2 p.1 }

end Msg

namespace V2
open Res Msg
mutual
/-- ie.go:256-278: type, length and instance are copied, the payload is `b[4:4+Length]`; the children of a grouped element are read from
the payload -/
def seen (g : UInt8 → Bool) (m : Bytes) (off : Nat) : IE → IE
  | .mk t n i p cs => .mk t n i (look m (off + 4) p.length) (seens g m (off + 4) cs)
def seens (g : UInt8 → Bool) (m : Bytes) (off : Nat) : List IE → List IE
  | [] => []
  | c :: cs => seen g m off c :: seens g m (off + c.marshalLen g) cs
end

/-- header.go:100-131: the payload begins at `teidHeaderSize` or `noTEIDHeaderSize` -/
def Header.start (h : Header) : Nat := if h.hasTEID then 12 else 8

def mem (g : UInt8 → Bool) : Mem Header IE where
  start := Header.start
  hseen m h := { h with payload := look m h.start h.payload.length }
  seen := seen g

/-- message.go:309-413 `Parse`, as `parseMsg` -/
def keepMsg (g : UInt8 → Bool) (b : Bytes) : Res (Msg.Message Header (IE × Nat)) := do
  if b.length < 2 then err .eof else
  let t ← idx b 1
  keep hdrOps (ieOps g) (mem g) (schemaOf t) b
end V2

namespace TLV
/-- gtpv1/ie/ie.go:229, 245, 264, gtpv0/ie/ie.go:120, 136: where the payload begins -/
def Cfg.valueAt (c : Cfg) (t : UInt8) : Nat := if c.isEhtl t then 2 else if isTV t then 1 else 3

def seen (c : Cfg) (m : Bytes) (off : Nat) (x : IE) : IE := { x with payload := look m (off + c.valueAt x.typ) x.payload.length }
end TLV

namespace V1
open Res Msg
/-- extension-header.go:103 `e.Content = b[1:offset]`, for headers that begin at `off` one after the other (lines 113-127) -/
def seenExts (m : Bytes) : Nat → List Ext → List Ext
  | _, [] => []
  | off, e :: es => { e with content := look m (off + 1) e.content.length } :: seenExts m (off + e.marshalLen) es

/-- header.go:139-159: where the extension headers begin -/
def Header.extsAt (h : Header) : Nat := if h.hasSeq || h.hasNPDU || h.hasExt then 12 else 8
/-- header.go:160-176: where the payload begins -/
def Header.start (h : Header) : Nat := h.extsAt + (h.exts.map Ext.marshalLen).sum

def mem : Mem Header TLV.IE where
  start := Header.start
  hseen m h := { h with exts := seenExts m h.extsAt h.exts, payload := look m h.start h.payload.length }
  seen := TLV.seen TLV.v1

inductive KeptMsg where
  | msg : Msg.Message Header (TLV.IE × Nat) → KeptMsg
  | tpdu : Header → KeptMsg

/-- message.go:117-215 `Parse`, as `parseMsg` -/
def keepMsg (b : Bytes) : Res KeptMsg := do
  if b.length < 2 then err .tooShortParse else
  let t ← idx b 1
  if t == 255 then do
    let h ← Header.parse b
    ok (.tpdu h)
  else do
    let m ← keep hdrOps ieOps mem (schemaOf t) b
    ok (.msg m)

def KeptMsg.view (m : Bytes) : KeptMsg → AnyMsg
  | .msg M => .msg (Msg.view mem m M)
  | .tpdu h => .tpdu (mem.hseen m h)

def KeptMsg.hdr : KeptMsg → Header
  | .msg M => M.hdr
  | .tpdu h => h
end V1

namespace V0
open Res Msg
/-- header.go:100, 103 -/
def mem : Mem Header TLV.IE where
  start _ := 20
  hseen m h := { h with payload := look m 20 h.payload.length }
  seen := TLV.seen TLV.v0

inductive KeptMsg where
  | msg : Msg.Message Header (TLV.IE × Nat) → KeptMsg
  | tpdu : Header → KeptMsg

/-- gtpv0/message/message.go:106-198 `Parse`, as `parseMsg` -/
def keepMsg (b : Bytes) : Res KeptMsg := do
  if b.length < 2 then err .tooShortParse else
  let t ← idx b 1
  if t == 255 then do
    let h ← Header.parse b
    ok (.tpdu h)
  else do
    let m ← keep hdrOps ieOps mem (schemaOf t) b
    ok (.msg m)

def KeptMsg.view (m : Bytes) : KeptMsg → AnyMsg
  | .msg M => .msg (Msg.view mem m M)
  | .tpdu h => .tpdu (mem.hseen m h)

def KeptMsg.hdr : KeptMsg → Header
  | .msg M => M.hdr
  | .tpdu h => h
end V0
end Verif
