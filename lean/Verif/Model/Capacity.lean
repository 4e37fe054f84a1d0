import Verif.Model.V2Msg
import Verif.Model.V1Msg
import Verif.Model.V0Msg
/-
`MarshalTo` and the memory behind the buffer.

The other files treat a buffer as a list of octets, its capacity being its length.  In Go the buffer is a slice: a part of an array
that may go on behind it, as far as its capacity.  `b[i]` is checked against the length, but `b[lo:hi]` against the capacity, so a
slice expression may give a function octets its caller did not hand over.

Here the memory `m` is the array up to the capacity of the caller's slice, and every slice is an offset and a length in it.  A call
changes the memory also when it ends in an error or a panic.
-/
namespace Verif.Cap
open Res

/-- a slice `m[off : off+len]` of capacity `m.length - off` -/
structure Sl where
  off : Nat
  len : Nat
  deriving DecidableEq, Repr

/-- the octets of a slice -/
def Sl.view (s : Sl) (m : Bytes) : Bytes := (m.drop s.off).take s.len

/-- a call: its outcome and the memory afterwards -/
abbrev W (α : Type) := Bytes → Res α × Bytes

def W.pure {α : Type} (a : α) : W α := fun m => (ok a, m)
def W.bind {α β : Type} (f : W α) (k : α → W β) : W β := fun m =>
  match f m with
  | (ok a, m) => k a m
  | (err e, m) => (err e, m)
  | (.panic, m) => (.panic, m)
  | (.diverge, m) => (.diverge, m)

instance : Monad W where
  pure := W.pure
  bind := W.bind

/-- return an error -/
def fail {α : Type} (e : Err) : W α := fun m => (err e, m)
def crash {α : Type} : W α := fun m => (.panic, m)

/-- `b[i] = x` -/
def put (s : Sl) (i : Nat) (x : UInt8) : W Unit := fun m =>
  if i < s.len then (ok (), m.set (s.off + i) x) else (.panic, m)

/-- `b[lo:hi]` -/
def sub (s : Sl) (lo hi : Nat) : W Sl := fun m =>
  if lo ≤ hi ∧ s.off + hi ≤ m.length then (ok ⟨s.off + lo, hi - lo⟩, m) else (.panic, m)

/-- `b[lo:]`, which is `b[lo:len(b)]` -/
def subFrom (s : Sl) (lo : Nat) : W Sl := fun m =>
  if lo ≤ s.len then (ok ⟨s.off + lo, s.len - lo⟩, m) else (.panic, m)

/-- `copy(d, src)`, `binary.BigEndian.PutUint..(d, v)` for a slice `d` of the size of the number -/
def fill (d : Sl) (src : Bytes) : W Unit := fun m =>
  (ok (), m.take d.off ++ src.take d.len ++ m.drop (d.off + min d.len src.length))

/-- `copy(b[lo:hi], src)` -/
def cp (s : Sl) (lo hi : Nat) (src : Bytes) : W Unit := do
  let d ← sub s lo hi
  fill d src

/-! ### GTPv2 -/

/-- gtpv2/message/header.go:65-79 `MarshalTo` -/
def v2Header (h : V2.Header) (s : Sl) : W Unit := do
  put s 0 h.flags
  put s 1 h.typ
  cp s 2 4 (be16 h.length)
  let offset ← (if h.hasTEID then do
      cp s 4 8 (be32 h.teid)
      W.pure 8
    else W.pure 4 : W Nat)
  cp s offset (offset + 3) (Utils.uint32To24 h.seq)
  put s (offset + 3) h.spare
  cp s (offset + 4) h.marshalLen h.payload

variable (g : UInt8 → Bool)

mutual
/-- gtpv2/ie/ie.go:212-242 `MarshalTo` -/
def v2IE : V2.IE → Sl → W Unit
  | .mk t n i p cs, s =>
    if s.len < 4 then fail .eof else do
    put s 0 t
    cp s 1 3 (be16 n)
    put s 3 i
    if g t then v2Children cs 4 s
    else if s.len < (V2.IE.mk t n i p cs).marshalLen g then fail .eof
    else cp s 4 ((V2.IE.mk t n i p cs).marshalLen g) p
/-- gtpv2/ie/ie.go:223-232 the loop over ChildIEs -/
def v2Children : List V2.IE → Nat → Sl → W Unit
  | [], _, _ => W.pure ()
  | c :: cs, off, s =>
    if s.len < off + c.marshalLen g then W.pure () else do
    let d ← sub s off (off + c.marshalLen g)
    v2IE c d
    v2Children cs (off + c.marshalLen g) s
end

/-! ### GTPv1 and GTPv0 -/

/-- gtpv1/ie/ie.go:173-190, gtpv0/ie/ie.go:74-87 `MarshalTo` -/
def tlvIE (c : TLV.Cfg) (i : TLV.IE) (s : Sl) : W Unit :=
  if s.len < i.marshalLen c then fail .tooShortMarshal else do
  put s 0 i.typ
  if c.isEhtl i.typ then
    put s 1 (UInt8.ofNat i.length.toNat)
    cp s 2 (i.marshalLen c) i.payload
  else if !TLV.isTV i.typ then
    cp s 1 3 (be16 i.length)
    cp s 3 (i.marshalLen c) i.payload
  else cp s 1 (i.marshalLen c) i.payload

/-- gtpv1/message/extension-header.go:61-76 `MarshalTo`; with Length = 0 the slice expression b[1:-1] panics -/
def v1Ext (e : V1.Ext) (s : Sl) : W Unit :=
  if s.len < e.marshalLen then fail .tooShortMarshal else do
  put s 0 e.length
  if e.length.toNat = 0 then crash else
  let offset := e.length.toNat * 4 - 1
  if s.len < offset + 1 then fail .tooShortMarshal else do
  cp s 1 offset e.content
  put s offset e.next

/-- gtpv1/message/header.go:100-105 the loop over the extension headers; the offset behind them -/
def v1Exts : List V1.Ext → Nat → Sl → W Nat
  | [], off, _ => W.pure off
  | e :: es, off, s => do
    let d ← subFrom s off
    v1Ext e d
    v1Exts es (off + e.marshalLen) s

/-- gtpv1/message/header.go:71-110 `MarshalTo` -/
def v1Header (h : V1.Header) (s : Sl) : W Unit :=
  if s.len < h.marshalLen then fail .tooShortMarshal else do
  put s 0 h.flags
  put s 1 h.typ
  cp s 2 4 (be16 h.length)
  cp s 4 8 (be32 h.teid)
  (if h.hasSeq then cp s 8 10 (be16 h.seq) else W.pure ())
  (if h.hasNPDU then put s 10 h.npdu else W.pure ())
  (if h.hasExt then put s 11 h.next else W.pure ())
  let offset := if h.hasSeq || h.hasNPDU || h.hasExt then 12 else 8
  let offset ← (if h.hasExt then v1Exts h.exts offset s else W.pure offset)
  let d ← subFrom s offset
  fill d h.payload

/-- gtpv1/message/t-pdu.go:47-54 `MarshalTo` -/
def v1TPDU (h : V1.Header) (s : Sl) : W Unit :=
  if s.len < h.marshalLen then fail .tooShortMarshal else v1Header h.setLength s

/-- gtpv0/message/header.go:59-75 `MarshalTo` -/
def v0Header (h : V0.Header) (s : Sl) : W Unit :=
  if s.len < h.marshalLen then fail .tooShortMarshal else do
  put s 0 h.flags
  put s 1 h.typ
  cp s 2 4 (be16 h.length)
  cp s 4 6 (be16 h.seq)
  cp s 6 8 (be16 h.label)
  cp s 8 12 (be32 (UInt32.ofNat (h.sndcp.toNat * 2 ^ 24 + 0xffffff)))
  cp s 12 20 (be64 h.tid)
  cp s 20 h.marshalLen h.payload

/-- gtpv0/message/t-pdu.go:34-42 `MarshalTo` -/
def v0TPDU (h : V0.Header) (s : Sl) : W Unit :=
  if s.len < h.marshalLen then fail .tooShortMarshal else v0Header h.setLength s

/-! ### messages -/

/-- `MarshalTo` of a message (see `Msg.marshalTo`): the body is put together in an array made for it, whose capacity is its
length (`make`); only the header is written to the buffer -/
def message {η ι : Type} (ho : Msg.HdrOps η) (io : Msg.IEOps ι) (hdr : η → Sl → W Unit) (m : Msg.Message η ι) (s : Sl) : W Unit :=
  if m.schema.lenCheck && ((s.len : Int) < Msg.marshalLen ho io m) then fail .tooShortMarshal else
  let m : Msg.Message η ι := if m.schema.reset then { m with hdr := ho.setPayload m.hdr [] } else m
  let n : Int := Msg.marshalLen ho io m - ho.mlen m.hdr
  if n < 0 then crash else do
  let p ← (fun mem => (Msg.writeFields io m.fields m.schema.order 0 (List.replicate n.toNat 0), mem) : W Bytes)
  hdr (ho.setLength (ho.setPayload m.hdr p)) s

end Verif.Cap
