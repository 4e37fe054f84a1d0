import Verif.Model.V2Msg
import Verif.Model.V1Msg
import Verif.Model.V0Msg
/-
UnmarshalBinary called on a value that has been used before (the other models decode into a fresh one).  `old` is the value
before the call; members the code does not assign keep their value.  What a value holds after an error is not modelled.
-/
namespace Verif.V2
open Res

/-- gtpv2/ie/ie.go:254-278 `UnmarshalBinary`; ChildIEs is assigned only for grouped types.  The elements inside are parsed into
fresh values. -/
def IE.into (g : UInt8 → Bool) (old : IE) (b : Bytes) : Res IE := do
  if b.length < 4 then err .eof else
  let t ← idx b 0
  let s ← slice b 1 3
  let n ← rd16 s
  if n.toNat > b.length - 4 then err .invalidLength else
  let i ← idx b 3
  let p ← slice b 4 (4 + n.toNat)
  if g t then
    let cs ← parseMultiF g b.length p
    ok (.mk t n i p cs)
  else ok (.mk t n i p old.children)

/-- gtpv2/message/header.go:91-135 `UnmarshalBinary` -/
def Header.into (old : Header) (b : Bytes) : Res Header := do
  if b.length < 12 then err .tooShortParse else
  let flags ← idx b 0
  let typ ← idx b 1
  let s ← slice b 2 4
  let length ← rd16 s
  if length.toNat < 4 then err .tooShortParse else
  let h : Header := { old with flags, typ, length }
  if h.hasTEID then
    if length.toNat < 8 then err .tooShortParse else
    let s ← slice b 4 8
    let teid ← rd32 s
    let s ← slice b 8 11
    let seq := Utils.uint24To32 s
    let spare ← idx b 11
    let h := { h with teid, seq, spare }
    if length.toNat + 4 > b.length then
      let p ← sliceFrom b 12
      ok { h with payload := p }
    else if (4 + length).toNat ≥ 12 then
      let p ← slice b 12 (4 + length).toNat
      ok { h with payload := p }
    else err .invalidLength
  else
    let s ← slice b 4 7
    let seq := Utils.uint24To32 s
    let spare ← idx b 7
    let h := { h with seq, spare }
    if length.toNat + 4 > b.length then
      let p ← sliceFrom b 8
      ok { h with payload := p }
    else if (4 + length).toNat ≥ 8 then
      let p ← slice b 8 (4 + length).toNat
      ok { h with payload := p }
    else err .invalidLength

end Verif.V2

namespace Verif.V1
open Res

/-- gtpv1/message/extension-header.go:88-107 `UnmarshalBinary`; Type is not assigned -/
def Ext.into (old : Ext) (b : Bytes) : Res Ext := do
  if b.length < 2 then err .tooShortParse else
  let n ← idx b 0
  if n == 0 then err .invalidLength else
  let offset := n.toNat * 4 - 1
  if b.length < offset + 1 then err .tooShortParse else
  let content ← slice b 1 offset
  let next ← idx b offset
  ok { old with length := n, content, next }

/-- gtpv1/message/header.go:122-178 `UnmarshalBinary`: sequence number, N-PDU number, next type and extension headers are
assigned only when their flag is set -/
def Header.into (old : Header) (b : Bytes) : Res Header := do
  if b.length < 8 then err .tooShortParse else
  let flags ← idx b 0
  let typ ← idx b 1
  let s ← slice b 2 4
  let length ← rd16 s
  let s ← slice b 4 8
  let teid ← rd32 s
  if b.length < length.toNat + 8 then err .tooShortParse else
  let h : Header := { old with flags, typ, length, teid }
  let r ← h.getOpt b
  let r ← r.1.getExts r.2 b
  if r.2 > length.toNat + 8 then err .invalidLength else
  let p ← slice b r.2 (8 + length).toNat
  ok { r.1 with payload := p }

end Verif.V1

namespace Verif.V0
open Res

/-- gtpv0/message/header.go:86-105 `UnmarshalBinary` -/
def Header.into (old : Header) (b : Bytes) : Res Header := do
  if b.length < 20 then err .tooShortParse else
  let flags ← idx b 0
  let typ ← idx b 1
  let s ← slice b 2 4
  let length ← rd16 s
  let s ← slice b 4 6
  let seq ← rd16 s
  let s ← slice b 6 8
  let label ← rd16 s
  let sndcp ← idx b 9
  let s ← slice b 12 20
  let tid ← rd64 s
  let h : Header := { old with flags, typ, length, seq, sndcp, label, tid }
  if length.toNat + 20 ≠ b.length then do
    let p ← sliceFrom b 20
    ok { h with payload := p }
  else do
    let p ← slice b 20 (20 + length).toNat
    ok { h with payload := p }

end Verif.V0

namespace Verif.TLV
open Res
variable (c : Cfg)

/-- gtpv1/ie/ie.go:219-232, gtpv0/ie/ie.go:111-123: MarshalLen is that of the value with its old Payload -/
def intoTV (i : IE) (b : Bytes) : Res IE := do
  if b.length < 2 then err .tooShortParse else
  if i.marshalLen c > b.length then err .invalidLength else
  let i := { i with length := 0 }
  let p ← slice b 1 (i.marshalLen c)
  ok { i with payload := p }

/-- gtpv1/ie/ie.go:234-247, gtpv0/ie/ie.go:125-138 -/
def intoTLV (i : IE) (b : Bytes) : Res IE := do
  if b.length < 3 then err .tooShortParse else
  let lb ← slice b 1 3
  let n ← rd16 lb
  let i := { i with length := n }
  if n.toNat + 3 > b.length then err .invalidLength else
  let p ← slice b 3 (3 + n.toNat)
  ok { i with payload := p }

/-- gtpv1/ie/ie.go:249-267: again MarshalLen is that of the old Payload -/
def intoEHTL (i : IE) (b : Bytes) : Res IE := do
  if b.length < 2 then err .tooShortParse else
  if i.marshalLen c > b.length then err .invalidLength else
  let n8 ← idx b 1
  let i := { i with length := UInt16.ofNat n8.toNat }
  if 2 + i.length.toNat > b.length then err .invalidLength else
  let p ← slice b 2 (2 + i.length.toNat)
  ok { i with payload := p }

/-- gtpv1/ie/ie.go:202-217, gtpv0/ie/ie.go:99-109 `UnmarshalBinary` -/
def IE.into (old : IE) (b : Bytes) : Res IE := do
  if b.length < 2 then err .tooShortParse else
  let t ← idx b 0
  let i := { old with typ := t }
  if c.isEhtl t then intoEHTL c i b
  else if isTV t then intoTV c i b
  else intoTLV i b

end Verif.TLV

namespace Verif.Msg
open Res
variable {η ι : Type}

/-- UnmarshalBinary of a message: the header is a fresh one from ParseHeader; the loop over the elements starts with the fields
the message has (gtpv2/message/create-session-req.go:709-910 and likewise the other message files) -/
def into (ho : HdrOps η) (io : IEOps ι) (old : Message η ι) (b : Bytes) : Res (Message η ι) := do
  let h ← ho.parse b
  if old.schema.early && (ho.payload h).length < 2 then ok { old with hdr := h } else
  let ies ← io.parseMulti (ho.payload h)
  ok { old with hdr := h, fields := ies.foldl (fun F x =>
    (sel old.schema.unRules old.schema.unDefault (io.typ x).toNat (io.inst x).toNat).apply F x) old.fields }

/-- gtpv2/message/generic.go:90-105, gtpv1/message/generic.go:73-88, gtpv0/message/generic.go:78-93 `Generic.UnmarshalBinary`:
the list of elements is assigned, not extended -/
def intoGeneric (ho : HdrOps η) (io : IEOps ι) (old : Message η ι) (b : Bytes) : Res (Message η ι) := do
  let h ← ho.parse b
  if (ho.payload h).length < 2 then ok { old with hdr := h } else
  let ies ← io.parseMulti (ho.payload h)
  ok { old with hdr := h, fields := upd old.fields 0 ies }

end Verif.Msg
