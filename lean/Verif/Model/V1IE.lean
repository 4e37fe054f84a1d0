import Verif.Model.Msg
/-
GTPv1 and GTPv0 information elements (gtpv1/ie/ie.go, gtpv0/ie/ie.go).

The two packages contain the same code for the generic part of an IE, apart from the table of fixed lengths and the
extra case for the Extension Header Type List (type 141) in GTPv1.  The model has one copy, parametrised by these two
things, and two instances `v1` and `v0`.

Simplifications: a `*IE` is a value; nil receivers are not modelled here; a Go `map` lookup is a list lookup.
-/
namespace Verif.TLV
open Res

/-- what differs between gtpv1/ie and gtpv0/ie -/
structure Cfg where
  /-- `tvLengthMap` -/
  tv : List (UInt8 × Nat)
  /-- type 141 has a one-octet length -/
  ehtl : Bool

/-- gtpv1/ie/ie.go:269-298 `tvLengthMap` -/
def v1 : Cfg where
  tv := [(0, 0), (1, 1), (2, 8), (3, 6), (4, 4), (5, 4), (8, 1), (9, 28), (11, 1), (12, 3), (13, 1), (14, 1), (15, 1),
    (16, 4), (17, 4), (18, 4), (19, 1), (20, 1), (21, 1), (22, 9), (23, 1), (24, 1), (25, 2), (26, 2), (27, 2),
    (28, 2), (29, 1), (127, 4)]
  ehtl := true

/-- gtpv0/ie/ie.go:140-160 `tvLengthMap` -/
def v0 : Cfg where
  tv := [(0, 0), (1, 1), (2, 8), (3, 6), (4, 4), (5, 4), (6, 3), (8, 1), (9, 28), (11, 1), (12, 3), (13, 1), (14, 1),
    (15, 1), (16, 2), (17, 2), (18, 3), (19, 1), (127, 4)]
  ehtl := false

/-- gtpv1/ie/ie.go:149-153, gtpv0/ie/ie.go:51-55 `IE` -/
structure IE where
  typ : UInt8
  length : UInt16
  payload : Bytes
  deriving DecidableEq, Repr, Inhabited

variable (c : Cfg)

/-- `l, ok := tvLengthMap[int(i.Type)]` -/
def Cfg.tvLen (t : UInt8) : Option Nat := c.tv.lookup t

/-- `i.Type == ExtensionHeaderTypeList` (GTPv1 only) -/
def Cfg.isEhtl (t : UInt8) : Bool := c.ehtl && t == 141

/-- gtpv1/ie/ie.go:301-303, gtpv0/ie/ie.go:163-165 `IsTV` -/
def isTV (t : UInt8) : Bool := decide (t.toNat < 0x80)

/-- gtpv1/ie/ie.go:306-320, gtpv0/ie/ie.go:168-176 `MarshalLen` -/
def IE.marshalLen (i : IE) : Nat :=
  match c.tvLen i.typ with
  | some l => l + 1
  | none =>
    if i.typ.toNat < 128 then 1 + i.payload.length
    else if c.isEhtl i.typ then 2 + i.payload.length
    else 3 + i.payload.length

/-- gtpv1/ie/ie.go:323-330, gtpv0/ie/ie.go:179-186 `SetLength` -/
def IE.setLength (i : IE) : IE :=
  match c.tvLen i.typ with
  | some _ => { i with length := 0 }
  | none => { i with length := UInt16.ofNat i.payload.length }

/-- gtpv1/ie/ie.go:156-161, gtpv0/ie/ie.go:58-62 `New` -/
def newIE (t : UInt8) (p : Bytes) : IE := IE.setLength c ⟨t, 0, p⟩

/-- gtpv1/ie/ie.go:173-190, gtpv0/ie/ie.go:74-87 `MarshalTo`; the result is the buffer after the call -/
def IE.marshalTo (i : IE) (b : Bytes) : Res Bytes := do
  if b.length < i.marshalLen c then err .tooShortMarshal else
  let b ← setAt b 0 i.typ
  if c.isEhtl i.typ then
    let b ← setAt b 1 (UInt8.ofNat i.length.toNat)
    copyAt b 2 (i.marshalLen c) i.payload
  else if !isTV i.typ then
    let b ← copyAt b 1 3 (be16 i.length)
    copyAt b 3 (i.marshalLen c) i.payload
  else copyAt b 1 (i.marshalLen c) i.payload

/-- gtpv1/ie/ie.go:164-170, gtpv0/ie/ie.go:65-71 `Marshal` -/
def IE.marshal (i : IE) : Res Bytes := i.marshalTo c (List.replicate (i.marshalLen c) 0)

/-- gtpv1/ie/ie.go:219-232, gtpv0/ie/ie.go:111-123 `parseTVFromBytes`; the IE being filled has no payload yet -/
def decodeTV (t : UInt8) (b : Bytes) : Res IE := do
  if b.length < 2 then err .tooShortParse else
  let i : IE := ⟨t, 0, []⟩
  if i.marshalLen c > b.length then err .invalidLength else
  let p ← slice b 1 (i.marshalLen c)
  ok ⟨t, 0, p⟩

/-- gtpv1/ie/ie.go:234-247, gtpv0/ie/ie.go:125-138 `parseTLVFromBytes` -/
def decodeTLV (t : UInt8) (b : Bytes) : Res IE := do
  if b.length < 3 then err .tooShortParse else
  let lb ← slice b 1 3
  let n ← rd16 lb
  if n.toNat + 3 > b.length then err .invalidLength else
  let p ← slice b 3 (3 + n.toNat)
  ok ⟨t, n, p⟩

/-- gtpv1/ie/ie.go:249-267 `decodeExtensionHeaderTypeList` -/
def decodeEHTL (t : UInt8) (b : Bytes) : Res IE := do
  if b.length < 2 then err .tooShortParse else
  let i : IE := ⟨t, 0, []⟩
  if i.marshalLen c > b.length then err .invalidLength else
  let n8 ← idx b 1
  let n := UInt16.ofNat n8.toNat
  if 2 + n.toNat > b.length then err .invalidLength else
  let p ← slice b 2 (2 + n.toNat)
  ok ⟨t, n, p⟩

/-- gtpv1/ie/ie.go:193-217, gtpv0/ie/ie.go:90-109 `Parse`, `UnmarshalBinary` -/
def parse (b : Bytes) : Res IE := do
  if b.length < 2 then err .tooShortParse else
  let t ← idx b 0
  if c.isEhtl t then decodeEHTL c t b
  else if isTV t then decodeTV c t b
  else decodeTLV t b

/-- gtpv1/ie/ie.go:354-367, gtpv0/ie/ie.go:210-223 `ParseMultiIEs`: loop while bytes are left; `diverge` when the fuel does not suffice -/
def parseMultiF : Nat → Bytes → Res (List IE)
  | 0, b => if b.length > 0 then diverge else ok []
  | fuel + 1, b => do
    if b.length > 0 then
      let i ← parse c b
      let rest ← sliceFrom b (i.marshalLen c)
      let is ← parseMultiF fuel rest
      ok (i :: is)
    else ok []

/-- gtpv1/ie/ie.go:354-367, gtpv0/ie/ie.go:210-223 `ParseMultiIEs` -/
def parseMulti (b : Bytes) : Res (List IE) := parseMultiF c (b.length + 1) b

/-- GTPv1 / GTPv0 IEs used by the messages (no instances) -/
def ieOps (c : Cfg) : Msg.IEOps IE where
  typ := IE.typ
  inst _ := 0
  mlen := IE.marshalLen c
  mto := IE.marshalTo c
  parseMulti := parseMulti c

end Verif.TLV
