import Verif.Model.V1IE
/-
Wire format of GTPv1 / GTPv0 information elements as 3GPP TS 29.060 7.7 (09.60 7.9) describes it, written without
using the functions of the model (only the type `IE`).
-/
namespace Verif.TLV.Spec

/-- one protocol version: sizes of the fixed-size types, and whether type 141 has a one-octet length -/
structure Proto where
  fixed : UInt8 → Option Nat
  short : UInt8 → Bool

/-- sizes of the values of the GTPv1 fixed-size types the library knows.
(TS 29.060 gives 5 octets for type 18, the library 4; see DESIGN.md) -/
def v1 : Proto where
  fixed t := match t.toNat with
    | 0 => some 0 | 1 => some 1 | 2 => some 8 | 3 => some 6 | 4 => some 4 | 5 => some 4 | 8 => some 1 | 9 => some 28
    | 11 => some 1 | 12 => some 3 | 13 => some 1 | 14 => some 1 | 15 => some 1 | 16 => some 4 | 17 => some 4
    | 18 => some 4 | 19 => some 1 | 20 => some 1 | 21 => some 1 | 22 => some 9 | 23 => some 1 | 24 => some 1
    | 25 => some 2 | 26 => some 2 | 27 => some 2 | 28 => some 2 | 29 => some 1 | 127 => some 4
    | _ => none
  short t := t.toNat == 141

/-- sizes of the values of the GTPv0 fixed-size types the library knows -/
def v0 : Proto where
  fixed t := match t.toNat with
    | 0 => some 0 | 1 => some 1 | 2 => some 8 | 3 => some 6 | 4 => some 4 | 5 => some 4 | 6 => some 3 | 8 => some 1
    | 9 => some 28 | 11 => some 1 | 12 => some 3 | 13 => some 1 | 14 => some 1 | 15 => some 1 | 16 => some 2
    | 17 => some 2 | 18 => some 3 | 19 => some 1 | 127 => some 4
    | _ => none
  short _ := false

variable (p : Proto)

/-- the octets of an IE: type; length of the value unless the type is below 128 (one octet for the extension header
type list, two octets otherwise); value -/
def enc (x : IE) : Bytes :=
  if x.typ.toNat < 128 then x.typ :: x.payload
  else if p.short x.typ then x.typ :: UInt8.ofNat x.payload.length :: x.payload
  else x.typ :: UInt8.ofNat (x.payload.length / 256) :: UInt8.ofNat x.payload.length :: x.payload

/-- an IE that can be represented: the value has the size its type demands (types below 128) or fits the length
field; the Length member of the struct is 0 for fixed-size types and the size of the value otherwise.  A type below 128
whose size the library does not know is represented without a value. -/
def wf (x : IE) : Bool :=
  if x.typ.toNat < 128 then
    decide (x.payload.length = (p.fixed x.typ).getD 0) && x.length == 0
  else decide (x.payload.length < if p.short x.typ then 256 else 65536) && decide (x.length.toNat = x.payload.length)

/-- the type carries a value, i.e. it is not a type below 128 with no value (such as the reserved type 0) -/
def hasValue (x : IE) : Bool := decide (128 ≤ x.typ.toNat) || !x.payload.isEmpty

/-- octets of a sequence of IEs -/
def encs (l : List IE) : Bytes := (l.map (enc p)).flatten

end Verif.TLV.Spec
