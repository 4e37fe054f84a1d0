import Verif.Model.V1Header
/-
Wire format of the GTPv1 header (3GPP TS 29.060 6, TS 29.281 5.1) and of extension headers, written without using the
functions of the model (only the types).
-/
namespace Verif.V1.Spec

/-- bit k of an octet -/
def bit (f : UInt8) (k : Nat) : Bool := decide (f.toNat / 2 ^ k % 2 = 1)

/-- length of an extension header in units of four octets: length octet, content, next type, rounded up -/
def units (e : Ext) : Nat := (e.content.length + 2 + 3) / 4

/-- extension header: length in units of four octets, content padded with zeros, type of the next header -/
def encExt (e : Ext) : Bytes :=
  [UInt8.ofNat (units e)] ++ e.content ++ List.replicate (4 * units e - 2 - e.content.length) 0 ++ [e.next]

/-- octets 9-12, present iff one of the bits E, S, PN is set -/
def encOpt (h : Header) : Bytes :=
  if bit h.flags 2 || bit h.flags 1 || bit h.flags 0 then
    (if bit h.flags 1 then be16 h.seq else [0, 0]) ++ [if bit h.flags 0 then h.npdu else 0] ++
      [if bit h.flags 2 then h.next else 0]
  else []

def encExts (h : Header) : Bytes := if bit h.flags 2 then (h.exts.map encExt).flatten else []

/-- the octets of a header with its payload -/
def encH (h : Header) : Bytes :=
  [h.flags, h.typ] ++ be16 h.length ++ be32 h.teid ++ encOpt h ++ encExts h ++ h.payload

/-- the extension headers form a chain starting with type t: each one's next type is the type of its successor, zero
exactly at the end -/
def chain : UInt8 → List Ext → Bool
  | _, [] => false
  | t, [e] => e.typ == t && e.next == 0
  | t, e :: es => e.typ == t && e.next != 0 && chain e.next es

/-- the Length member of an extension header says how long it is, and the length fits one octet -/
def extOK (e : Ext) : Bool := decide (e.length.toNat = units e)

/-- a header that can be represented: its Length member counts the octets after the first 8 and the whole fits
16 bits; members whose flag is not set are zero; with the E flag the extension headers form a chain -/
structure Wf (h : Header) : Prop where
  len : h.length.toNat + 8 = (encH h).length
  fits : (encH h).length < 65536
  seq : bit h.flags 1 = false → h.seq = 0
  npdu : bit h.flags 0 = false → h.npdu = 0
  noext : bit h.flags 2 = false → h.next = 0 ∧ h.exts = []
  ext : bit h.flags 2 = true → chain h.next h.exts = true ∧
    ∀ e ∈ h.exts, extOK e = true ∧ (e.content.length + 2) % 4 = 0

end Verif.V1.Spec
