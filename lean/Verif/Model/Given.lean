import Verif.Model.Typed.Addr
import Verif.Model.Typed.Plain
import Verif.Model.Typed.Indication
import Verif.Model.Typed.PCO
import Verif.Model.Typed.TFT
import Verif.Model.Typed.V1
import Verif.Model.Typed.V1PCO
/-
Elements and the slices they are built from (the constructors of gtpv2/ie, gtpv1/ie and gtpv0/ie that take a []byte, a net.IP or a
list of octets).

The models of the constructors (Model/Typed) take octets.  In Go they are given slices, parts of arrays that the caller goes on
using.  Some constructors make a payload of their own and copy into it; others take the slice they are given for the payload.
Here memory is a list of arrays, a slice is a part of one of them, and an element holds a slice.  An array made by a constructor
is put at the end of the list; nobody but the element has it.  The structures between a slice and an element (F-TEID fields,
protocol configuration containers, packet filter components) hold the slices they are given, too, but the element built from them
has a payload of its own (`Marshal`), which is that of the time at which the element is built.
-/
namespace Verif
open Res NetIP

/-- the arrays of the program -/
abbrev Arrays := List Bytes

/-- a slice: a part of an array -/
structure Part where
  arr : Nat
  off : Nat
  len : Nat
  deriving DecidableEq, Repr

/-- the octets of a slice -/
def Part.read (m : Arrays) (s : Part) : Bytes := ((m.getD s.arr []).drop s.off).take s.len

/-- net.IP.To4 as a slice: a slice of four octets is returned as it is, of an IPv4-mapped one the last four octets of the same
array are -/
def Part.to4 (m : Arrays) (s : Part) : Option Part :=
  if s.len = 4 then some s
  else if s.len = 16 ∧ (s.read m).take 12 = v4Prefix then some ⟨s.arr, s.off + 12, 4⟩
  else none

namespace V2
variable (m : Arrays)

/-- ie.go:166-172 an element without children -/
structure HeldIE where
  typ : UInt8
  len : UInt16
  inst : UInt8
  pay : Part
  deriving DecidableEq, Repr

/-- what a program sees of the element -/
def HeldIE.view (h : HeldIE) : IE := .mk h.typ h.len h.inst (h.pay.read m) []

/-- ie.go:175-184 `New`: the payload is the slice given -/
def heldNew (t ins : UInt8) (s : Part) : HeldIE := ⟨t, UInt16.ofNat s.len, ins &&& 0x0f, s⟩

/-- the constructors that hand their slice to `New` -/
inductive Keeping where
  | new (t ins : UInt8) (data : Part)
  | ipAddress (ip : Part)

def Keeping.run : Keeping → HeldIE
  | .new t ins s => heldNew t ins s
  /- ip-addr.go:26-37 `NewIPAddressNetIP`; `To16` of a slice that has no `To4` is that slice -/
  | .ipAddress ip =>
    match ip.to4 m with
    | some v => heldNew 74 0 v
    | none => heldNew 74 0 ip

/-- the slice given -/
def Keeping.arg : Keeping → Part
  | .new _ _ s => s
  | .ipAddress ip => ip

/-- the element in terms of octets (Model/V2IE.lean, Model/Typed/Addr.lean) -/
def Keeping.value : Keeping → IE
  | .new t ins s => newIE t ins (s.read m)
  | .ipAddress ip => newIPAddress (ip.read m)

/-- the constructors that make a payload and copy into it -/
inductive Copying where
  | fteid (ifType : UInt8) (teid : UInt32) (v4 v6 : Part)
  | paa (ip : Part) (v6prefix : UInt8)
  | paaDual (v4 v6 : Part) (v6prefix : UInt8)
  | s1udf (ebi : UInt8) (ip : Part) (teid : UInt32)
  | s103 (ip : Part) (key : UInt32) (ebis : Part)
  | ranNAS (p t : UInt8) (cause : Part)
  | privateExtension (id : UInt16) (value : Part)
  | indication (octs : Part)
  /-- containers with their identifiers -/
  | pco (proto : UInt8) (opts : List (UInt16 × Part))
  /-- `t` tells Bearer TFT from Traffic Aggregate Description; packet filters with direction, identifier, precedence and components -/
  | tft (t op : UInt8) (filters : List (UInt8 × UInt8 × UInt8 × List (UInt8 × Part))) (ids : Part) (params : List (UInt8 × Part))

/-- the element in terms of octets -/
def Copying.value : Copying → Res (Option IE)
  | .fteid f t a b => newFTEID f t (a.read m) (b.read m)
  | .paa ip p => newPAA (ip.read m) p
  | .paaDual a b p => newPAADual (a.read m) (b.read m) p
  | .s1udf e ip t => newS1UDF e (ip.read m) t
  | .s103 ip k e => newS103 (ip.read m) k (e.read m)
  | .ranNAS p t c => newRANNAS p t (c.read m)
  | .privateExtension i v => do ok (some (← newPrivateExtension i (v.read m)))
  | .indication o => ok (some (newIndicationOctets (o.read m)))
  | .pco p os => newPCO p (os.map fun o => newContainer o.1 (o.2.read m))
  | .tft t op fs ids ps =>
    newBearerTFT t op (fs.map fun f => some (newFilter f.1 f.2.1 f.2.2.1 (f.2.2.2.map fun c => ⟨c.1, c.2.read m⟩))) (ids.read m)
      (ps.map fun p => some (newParam p.1 (p.2.read m)))

/-- f-teid.go:25-33 with :74-81, paa.go:46-74 with :95-102, s1udf.go:25-33 with :79-86, s103pdf.go:25-33 with :81-88,
ran-nas-cause.go:13-21 with :62-69, private-extension.go:13-18, indication.go:143-153, pco.go:19-27,
bearer-tft.go:22-30, tad.go:11-19: a new array takes the payload -/
def Copying.run (c : Copying) : Res (Arrays × Option HeldIE) :=
  match c.value m with
  | ok (some (.mk t n i p _)) => ok (m ++ [p], some ⟨t, n, i, ⟨m.length, 0, p.length⟩⟩)
  | ok none => ok (m, none)
  | err e => err e
  | .panic => .panic
  | diverge => diverge

/-- a grouped element: a payload, and pointers to its children -/
structure HeldGroup where
  typ : UInt8
  len : UInt16
  inst : UInt8
  pay : Part
  children : List HeldIE

def HeldGroup.view (h : HeldGroup) : IE := .mk h.typ h.len h.inst (h.pay.read m) (h.children.map (HeldIE.view m))

/-- ie_grouped.go:12-30 `NewGroupedIE` of elements without children: the payload is the result of `append`, the children are the
elements given -/
def groupRun (g : UInt8 → Bool) (t : UInt8) (cs : List HeldIE) : Res (Arrays × Option HeldGroup) :=
  match newGrouped g t (cs.map fun c => some (c.view m)) with
  | ok (some (.mk t n i p _)) => ok (m ++ [p], some ⟨t, n, i, ⟨m.length, 0, p.length⟩, cs⟩)
  | ok none => ok (m, none)
  | err e => err e
  | .panic => .panic
  | diverge => diverge

end V2

namespace TLV
variable (m : Arrays)

/-- gtpv1/ie/ie.go:149-153, gtpv0/ie/ie.go:51-55 -/
structure HeldIE where
  typ : UInt8
  len : UInt16
  pay : Part
  deriving DecidableEq, Repr

def HeldIE.view (h : HeldIE) : IE := ⟨h.typ, h.len, h.pay.read m⟩

/-- gtpv1/ie/ie.go:156-161, gtpv0/ie/ie.go:58-62 `New` -/
def heldNew (c : Cfg) (t : UInt8) (s : Part) : HeldIE :=
  match c.tvLen t with
  | some _ => ⟨t, 0, s⟩
  | none => ⟨t, UInt16.ofNat s.len, s⟩

/-- the constructors that hand their slice to `New`; `Cfg` says which version -/
inductive Keeping where
  | new (c : Cfg) (t : UInt8) (p : Part)
  | gsnAddress (ip : Part)
  | qosProfile (p : Part)
  | extensionHeaderTypeList (types : Part)

def Keeping.run : Keeping → Option HeldIE
  | .new c t p => some (heldNew c t p)
  /- gtpv1/ie/gsn-address.go:18-31 `NewGSNAddressByIP` -/
  | .gsnAddress ip =>
    if ip.len = 0 then none else
    match ip.to4 m with
    | some v4 => some (heldNew TLV.v1 133 v4)
    | none => some (heldNew TLV.v1 133 ip)
  /- gtpv1/ie/qos-profile.go:10-12 -/
  | .qosProfile p => some (heldNew TLV.v1 135 p)
  /- gtpv1/ie/extension-header-type-list.go:8-10: the variadic parameter of a call with `types...` is that slice -/
  | .extensionHeaderTypeList p => some (heldNew TLV.v1 141 p)

def Keeping.arg : Keeping → Part
  | .new _ _ p => p
  | .gsnAddress p => p
  | .qosProfile p => p
  | .extensionHeaderTypeList p => p

def Keeping.value : Keeping → Option IE
  | .new c t p => some (newIE c t (p.read m))
  | .gsnAddress ip => newGSNAddress1 (ip.read m)
  | .qosProfile p => some (Plain.newRaw TLV.v1 ⟨"QoSProfile", 135⟩ (p.read m))
  | .extensionHeaderTypeList p => some (Plain.newRaw TLV.v1 ⟨"ExtensionHeaderTypeList", 141⟩ (p.read m))

/-- the constructors that make a payload and copy into it -/
inductive Copying where
  | privateExtension (c : Cfg) (id : UInt16) (val : Part)
  | endUserAddress (ip : Part)
  | triplet (rand sres kc : Part)
  | quintuplet (rand xres ck ik autn : Part)
  | pco (proto : UInt8) (opts : List (UInt16 × Part))

def Copying.value : Copying → Res (Option IE)
  | .privateExtension c i v => ok (some (newPrivateExtension c i (v.read m)))
  | .endUserAddress ip => newEUAddr1 (ip.read m)
  | .triplet a b c => do ok (some (← newTriplet (a.read m) (b.read m) (c.read m)))
  | .quintuplet a b c d e => do ok (some (← newQuintuplet (a.read m) (b.read m) (c.read m) (d.read m) (e.read m)))
  | .pco p os => do ok (some (← newPCO1 p (os.map fun o => V2.newContainer o.1 (o.2.read m))))

/-- gtpv1/ie/private-extension.go:13-18, gtpv0/ie/private-extension.go:13-18, gtpv1/ie/end-user-address.go:30-43 with :65-87,
authentication-triplet.go:10-17, authentication-quintuplet.go:10-29, pco.go:159-168: a new array takes the payload -/
def Copying.run (c : Copying) : Res (Arrays × Option HeldIE) :=
  match c.value m with
  | ok (some i) => ok (m ++ [i.payload], some ⟨i.typ, i.length, ⟨m.length, 0, i.payload.length⟩⟩)
  | ok none => ok (m, none)
  | err e => err e
  | .panic => .panic
  | diverge => diverge

end TLV
end Verif
