import Verif.Model.Given
import Verif.Model.Typed.Plmn
/-
The octets that accessors hand out (gtpv2/ie, gtpv1/ie, gtpv0/ie: the accessors that return a []byte or a net.IP).

The models of the accessors (Model/Typed) return octets.  In Go they return slices of the payload.  Here an accessor returns which
part of the payload it is, with the same tests in the same order; memory is that of Model/Given.lean.  A slice of a slice may reach
beyond its length, up to the capacity; all accessors below test the length before, so that this does not arise.  `IPv6` of a GTPv2
element stands apart, because `To16` makes a new array if the address has four octets.
-/
namespace Verif
open Res

/-- a part of a payload: where it begins, how long it is -/
structure Span where
  off : Nat
  len : Nat
  deriving DecidableEq, Repr

/-- the octets of the part -/
def Span.of (p : Bytes) (s : Span) : Bytes := (p.drop s.off).take s.len

/-- `b[lo:hi]` of a payload -/
def cut (p : Bytes) (lo hi : Nat) : Res Span := if lo ≤ hi ∧ hi ≤ p.length then ok ⟨lo, hi - lo⟩ else .panic

/-- the part of the memory that a part of the payload `pay` is -/
def Span.within (s : Span) (pay : Part) : Part := ⟨pay.arr, pay.off + s.off, s.len⟩

/-- what the caller does with the slice it was given: other octets are written into it -/
def Part.write (m : Arrays) (s : Part) (w : Bytes) : Arrays :=
  m.modify s.arr fun b => b.take s.off ++ w.take s.len ++ b.drop (s.off + min s.len w.length)

namespace V2

/-- ip-addr.go:84-97 and 98-111 -/
def addrSpan (p : Bytes) (k : Nat) : Res Span := do
  let n ← idx p k
  if n = 4 then
    if p.length < k + 5 then err .eof else cut p (k + 1) (k + 5)
  else if n = 16 then
    if p.length < k + 17 then err .eof else cut p (k + 1) (k + 17)
  else err .malformed

/-- paa.go:163-205 `UnmarshalBinary`, which keeps parts of the payload, with ip-addr.go:72-83 -/
def paaSpan (p : Bytes) : Res Span := do
  let b0 ← idx p 0
  let t := b0 &&& 0x07
  if t = 1 then
    if p.length < 5 then err .eof else cut p 1 5
  else if t = 2 then
    if p.length < 18 then err .eof else cut p 2 18
  else if t = 3 then
    if p.length < 22 then err .eof else cut p 18 22
  else err .notFound

/-- f-teid.go:128-156 `UnmarshalBinary`, which keeps parts of the payload (`To4` of four octets and `To16` of sixteen are the slices
themselves), with ip-addr.go:112-122 -/
def fteidSpan (p : Bytes) : Res Span := do
  if p.length < 5 then err .eof else
  let b0 ← idx p 0
  if has8thBit b0 then
    if p.length < 9 then err .eof
    else if has7thBit b0 = true ∧ p.length < 25 then err .eof
    else cut p 5 9
  else if has7thBit b0 then
    if p.length < 21 then err .eof else cut p 5 21
  else err .notFound

/-- ip-addr.go:64-126 `IP` -/
def ipSpan (i : IE) : Res Span :=
  if i.payload.length < 4 then err .eof
  else if i.typ = 74 then ok ⟨0, i.payload.length⟩
  else if i.typ = 79 then if i.payload.length < 5 then err .eof else paaSpan i.payload
  else if i.typ = 90 then addrSpan i.payload 0
  else if i.typ = 91 then addrSpan i.payload 1
  else if i.typ = 87 then fteidSpan i.payload
  else err .invalidType

/-- ip-addr.go:142-152 `IPv4`: `To4` of four octets is the slice itself, of an IPv4-mapped address the slice of its last four -/
def ipv4Span (i : IE) : Res Span := do
  let s ← ipSpan i
  if s.len = 4 then ok s
  else if s.len = 16 ∧ (s.of i.payload).take 12 = NetIP.v4Prefix then ok ⟨s.off + 12, 4⟩
  else err .notFound

/-- what `IPv6` returns: a part of the payload or an array of its own -/
inductive Got where
  | part (s : Span)
  | copy (b : Bytes)
  deriving DecidableEq, Repr

def Got.of (p : Bytes) : Got → Bytes
  | .part s => s.of p
  | .copy b => b

/-- `To16`, and ErrIEValueNotFound if it returns nil -/
def to16Got (p : Bytes) (s : Span) : Res Got :=
  if s.len = 4 then ok (.copy (NetIP.v4Prefix ++ s.of p))
  else if s.len = 16 then ok (.part s)
  else err .notFound

/-- paa.go:163-205 with ip-addr.go:178-186 -/
def paaGot (p : Bytes) : Res Got := do
  if p.length < 1 then err .eof else
  let b0 ← idx p 0
  let t := b0 &&& 0x07
  if t = 1 then
    if p.length < 5 then err .eof else err .notFound
  else if t = 2 then
    if p.length < 18 then err .eof else
    let s ← cut p 2 18
    to16Got p s
  else if t = 3 then
    if p.length < 22 then err .eof else
    let s ← cut p 2 18
    to16Got p s
  else err .notFound

/-- f-teid.go:128-156 with ip-addr.go:187-199 -/
def fteidGot (p : Bytes) : Res Got := do
  if p.length < 5 then err .eof else
  let b0 ← idx p 0
  if has8thBit b0 then
    if p.length < 9 then err .eof
    else if has7thBit b0 then
      if p.length < 25 then err .eof else
      let s ← cut p 9 25
      to16Got p s
    else err .notFound
  else if has7thBit b0 then
    if p.length < 21 then err .eof else
    let s ← cut p 5 21
    to16Got p s
  else err .notFound

/-- ip-addr.go:162-203 `IPv6` -/
def ipv6Got (i : IE) : Res Got :=
  if i.payload.length < 4 then err .eof
  else if i.typ = 74 ∨ i.typ = 90 ∨ i.typ = 91 then do
    let s ← ipSpan i
    to16Got i.payload s
  else if i.typ = 79 then paaGot i.payload
  else if i.typ = 87 then fteidGot i.payload
  else err .invalidType

/-- the accessors but `IPv6` -/
inductive Acc where
  | ip | ipv4 | nodeID | privateExtension | indication
  deriving DecidableEq, Repr

/-- what the accessor returns, as octets -/
def Acc.get (i : IE) : Acc → Res Bytes
  | .ip => i.ip
  | .ipv4 => i.ipv4
  | .nodeID => i.nodeID
  | .privateExtension => i.privateExtension
  /- indication.go:156-162 -/
  | .indication => if i.typ = 77 then ok i.payload else err .invalidType

/-- which part of the payload it returns -/
def Acc.span (i : IE) : Acc → Res Span
  | .ip => ipSpan i
  | .ipv4 => ipv4Span i
  /- fq-csid.go:197-221 -/
  | .nodeID =>
    if i.payload.length < 1 then err .eof
    else if i.typ = 132 then do
      let x ← idx i.payload 0
      let kind := (x >>> 4) &&& (0x0f : UInt8)
      if kind = 0 ∨ kind = 2 then
        if i.payload.length < 6 then err .eof else cut i.payload 1 5
      else if kind = 1 then
        if i.payload.length < 18 then err .eof else cut i.payload 1 17
      else err .malformed
    else err .invalidType
  /- private-extension.go:41-50 -/
  | .privateExtension =>
    if i.typ ≠ 255 then err .invalidType
    else if i.payload.length < 3 then err .eof
    else cut i.payload 2 i.payload.length
  | .indication => if i.typ = 77 then ok ⟨0, i.payload.length⟩ else err .invalidType

/-- the slice the caller is given by an accessor of an element in memory -/
def Acc.run (m : Arrays) (h : HeldIE) (a : Acc) : Res Part := do
  let s ← a.span (h.view m)
  ok (s.within h.pay)

end V2

namespace TLV

/-- the accessors; those that return the whole payload (`raw`) are, with the type they want: UserLocationInformation 152,
RouteingAreaIdentity 3, EndUserAddress 128, QoSProfile 135 (GTPv0: 6), AuthenticationTriplet 9, PrivateExtension 255,
GTPv0 FlowLabelDataII 18 -/
inductive Acc where
  | raw (t : UInt8)
  | quintuplet | rand | sres | kc | xres | ck | ik | autn | extensionValue | ip
  deriving DecidableEq, Repr

/-- what the accessor returns, as octets -/
def Acc.get (i : IE) : Acc → Res Bytes
  /- gtpv1/ie/uli.go:79-84, rai.go:37-42, end-user-address.go:100-105, qos-profile.go:17-22, authentication-triplet.go:20-25,
  private-extension.go:21-26, gtpv0/ie/flow-label.go:69-74, rai.go:33-38, end-user-address.go:93-98, qos-profile.go:20-25,
  private-extension.go:21-26 -/
  | .raw t => if i.typ = t then ok i.payload else err .invalidType
  | .quintuplet => i.quintuplet
  | .rand => i.rand
  | .sres => i.sres
  | .kc => i.kc
  | .xres => i.xres
  | .ck => i.ck
  | .ik => i.ik
  | .autn => i.autn
  | .extensionValue => i.extensionValue
  | .ip => i.ip

/-- which part of the payload it returns; XRES of an element without payload is nil, a part of no octets -/
def Acc.span (i : IE) : Acc → Res Span
  | .raw t => if i.typ = t then ok ⟨0, i.payload.length⟩ else err .invalidType
  /- gtpv1/ie/authentication-quintuplet.go:32-41 -/
  | .quintuplet =>
    if i.typ ≠ 136 then err .invalidType
    else if i.payload.length = 0 then err .eof
    else ok ⟨0, i.payload.length⟩
  /- gtpv1/ie/authentication-triplet.go:35-45, 55-65, 75-85 -/
  | .rand =>
    if i.typ = 9 ∨ i.typ = 136 then
      if i.payload.length < 16 then err .eof else cut i.payload 0 16
    else err .invalidType
  | .sres =>
    if i.typ = 9 then
      if i.payload.length < 20 then err .eof else cut i.payload 16 20
    else err .invalidType
  | .kc =>
    if i.typ = 9 then
      if i.payload.length < 28 then err .eof else cut i.payload 20 28
    else err .invalidType
  /- gtpv1/ie/authentication-quintuplet.go:51-70, 80-95, 105-120, 130-145 -/
  | .xres =>
    if i.payload.length = 0 then ok ⟨0, 0⟩
    else if i.typ = 136 then
      if i.payload.length < 17 then err .eof else do
      let n ← idx i.payload 16
      if i.payload.length < 17 + n.toNat then err .eof else cut i.payload 17 (17 + n.toNat)
    else err .invalidType
  | .ck =>
    if i.typ = 136 then
      if i.payload.length < 18 then err .eof else do
      let n ← idx i.payload 16
      if i.payload.length < 17 + n.toNat + 16 then err .eof else cut i.payload (17 + n.toNat) (17 + n.toNat + 16)
    else err .invalidType
  | .ik =>
    if i.typ = 136 then
      if i.payload.length < 34 then err .eof else do
      let n ← idx i.payload 16
      if i.payload.length < 33 + n.toNat + 16 then err .eof else cut i.payload (33 + n.toNat) (33 + n.toNat + 16)
    else err .invalidType
  | .autn =>
    if i.typ = 136 then
      if i.payload.length < 50 then err .eof else do
      let n ← idx i.payload 16
      let k ← idx i.payload 50
      if i.payload.length < 49 + n.toNat + k.toNat then err .eof else cut i.payload (49 + n.toNat) (49 + n.toNat + k.toNat)
    else err .invalidType
  /- private-extension.go:55-64 (both) -/
  | .extensionValue =>
    if i.typ ≠ 255 then err .invalidType
    else if i.payload.length < 3 then err .eof
    else cut i.payload 2 i.payload.length
  /- gtpv1/ie/ip.go:13-29 -/
  | .ip =>
    if i.payload.length < 4 then err .eof
    else if i.typ = 128 then do
      let o ← V2.must 0 i.pdpTypeOrganization
      if o ≠ 0xf1 then err .malformed else cut i.payload 2 i.payload.length
    else if i.typ = 133 then ok ⟨0, i.payload.length⟩
    else err .invalidType

/-- the slice the caller is given -/
def Acc.run (m : Arrays) (h : HeldIE) (a : Acc) : Res Part := do
  let s ← a.span (h.view m)
  ok (s.within h.pay)

end TLV
end Verif
