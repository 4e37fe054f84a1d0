import Verif.Model.Typed.QoS
import Verif.Model.Typed.NetIP
/-
gtpv2/ie/pco.go, pco-ppp.go.
Simplifications: nil slices are empty; Go strings are their octets; containers and options are never nil pointers.
-/
namespace Verif.V2
open Res NetIP

/-! ### containers -/

/-- pco.go:165-169 `PCOContainer` -/
structure Container where
  ident : UInt16
  len : UInt8
  contents : Bytes
  deriving DecidableEq, Repr

/-- pco.go:172-179 `NewPCOContainer` -/
def newContainer (ident : UInt16) (contents : Bytes) : Container := ⟨ident, UInt8.ofNat contents.length, contents⟩

/-- pco.go:231-233 `MarshalLen` -/
def Container.marshalLen (c : Container) : Nat := 3 + c.contents.length

/-- pco.go:192-200 `MarshalTo` -/
def Container.marshalTo (c : Container) (b : Bytes) : Res Bytes := do
  let b ← copyAt b 0 2 (be16 c.ident)
  let b ← setAt b 2 c.len
  if c.len ≠ 0 then copyFrom b 3 c.contents else ok b

/-- pco.go:203-228 `ParsePCOContainer` -/
def parseContainer (b : Bytes) : Res Container := do
  if b.length < 3 then err .tooShortParse else
  let s ← slice b 0 2
  let ident ← rd16 s
  let n ← idx b 2
  if n ≠ 0 ∧ 3 + n.toNat ≤ b.length then do
    let c ← slice b 3 (3 + n.toNat)
    ok ⟨ident, n, c⟩
  else ok ⟨ident, n, []⟩

/-! ### the element -/

/-- pco.go:64-68 `ProtocolConfigurationOptionsFields` -/
structure PCO where
  ext : UInt8
  proto : UInt8
  opts : List Container
  deriving DecidableEq, Repr

/-- pco.go:71-76 `NewProtocolConfigurationOptionsFields` -/
def newPCOFields (proto : UInt8) (opts : List Container) : PCO := ⟨0, proto, opts⟩

/-- pco.go:136-143 `MarshalLen` -/
def PCO.marshalLen (f : PCO) : Nat := 1 + (f.opts.map Container.marshalLen).sum

/-- pco.go:92-97 the loop over the containers -/
def putContainers : List Container → Nat → Bytes → Res Bytes
  | [], _, b => ok b
  | c :: cs, off, b => do
    let b ← onSub b off b.length c.marshalTo
    putContainers cs (off + c.marshalLen) b

/-- pco.go:89-100 `MarshalTo` -/
def PCO.marshalTo (f : PCO) (b : Bytes) : Res Bytes := do
  let b ← setAt b 0 ((f.proto &&& 7) ||| 0x80)
  putContainers f.opts 1 b

/-- pco.go:79-86 `Marshal` -/
def PCO.marshal (f : PCO) : Res Bytes := f.marshalTo (List.replicate f.marshalLen 0)

/-- pco.go:121-132 the loop over the containers; running out of fuel would be an endless loop -/
def getContainers (b : Bytes) : Nat → Nat → Res (List Container)
  | 0, _ => diverge
  | fuel + 1, off =>
    if b.length ≤ off then ok [] else do
    let s ← sliceFrom b off
    let c ← parseContainer s
    let cs ← getContainers b fuel (off + c.marshalLen)
    ok (c :: cs)

/-- pco.go:103-133 `ParseProtocolConfigurationOptionsFields` -/
def parsePCO (b : Bytes) : Res PCO := do
  if b.length < 1 then err .tooShortParse else
  let b0 ← idx b 0
  let cs ← getContainers b (b.length + 1) 1
  ok ⟨(b0 >>> 7) &&& 1, b0 &&& 7, cs⟩

/-- pco.go:19-27 `NewProtocolConfigurationOptions` -/
def newPCO (proto : UInt8) (opts : List Container) : Res (Option IE) := build 78 (newPCOFields proto opts).marshal

variable (g : UInt8 → Bool)

/-- pco.go:31-54 `ProtocolConfigurationOptions` -/
def IE.pco (i : IE) : Res PCO :=
  if i.typ = 78 then
    if i.payload.length < 1 then err .eof else parsePCO i.payload
  else if i.typ = 93 then do
    let ies ← i.bearerContext g
    match ies.find? (fun c => c.typ == 78) with
    | some c => if c.payload.length < 1 then err .eof else parsePCO c.payload
    | none => err .notFound
  else err .invalidType

/-! ### PPP -/

/-- pco-ppp.go:21-26 `PCOPPP` -/
structure PPP where
  code : UInt8
  ident : UInt8
  len : UInt16
  payload : Bytes
  deriving DecidableEq, Repr

/-- pco-ppp.go:29-36 `NewPCOPPP` -/
def newPPP (code ident : UInt8) (payload : Bytes) : PPP := ⟨code, ident, UInt16.ofNat (4 + payload.length), payload⟩

/-- pco-ppp.go:86-97 `MarshalTo` -/
def PPP.marshalTo (p : PPP) (b : Bytes) : Res Bytes := do
  if b.length < 5 then err .eof else
  let b ← setAt b 0 p.code
  let b ← setAt b 1 p.ident
  let b ← copyAt b 2 4 (be16 p.len)
  copyFrom b 4 p.payload

/-- pco-ppp.go:76-83, 129-131 `Marshal`, `MarshalLen` -/
def PPP.marshal (p : PPP) : Res Bytes := p.marshalTo (List.replicate (4 + p.payload.length) 0)

/-- pco-ppp.go:100-126 `ParsePCOPPP` -/
def parsePPP (b : Bytes) : Res PPP := do
  if b.length < 5 then err .tooShortParse else
  let b0 ← idx b 0
  let b1 ← idx b 1
  let s ← slice b 2 4
  let n ← rd16 s
  if b.length < n.toNat then err .eof else
  let p ← slice b 4 n.toNat
  ok ⟨b0, b1, n, p⟩

/-! ### PAP -/

/-- pco-ppp.go:136-141 `PAPFields` -/
structure PAP where
  idLen : UInt8
  ident : Bytes
  pwLen : UInt8
  pw : Bytes
  deriving DecidableEq, Repr

/-- pco-ppp.go:144-151 `NewPAPFields` -/
def newPAP (ident pw : Bytes) : PAP := ⟨UInt8.ofNat ident.length, ident, UInt8.ofNat pw.length, pw⟩

/-- pco-ppp.go:164-187 `MarshalTo` -/
def PAP.marshalTo (p : PAP) (b : Bytes) : Res Bytes := do
  if b.length < 2 then err .eof else
  let b ← setAt b 0 p.idLen
  if b.length < 1 + p.idLen.toNat then err .eof else
  let b ← copyAt b 1 (1 + p.idLen.toNat) p.ident
  let b ← setAt b (1 + p.idLen.toNat) p.pwLen
  if b.length < 1 + p.idLen.toNat + 1 + p.pwLen.toNat then err .eof else
  copyAt b (1 + p.idLen.toNat + 1) (1 + p.idLen.toNat + 1 + p.pwLen.toNat) p.pw

/-- pco-ppp.go:154-161, 227-229 `Marshal`, `MarshalLen` -/
def PAP.marshal (p : PAP) : Res Bytes := p.marshalTo (List.replicate (2 + p.ident.length + p.pw.length) 0)

/-- pco-ppp.go:190-224 `ParsePAPFields` -/
def parsePAP (b : Bytes) : Res PAP := do
  if b.length < 2 then err .tooShortParse else
  let n ← idx b 0
  if b.length < 1 + n.toNat then err .eof else
  let ident ← slice b 1 (1 + n.toNat)
  let k ← idx b (1 + n.toNat)
  if b.length < 1 + n.toNat + 1 + k.toNat then err .eof else
  let pw ← slice b (1 + n.toNat + 1) (1 + n.toNat + 1 + k.toNat)
  ok ⟨n, ident, k, pw⟩

/-! ### CHAP -/

/-- pco-ppp.go:234-238 `CHAPFields` -/
structure CHAP where
  size : UInt8
  value : Bytes
  name : Bytes
  deriving DecidableEq, Repr

/-- pco-ppp.go:241-247 `NewCHAPFields` -/
def newCHAP (value name : Bytes) : CHAP := ⟨UInt8.ofNat value.length, value, name⟩

/-- pco-ppp.go:260-277 `MarshalTo` -/
def CHAP.marshalTo (c : CHAP) (b : Bytes) : Res Bytes := do
  if b.length < 2 then err .eof else
  let b ← setAt b 0 c.size
  if b.length < 1 + c.size.toNat then err .eof else
  let b ← copyAt b 1 (1 + c.size.toNat) c.value
  copyFrom b (1 + c.size.toNat) c.name

/-- pco-ppp.go:250-257, 311-313 `Marshal`, `MarshalLen` -/
def CHAP.marshal (c : CHAP) : Res Bytes := c.marshalTo (List.replicate (1 + c.value.length + c.name.length) 0)

/-- pco-ppp.go:280-308 `ParseCHAPFields` -/
def parseCHAP (b : Bytes) : Res CHAP := do
  if b.length < 2 then err .tooShortParse else
  let n ← idx b 0
  if b.length < 1 + n.toNat then err .eof else
  let v ← slice b 1 (1 + n.toNat)
  let name ← sliceFrom b (1 + n.toNat)
  ok ⟨n, v, name⟩

/-! ### IPCP -/

/-- pco-ppp.go:326-330 `IPCPOption` -/
structure IPCP where
  typ : UInt8
  len : UInt8
  payload : Bytes
  deriving DecidableEq, Repr

/-- pco-ppp.go:333-339 `NewIPCPOption` -/
def newIPCP (t : UInt8) (payload : Bytes) : IPCP := ⟨t, UInt8.ofNat (2 + payload.length), payload⟩

/-- pco-ppp.go:342-391 `NewIPCPOptionIPAddress` (t = 3), `MobileIPv4` (4), `PrimaryDNS` (129), `SecondaryDNS` (131) -/
def newIPCPAddr (t : UInt8) (ip : Bytes) : IPCP :=
  match to4 ip with
  | some v => newIPCP t v
  | none => newIPCP t ip

/-- pco-ppp.go:445-447 `MarshalLen` -/
def IPCP.marshalLen (o : IPCP) : Nat := 2 + o.payload.length

/-- pco-ppp.go:404-414 `MarshalTo` -/
def IPCP.marshalTo (o : IPCP) (b : Bytes) : Res Bytes := do
  if b.length < 3 then err .eof else
  let b ← setAt b 0 o.typ
  let b ← setAt b 1 o.len
  copyFrom b 2 o.payload

/-- pco-ppp.go:394-401 `Marshal` -/
def IPCP.marshal (o : IPCP) : Res Bytes := o.marshalTo (List.replicate o.marshalLen 0)

/-- pco-ppp.go:417-442 `ParseIPCPOption` -/
def parseIPCP (b : Bytes) : Res IPCP := do
  if b.length < 3 then err .tooShortParse else
  let t ← idx b 0
  let n ← idx b 1
  if b.length < n.toNat then err .eof else
  let p ← slice b 2 n.toNat
  ok ⟨t, n, p⟩

/-- a constructor of a PPP packet from serialised contents: nil on error -/
def pppOf (code ident : UInt8) (r : Res Bytes) : Res (Option PPP) :=
  match r with
  | ok b => ok (some (newPPP code ident b))
  | err _ => ok none
  | .panic => .panic
  | diverge => diverge

/-- pco-ppp.go:39-46 `NewPCOPPPWithPAP` -/
def newPPPWithPAP (code ident : UInt8) (peer pw : Bytes) : Res (Option PPP) := pppOf code ident (newPAP peer pw).marshal

/-- pco-ppp.go:49-56 `NewPCOPPPWithCHAP` -/
def newPPPWithCHAP (code ident : UInt8) (value name : Bytes) : Res (Option PPP) := pppOf code ident (newCHAP value name).marshal

/-- pco-ppp.go:62-70 the loop of `NewPCOPPPWithIPCPOptions`: the buffer grows by the length of each option -/
def putIPCPs : List IPCP → Bytes → Res Bytes
  | [], b => ok b
  | o :: os, b => do
    let n := b.length
    let b' ← onSub (b ++ List.replicate o.marshalLen 0) n (n + o.marshalLen) o.marshalTo
    putIPCPs os b'

/-- pco-ppp.go:59-73 `NewPCOPPPWithIPCPOptions` -/
def newPPPWithIPCP (code ident : UInt8) (opts : List IPCP) : Res (Option PPP) := pppOf code ident (putIPCPs opts [])

end Verif.V2
