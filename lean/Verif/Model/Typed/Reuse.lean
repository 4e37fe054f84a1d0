import Verif.Model.Typed.Addr
import Verif.Model.Typed.PCO
import Verif.Model.Typed.Plain
import Verif.Model.Typed.Plmn
import Verif.Model.Typed.QoS
import Verif.Model.Typed.TFT
import Verif.Model.Typed.Time
import Verif.Model.Typed.ULI
import Verif.Model.Typed.V1PCO
/-
UnmarshalBinary of the structures behind the composed elements, called on a structure `old` that has been used before (the `parse`
functions decode into a fresh one).  Members the code does not assign keep their value.  What a structure holds after an error is not
modelled.
-/
namespace Verif.V2
open Res Utils Duration

/-! ### every member is assigned -/

/-- ambr.go:80-89 -/
def AMBR.into (old : AMBR) (b : Bytes) : Res AMBR := do
  if b.length < 8 then err .eof else
  let s ← slice b 0 4
  let up ← rd32 s
  let f : AMBR := { old with up }
  let s ← slice b 4 8
  let down ← rd32 s
  ok { f with down }

/-- bearer-qos.go:107-121 -/
def BearerQoS.into (old : BearerQoS) (b : Bytes) : Res BearerQoS := do
  if b.length < 22 then err .eof else
  let arp ← idx b 0
  let f : BearerQoS := { old with arp }
  let qci ← idx b 1
  let f : BearerQoS := { f with qci }
  let s ← slice b 2 7
  let f : BearerQoS := { f with mbrUp := uint40To64 s }
  let s ← slice b 7 12
  let f : BearerQoS := { f with mbrDown := uint40To64 s }
  let s ← slice b 12 17
  let f : BearerQoS := { f with gbrUp := uint40To64 s }
  let s ← slice b 17 22
  ok { f with gbrDown := uint40To64 s }

/-- flow-qos.go:91-104 -/
def FlowQoS.into (old : FlowQoS) (b : Bytes) : Res FlowQoS := do
  if b.length < 21 then err .eof else
  let qci ← idx b 0
  let f : FlowQoS := { old with qci }
  let s ← slice b 1 6
  let f : FlowQoS := { f with mbrUp := uint40To64 s }
  let s ← slice b 6 11
  let f : FlowQoS := { f with mbrDown := uint40To64 s }
  let s ← slice b 11 16
  let f : FlowQoS := { f with gbrUp := uint40To64 s }
  let s ← slice b 16 21
  ok { f with gbrDown := uint40To64 s }

/-- s1udf.go:124-146 -/
def S1UDF.into (old : S1UDF) (b : Bytes) : Res S1UDF := do
  if b.length < 2 then err .eof else
  let x ← idx b 0
  let f : S1UDF := { old with ebi := x &&& 0x0f }
  let n ← idx b 1
  let f : S1UDF := { f with addrLen := n }
  if b.length < 2 + f.addrLen.toNat then err .eof else
  let addr ← slice b 2 (2 + f.addrLen.toNat)
  let f : S1UDF := { f with addr }
  let off := 2 + f.addrLen.toNat
  if b.length < off + 4 then err .eof else
  let s ← slice b off (off + 4)
  let teid ← rd32 s
  ok { f with teid }

/-- s103pdf.go:137-176 -/
def S103.into (old : S103) (b : Bytes) : Res S103 := do
  if b.length < 2 then err .eof else
  let n ← idx b 0
  let f : S103 := { old with addrLen := n }
  if b.length < 1 + f.addrLen.toNat then err .eof else
  let addr ← slice b 1 (1 + f.addrLen.toNat)
  let f : S103 := { f with addr }
  let off := 1 + f.addrLen.toNat
  if b.length < off + 4 then err .eof else
  let s ← slice b off (off + 4)
  let greKey ← rd32 s
  let f : S103 := { f with greKey }
  let off := off + 4
  if b.length ≤ off then err .eof else
  let ebiNum ← idx b off
  let f : S103 := { f with ebiNum }
  let off := off + 1
  if b.length < off + f.ebiNum.toNat then err .eof else
  let ebis ← getEBIs b f.ebiNum.toNat off
  ok { f with ebis }

/-- pco-ppp.go:110-126 -/
def PPP.into (old : PPP) (b : Bytes) : Res PPP := do
  if b.length < 5 then err .tooShortParse else
  let code ← idx b 0
  let p : PPP := { old with code }
  let ident ← idx b 1
  let p : PPP := { p with ident }
  let s ← slice b 2 4
  let len ← rd16 s
  let p : PPP := { p with len }
  if b.length < p.len.toNat then err .eof else
  let payload ← slice b 4 p.len.toNat
  ok { p with payload }

/-- pco-ppp.go:200-224 -/
def PAP.into (old : PAP) (b : Bytes) : Res PAP := do
  if b.length < 2 then err .tooShortParse else
  let idLen ← idx b 0
  let p : PAP := { old with idLen }
  if b.length < 1 + p.idLen.toNat then err .eof else
  let ident ← slice b 1 (1 + p.idLen.toNat)
  let p : PAP := { p with ident }
  let off := 1 + p.idLen.toNat
  let pwLen ← idx b off
  let p : PAP := { p with pwLen }
  let off := off + 1
  if b.length < off + p.pwLen.toNat then err .eof else
  let pw ← slice b off (off + p.pwLen.toNat)
  ok { p with pw }

/-- pco-ppp.go:290-308 -/
def CHAP.into (old : CHAP) (b : Bytes) : Res CHAP := do
  if b.length < 2 then err .tooShortParse else
  let size ← idx b 0
  let c : CHAP := { old with size }
  if b.length < 1 + c.size.toNat then err .eof else
  let value ← slice b 1 (1 + c.size.toNat)
  let c : CHAP := { c with value }
  let name ← sliceFrom b (1 + c.size.toNat)
  ok { c with name }

/-- pco-ppp.go:427-442 -/
def IPCP.into (old : IPCP) (b : Bytes) : Res IPCP := do
  if b.length < 3 then err .tooShortParse else
  let typ ← idx b 0
  let o : IPCP := { old with typ }
  let len ← idx b 1
  let o : IPCP := { o with len }
  if b.length < o.len.toNat then err .eof else
  let payload ← slice b 2 o.len.toNat
  ok { o with payload }

/-- tft.go:795-838 -/
def Comp.into (old : Comp) (b : Bytes) : Res Comp := do
  if b.length < 1 then err .eof else
  let typ ← idx b 0
  let c : Comp := { old with typ }
  if b.length < 1 + compLen c.typ then err .eof else
  let contents ← slice b 1 (1 + compLen c.typ)
  ok { c with contents }

/-- tft.go:285-308; the components are parsed into fresh values -/
def Filter.into (old : Filter) (b : Bytes) : Res Filter := do
  if b.length < 3 then err .eof else
  let x ← idx b 0
  let p : Filter := { old with dir := (x >>> 4) &&& 3, ident := x &&& 0xf }
  let prec ← idx b 1
  let p : Filter := { p with prec }
  let len ← idx b 2
  let p : Filter := { p with len }
  if b.length < 3 + p.len.toNat then err .eof else
  let s ← slice b 3 (3 + p.len.toNat)
  let comps ← parseComps (s.length + 1) s
  ok { p with comps }

/-- tft.go:922-936 -/
def Param.into (old : Param) (b : Bytes) : Res Param := do
  if b.length < 2 then err .eof else
  let ident ← idx b 0
  let p : Param := { old with ident }
  let len ← idx b 1
  let p : Param := { p with len }
  if b.length < 2 + p.len.toNat then err .eof else
  let contents ← slice b 2 (2 + p.len.toNat)
  ok { p with contents }

/-- trace-reference.go:81-99 -/
def Trace.into (old : Trace) (b : Bytes) : Res Trace := do
  if b.length < 3 then err .eof else
  let s ← slice b 0 3
  let (mcc, mnc) ← decodePLMN s
  let f : Trace := { old with mcc, mnc }
  if b.length < 6 then err .eof else
  let t ← slice b 3 6
  ok { f with id := uint24To32 t }

/-- uci.go:98-119 -/
def UCI.into (old : UCI) (b : Bytes) : Res UCI := do
  if b.length < 3 then err .eof else
  let s ← slice b 0 3
  let (mcc, mnc) ← decodePLMN s
  let f : UCI := { old with mcc, mnc }
  if b.length ≤ 7 then err .eof else
  let c ← slice b 3 7
  let v ← rd32 c
  let f : UCI := { f with csg := v &&& 0x7ffffff }
  let x ← idx b 7
  ok { f with mode := x >>> 6, flags := x &&& (0x03 : UInt8) }

/-- guti.go:98-119; `spare` as for `parseGUTI` -/
def GUTI.into (old : GUTI) (b spare : Bytes) : Res GUTI := do
  if b.length < 3 then err .eof else
  let s ← slice b 1 3
  let mcc ← decodeMCC s
  let t ← slice (b ++ spare) 2 4
  let mnc ← decodeMNC t
  let f : GUTI := { old with mcc, mnc }
  if b.length < 10 then err .eof else
  let x ← slice b 3 5
  let group ← rd16 x
  let f : GUTI := { f with group }
  let code ← idx b 5
  let f : GUTI := { f with code }
  let y ← slice b 6 10
  let mtmsi ← rd32 y
  ok { f with mtmsi }

/-- ran-nas-cause.go:99-110 -/
def RANNAS.into (old : RANNAS) (b : Bytes) : Res RANNAS := do
  if b.length < 2 then err .eof else
  let x ← idx b 0
  let f : RANNAS := { old with proto := (x &&& (0xf0 : UInt8)) >>> 4, ctype := x &&& (0x0f : UInt8) }
  let cause ← sliceFrom b 1
  ok { f with cause }

/-- throttling.go:130-156 -/
def Throttling.into (old : Throttling) (b : Bytes) : Res Throttling := do
  if b.length < 2 then err .eof else
  let x ← idx b 0
  let f : Throttling := { old with unit := (x &&& (0xe0 : UInt8)) >>> 5 }
  let v : Duration := (x &&& (0x1f : UInt8)).toNat
  let f : Throttling := { f with delay :=
    if f.unit = 4 then v * (10 * hour)
    else if f.unit = 3 then v * hour
    else if f.unit = 2 then v * (10 * minute)
    else if f.unit = 1 then v * minute
    else if f.unit = 0 then v * (2 * second)
    else 0 }
  let y ← idx b 1
  ok { f with factor := y }

/-! ### some members are assigned only sometimes -/

/-- f-teid.go:128-158; an address is assigned only if its flag is set -/
def FTEID.into (old : FTEID) (b : Bytes) : Res FTEID := do
  if b.length < 5 then err .eof else
  let b0 ← idx b 0
  let s ← slice b 1 5
  let teid ← rd32 s
  let (f, off) ← FTEID.getV4 b { old with flags := b0 &&& 0xc0, ifType := b0 &&& 0x3f, teid } 5
  FTEID.getV6 b f off

/-- paa.go:163-205; what the type does not announce is not assigned -/
def PAA.into (old : PAA) (b : Bytes) : Res PAA := do
  if b.length < 1 then err .eof else
  let b0 ← idx b 0
  let f : PAA := { old with pdnType := b0 &&& 0x07 }
  if f.pdnType = 1 then
    if b.length < 5 then err .eof else
    let v4 ← slice b 1 5
    ok { f with v4 }
  else if f.pdnType = 2 then
    if b.length < 18 then err .eof else
    let p ← idx b 1
    let v6 ← slice b 2 18
    ok { f with prefixLen := p, v6 }
  else if f.pdnType = 3 then
    if b.length < 22 then err .eof else
    let p ← idx b 1
    let v6 ← slice b 2 18
    let v4 ← slice b 18 22
    ok { f with prefixLen := p, v6, v4 }
  else ok f

/-- paging-and-service-information.go:88-104 -/
def Paging.into (old : Paging) (b : Bytes) : Res Paging := do
  if b.length < 2 then err .eof else
  let x ← idx b 0
  let f : Paging := { old with ebi := x &&& 0x0f, flags := x }
  if has1stBit f.flags then
    if b.length < 3 then err .eof else do
    let p ← idx b 2
    ok { f with ppi := p &&& 0x7f }
  else ok f

/-- the assignment in one block of uli.go:438-543: a location that is not announced stays -/
def keepOld {α : Type} (flag : Bool) (x old : Option α) : Option α := if flag then x else old

/-- uli.go:429-546 -/
def ULI.into (old : ULI) (b : Bytes) : Res ULI := do
  if b.length < 1 then err .eof else
  let fl ← idx b 0
  let f : ULI := { old with flags := fl }
  let (x, off) ← getArea (has1stBit fl) b 1
  let f : ULI := { f with cgi := keepOld (has1stBit fl) x f.cgi }
  let (x, off) ← getArea (has2ndBit fl) b off
  let f : ULI := { f with sai := keepOld (has2ndBit fl) x f.sai }
  let (x, off) ← getArea (has3rdBit fl) b off
  let f : ULI := { f with rai := keepOld (has3rdBit fl) x f.rai }
  let (x, off) ← getLoc (has4thBit fl) b off
  let f : ULI := { f with tai := keepOld (has4thBit fl) x f.tai }
  let (x, off) ← getECGI (has5thBit fl) b off
  let f : ULI := { f with ecgi := keepOld (has5thBit fl) x f.ecgi }
  let (x, off) ← getLoc (has6thBit fl) b off
  let f : ULI := { f with lai := keepOld (has6thBit fl) x f.lai }
  let (x, off) ← getENB (has7thBit fl) b off
  let f : ULI := { f with menbi := keepOld (has7thBit fl) x f.menbi }
  let (x, _) ← getENB (has8thBit fl) b off
  ok { f with emenbi := keepOld (has8thBit fl) x f.emenbi }

/-- pco.go:213-228, and gtpv1/ie/pco.go:58-72; the contents are assigned only if there are any and they are all there -/
def Container.into (old : Container) (b : Bytes) : Res Container := do
  if b.length < 3 then err .tooShortParse else
  let s ← slice b 0 2
  let ident ← rd16 s
  let n ← idx b 2
  let c : Container := { old with ident, len := n }
  if c.len ≠ 0 ∧ 3 + c.len.toNat ≤ b.length then do
    let contents ← slice b 3 (3 + c.len.toNat)
    ok { c with contents }
  else ok c

/-- pco.go:113-133; the containers, parsed into fresh values, are appended -/
def PCO.into (old : PCO) (b : Bytes) : Res PCO := do
  if b.length < 1 then err .tooShortParse else
  let b0 ← idx b 0
  let f : PCO := { old with ext := (b0 >>> 7) &&& 1, proto := b0 &&& 7 }
  let cs ← getContainers b (b.length + 1) 1
  ok { f with opts := f.opts ++ cs }

/-- fq-csid.go:123-156; the CSIDs are appended -/
def CSID.into (old : CSID) (b : Bytes) : Res CSID := do
  if b.length < 1 then err .eof else
  let x ← idx b 0
  let f : CSID := { old with kind := (x >>> 4) &&& (0x0f : UInt8), num := x &&& (0x0f : UInt8) }
  if f.kind = 0 ∨ f.kind = 2 then
    if b.length < 5 then err .eof else do
    let node ← slice b 1 5
    let f : CSID := { f with node }
    let ids ← getCSIDs (b.length + 1) b 5
    ok { f with ids := f.ids ++ ids }
  else if f.kind = 1 then
    if b.length < 17 then err .eof else do
    let node ← slice b 1 17
    let f : CSID := { f with node }
    let ids ← getCSIDs (b.length + 1) b 17
    ok { f with ids := f.ids ++ ids }
  else err .malformed

/-- tft.go:141-182; the filters are assigned by three operations, the identifiers by one, the parameters if there are any -/
def TFT.into (old : TFT) (b : Bytes) : Res TFT := do
  if b.length < 1 then err .eof else
  let b0 ← idx b 0
  let f : TFT := { old with op := b0 >>> 5 }
  let hasParams := ((b0 >>> 4) &&& 1) == 1
  let n := (b0 &&& 0xf).toNat
  let (f, off) ←
    if opFilters f.op then do
      let (ps, off) ← getFilters b n 1
      ok (({ f with filters := ps } : TFT), off)
    else if f.op = 5 then
      if b.length < 1 + n then err .eof else do
      let ids ← slice b 1 (1 + n)
      ok ({ f with ids }, 1 + n)
    else ok (f, 1)
  if hasParams then do
    let s ← sliceFrom b off
    let params ← parseParams (s.length + 1) s
    ok { f with params }
  else ok f

end Verif.V2

namespace Verif.TLV
open Res

/-- gtpv1/ie/pco.go:127-146 -/
def PCOPayload.into (old : PCOPayload) (b : Bytes) : Res PCOPayload := do
  if b.length = 0 then err .tooShortParse else
  let b0 ← idx b 0
  let p : PCOPayload := { old with proto := b0 &&& (0x07 : UInt8) }
  let cs ← V2.getContainers b (b.length + 1) 1
  ok { p with opts := p.opts ++ cs }

end Verif.TLV
