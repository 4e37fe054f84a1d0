import Verif.Model.Typed.PCO
import Verif.Model.V1IE
/-
gtpv1/ie/pco.go. `ConfigurationProtocolOption` has the fields of the `PCOContainer` of gtpv2/ie/pco.go and its functions have the
same bodies, so `V2.Container` and its functions stand for it: gtpv1 pco.go:10-14 the type, :17-24 `newContainer`,
:37-45 `Container.marshalTo`, :48-72 `parseContainer`, :75-77 `Container.marshalLen`.
-/
namespace Verif.TLV
open Res

/-- gtpv1/ie/pco.go:79-82 `PCOPayload` -/
structure PCOPayload where
  proto : UInt8
  opts : List V2.Container
  deriving DecidableEq, Repr

/-- gtpv1/ie/pco.go:149-156 `MarshalLen` -/
def PCOPayload.marshalLen (p : PCOPayload) : Nat := 1 + (p.opts.map V2.Container.marshalLen).sum

/-- gtpv1/ie/pco.go:103-114 `MarshalTo`; the loop is the one of gtpv2 -/
def PCOPayload.marshalTo (p : PCOPayload) (b : Bytes) : Res Bytes := do
  let b ← setAt b 0 ((p.proto &&& (0x07 : UInt8)) ||| (0x80 : UInt8))
  V2.putContainers p.opts 1 b

/-- gtpv1/ie/pco.go:127-146 `UnmarshalBinary`; the loop is the one of gtpv2 -/
def parsePCOPayload (b : Bytes) : Res PCOPayload := do
  if b.length = 0 then err .tooShortParse else
  let b0 ← idx b 0
  let cs ← V2.getContainers b (b.length + 1) 1
  ok ⟨b0 &&& (0x07 : UInt8), cs⟩

/-- gtpv1/ie/pco.go:159-168 `NewProtocolConfigurationOptions` -/
def newPCO1 (proto : UInt8) (opts : List V2.Container) : Res IE := do
  let p : PCOPayload := ⟨proto, opts⟩
  let b ← p.marshalTo (List.replicate p.marshalLen 0)
  ok (newIE TLV.v1 132 b)

/-- gtpv1/ie/pco.go:172-182 `ProtocolConfigurationOptions` -/
def IE.pco (i : IE) : Res PCOPayload :=
  if i.typ ≠ 132 then err .invalidType else parsePCOPayload i.payload

end Verif.TLV
