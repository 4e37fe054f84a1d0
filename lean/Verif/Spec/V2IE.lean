import Verif.Model.V2IE
/-
Specification of the GTPv2-C information element format, written from 3GPP TS 29.274 clause 8.2.1 (type octet,
two-octet length of what follows the first four octets, spare/instance octet, value), independent of
`marshalTo`/`parseF`.
-/
namespace Verif.V2.Spec
open Verif.V2

variable (g : UInt8 → Bool)

mutual
/-- wire format of one information element; the value of a grouped element is its embedded elements -/
def enc : IE → Bytes
  | .mk t _ i p cs =>
    let body := if g t then encs cs else p
    t :: be16 (UInt16.ofNat body.length) ++ [i] ++ body
/-- a sequence of elements on the wire -/
def encs : List IE → Bytes
  | [] => []
  | c :: cs => enc c ++ encs cs
end

mutual
/-- a well-formed element: its length field and raw payload describe its value, which fits 16 bits;
only grouped types have children -/
def wf : IE → Bool
  | .mk t n _ p cs =>
    (n.toNat == p.length) && (if g t then (p == encs g cs) && wfs cs else cs.isEmpty)
def wfs : List IE → Bool
  | [] => true
  | c :: cs => wf c && wfs cs
end

end Verif.V2.Spec
