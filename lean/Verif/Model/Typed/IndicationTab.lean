import Verif.Model.Typed.Bits
/-
Generated by tools/gen_indication.py from gtpv2/ie/indication.go.
-/
namespace Verif.V2

/-- the 72 flags, named after the parameters of `NewIndication` (indication.go:17-27) -/
inductive Ind where
  | daf | dtf | hi | dfi | oi | isrsi | israi | sgwci
  | sqci | uimsi | cfsi | crsi | ps | pt | si | msv
  | retloc | pbic | srni | s6af | s4af | mbmdt | israu | ccrsi
  | cprai | arrl | ppoff | ppon | ppsi | csfbi | clii | cpsr
  | nsi | uasi | dtci | bdwi | psci | pcri | aosi | aopi
  | roaai | epcosi | cpopci | pmtmsi | s11tf | pnsi | unaccsi | wpmsi
  | fgsnn26 | reprefi | fgsiwk | eevrsi | ltemui | ltempi | enbcrsi | tspcmi
  | csrmfi | mtedtn | mtedta | n5gnmi | fgcnrs | fgcnri | fsrhoi | ethpdn
  | sp98 | sp97 | sp96 | sp95 | sp94 | sp93 | sp92 | emci
  deriving DecidableEq, Repr

/-- the parameters of `NewIndication` in order (indication.go:17-27) -/
def indParams : List Ind := [
  .daf, .dtf, .hi, .dfi, .oi, .isrsi, .israi, .sgwci,
  .sqci, .uimsi, .cfsi, .crsi, .ps, .pt, .si, .msv,
  .retloc, .pbic, .srni, .s6af, .s4af, .mbmdt, .israu, .ccrsi,
  .cprai, .arrl, .ppoff, .ppon, .ppsi, .csfbi, .clii, .cpsr,
  .nsi, .uasi, .dtci, .bdwi, .psci, .pcri, .aosi, .aopi,
  .roaai, .epcosi, .cpopci, .pmtmsi, .s11tf, .pnsi, .unaccsi, .wpmsi,
  .fgsnn26, .reprefi, .fgsiwk, .eevrsi, .ltemui, .ltempi, .enbcrsi, .tspcmi,
  .csrmfi, .mtedtn, .mtedta, .n5gnmi, .fgcnrs, .fgcnri, .fsrhoi, .ethpdn,
  .sp98, .sp97, .sp96, .sp95, .sp94, .sp93, .sp92, .emci]

/-- the assignments `i.Payload[k] |= (flag << s)` of `NewIndication`, octet by octet (indication.go:29-108) -/
def indBlocks : List (List (Ind × UInt8)) := [
  [(.sgwci, 0), (.israi, 1), (.isrsi, 2), (.oi, 3), (.dfi, 4), (.hi, 5), (.dtf, 6), (.daf, 7)],
  [(.msv, 0), (.si, 1), (.pt, 2), (.ps, 3), (.crsi, 4), (.cfsi, 5), (.uimsi, 6), (.sqci, 7)],
  [(.ccrsi, 0), (.israu, 1), (.mbmdt, 2), (.s4af, 3), (.s6af, 4), (.srni, 5), (.pbic, 6), (.retloc, 7)],
  [(.cpsr, 0), (.clii, 1), (.csfbi, 2), (.ppsi, 3), (.ppon, 4), (.ppoff, 5), (.arrl, 6), (.cprai, 7)],
  [(.aopi, 0), (.aosi, 1), (.pcri, 2), (.psci, 3), (.bdwi, 4), (.dtci, 5), (.uasi, 6), (.nsi, 7)],
  [(.wpmsi, 0), (.unaccsi, 1), (.pnsi, 2), (.s11tf, 3), (.pmtmsi, 4), (.cpopci, 5), (.epcosi, 6), (.roaai, 7)],
  [(.tspcmi, 0), (.enbcrsi, 1), (.ltempi, 2), (.ltemui, 3), (.eevrsi, 4), (.fgsiwk, 5), (.reprefi, 6), (.fgsnn26, 7)],
  [(.ethpdn, 0), (.fsrhoi, 1), (.fgcnri, 2), (.fgcnrs, 3), (.n5gnmi, 4), (.mtedta, 5), (.mtedtn, 6), (.csrmfi, 7)],
  [(.emci, 0), (.sp92, 1), (.sp93, 2), (.sp94, 3), (.sp95, 4), (.sp96, 5), (.sp97, 6), (.sp98, 7)]]

/-- the accessors `HasXXX` (indication.go:164-1008): flag, required length, octet, bit (0 for `has1stBit`) -/
def indAccessors : List (Ind × Nat × Nat × Nat) := [
  (.sgwci, 1, 0, 0),
  (.israi, 1, 0, 1),
  (.isrsi, 1, 0, 2),
  (.oi, 1, 0, 3),
  (.dfi, 1, 0, 4),
  (.hi, 1, 0, 5),
  (.dtf, 1, 0, 6),
  (.daf, 1, 0, 7),
  (.msv, 2, 1, 0),
  (.si, 2, 1, 1),
  (.pt, 2, 1, 2),
  (.ps, 2, 1, 3),
  (.crsi, 2, 1, 4),
  (.cfsi, 2, 1, 5),
  (.uimsi, 2, 1, 6),
  (.sqci, 2, 1, 7),
  (.ccrsi, 3, 2, 0),
  (.israu, 3, 2, 1),
  (.mbmdt, 3, 2, 2),
  (.s4af, 3, 2, 3),
  (.s6af, 3, 2, 4),
  (.srni, 3, 2, 5),
  (.pbic, 3, 2, 6),
  (.retloc, 3, 2, 7),
  (.cpsr, 4, 3, 0),
  (.clii, 4, 3, 1),
  (.csfbi, 4, 3, 2),
  (.ppsi, 4, 3, 3),
  (.ppon, 4, 3, 4),
  (.ppoff, 4, 3, 5),
  (.arrl, 4, 3, 6),
  (.cprai, 4, 3, 7),
  (.aopi, 5, 4, 0),
  (.aosi, 5, 4, 1),
  (.pcri, 5, 4, 2),
  (.psci, 5, 4, 3),
  (.bdwi, 5, 4, 4),
  (.dtci, 5, 4, 5),
  (.uasi, 5, 4, 6),
  (.nsi, 5, 4, 7),
  (.wpmsi, 6, 5, 0),
  (.unaccsi, 6, 5, 1),
  (.pnsi, 6, 5, 2),
  (.s11tf, 6, 5, 3),
  (.pmtmsi, 6, 5, 4),
  (.cpopci, 6, 5, 5),
  (.epcosi, 6, 5, 6),
  (.roaai, 6, 5, 7),
  (.tspcmi, 7, 6, 0),
  (.enbcrsi, 7, 6, 1),
  (.ltempi, 7, 6, 2),
  (.ltemui, 7, 6, 3),
  (.eevrsi, 7, 6, 4),
  (.fgsiwk, 7, 6, 5),
  (.reprefi, 7, 6, 6),
  (.fgsnn26, 7, 6, 7),
  (.ethpdn, 8, 7, 0),
  (.fsrhoi, 8, 7, 1),
  (.fgcnri, 8, 7, 2),
  (.fgcnrs, 8, 7, 3),
  (.n5gnmi, 8, 7, 4),
  (.mtedta, 8, 7, 5),
  (.mtedtn, 8, 7, 6),
  (.csrmfi, 8, 7, 7),
  (.emci, 9, 8, 0)]

end Verif.V2
