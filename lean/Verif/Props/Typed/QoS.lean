import Verif.Props.Typed.Addr
import Verif.Props.Utils
/-
Property theorem C42 (AMBR, Bearer QoS, Flow QoS, ARP), and C48 for these elements.
-/
set_option linter.unusedSimpArgs false
namespace Verif.V2
open Res Utils

variable (g : UInt8 → Bool)

/-- C42: AMBR -/
theorem C42_ambr (up down : UInt32) (hg : g 72 = false) :
    ∃ i, newAMBR up down = ok (some i) ∧ i.payload = be32 up ++ be32 down ∧
      ∀ n, Carried g (i.withInstance n) ∧ (i.withInstance n).ambr = ok ⟨up, down⟩ ∧
        (i.withInstance n).ambrUp = ok up ∧ (i.withInstance n).ambrDown = ok down := by
  obtain ⟨p, q, r, s, hu, -⟩ := be32_cases up
  obtain ⟨p', q', r', s', hd, -⟩ := be32_cases down
  have h1 := rd32_be32'' up hu
  have h2 := rd32_be32'' down hd
  refine ⟨newIE 72 0 (be32 up ++ be32 down), ?_, rfl, fun n => ⟨?_, ?_, ?_, ?_⟩⟩
  · simp [newAMBR, AMBR.marshal, AMBR.marshalTo, copyAt, hu, hd, build]
  · rw [withInstance_new]; exact carried_new g (by len) hg
  · simp [IE.ambr, parseAMBR, slice, hu, hd, h1, h2]
  · simp [IE.ambrUp, slice, hu, hd, h1]
  · simp [IE.ambrDown, slice, hu, hd, h2]

example : newAMBR 0x11111111 0x22222222 = ok (some (.mk 72 8 0 [17, 17, 17, 17, 34, 34, 34, 34] [])) := by decide

/-- the ARP octet in the layout of TS 29.274 8.86 / 8.15: spare, PCI, four bits priority level, spare, PVI -/
def encARP (pci pl pvi : UInt8) : UInt8 := UInt8.ofNat (pci.toNat * 64 + pl.toNat * 4 + pvi.toNat)

theorem arpOctet_eq : ∀ pci pl pvi : UInt8, pci < 2 → pl < 16 → pvi < 2 →
    arpOctet pci pl pvi = encARP pci pl pvi ∧ (encARP pci pl pvi &&& 0x3c) >>> 2 = pl ∧
    has7thBit (encARP pci pl pvi) = (pci == 1) ∧ has1stBit (encARP pci pl pvi) = (pvi == 1) := by
  intro pci pl pvi h1 h2 h3
  have key : ∀ (a : Fin 2) (b : Fin 16) (c : Fin 2),
      arpOctet (.ofNat a) (.ofNat b) (.ofNat c) = encARP (.ofNat a) (.ofNat b) (.ofNat c) ∧
      (encARP (.ofNat a) (.ofNat b) (.ofNat c) &&& 0x3c) >>> 2 = .ofNat b ∧
      has7thBit (encARP (.ofNat a) (.ofNat b) (.ofNat c)) = ((.ofNat a : UInt8) == 1) ∧
      has1stBit (encARP (.ofNat a) (.ofNat b) (.ofNat c)) = ((.ofNat c : UInt8) == 1) := by decide +kernel
  have := key ⟨pci.toNat, h1⟩ ⟨pl.toNat, h2⟩ ⟨pvi.toNat, h3⟩
  simpa only [UInt8.ofNat_toNat] using this

/-- TS 29.274 8.15 -/
def encBearerQoS (pci pl pvi qci : UInt8) (umbr dmbr ugbr dgbr : UInt64) : Bytes :=
  [encARP pci pl pvi, qci] ++ be40 umbr ++ be40 dmbr ++ be40 ugbr ++ be40 dgbr

theorem be40_lit (n : UInt64) (h : n.toNat < 2 ^ 40) :
    ∃ a b c d e, be40 n = [a, b, c, d, e] ∧ uint64To40 n = [a, b, c, d, e] ∧ uint40To64 [a, b, c, d, e] = n := by
  refine ⟨_, _, _, _, _, rfl, ?_, ?_⟩
  · rw [uint64To40_eq]; rfl
  · have h1 := C03_uint40 n
    rw [h1.1] at h1
    apply UInt64.toNat_inj.mp
    have h2 := h1.2
    rw [Nat.mod_eq_of_lt h] at h2
    exact h2

/-- what is right about Bearer QoS and Flow QoS: everything but the accessors named in the `_wrong` theorems below.
C42: Bearer QoS with flags 0/1, priority level below 16, any QCI, rates below 2^40. Missing: `HasPCI` and `HasPVI`
(`C42_bearer_qos_pci_wrong`). -/
theorem C42_bearer_qos_partial (pci pl pvi qci : UInt8) (umbr dmbr ugbr dgbr : UInt64) (h1 : pci < 2) (h2 : pl < 16)
    (h3 : pvi < 2) (r1 : umbr.toNat < 2 ^ 40) (r2 : dmbr.toNat < 2 ^ 40) (r3 : ugbr.toNat < 2 ^ 40)
    (r4 : dgbr.toNat < 2 ^ 40) (hg : g 80 = false) :
    ∃ i, newBearerQoS pci pl pvi qci umbr dmbr ugbr dgbr = ok (some i) ∧
      i.payload = encBearerQoS pci pl pvi qci umbr dmbr ugbr dgbr ∧
      ∀ n, Carried g (i.withInstance n) ∧
        (i.withInstance n).bearerQoS g = ok ⟨encARP pci pl pvi, qci, umbr, dmbr, ugbr, dgbr⟩ ∧
        (i.withInstance n).priorityLevel g = ok pl ∧ (i.withInstance n).qciLabel g = ok qci ∧
        (i.withInstance n).mbrUp = ok umbr ∧ (i.withInstance n).mbrDown = ok dmbr ∧
        (i.withInstance n).gbrUp = ok ugbr ∧ (i.withInstance n).gbrDown = ok dgbr := by
  obtain ⟨a1, b1, c1, d1, e1, x1, y1, z1⟩ := be40_lit umbr r1
  obtain ⟨a2, b2, c2, d2, e2, x2, y2, z2⟩ := be40_lit dmbr r2
  obtain ⟨a3, b3, c3, d3, e3, x3, y3, z3⟩ := be40_lit ugbr r3
  obtain ⟨a4, b4, c4, d4, e4, x4, y4, z4⟩ := be40_lit dgbr r4
  obtain ⟨k1, k2, -, -⟩ := arpOctet_eq pci pl pvi h1 h2 h3
  have hp : parseBearerQoS (encBearerQoS pci pl pvi qci umbr dmbr ugbr dgbr) =
      ok ⟨encARP pci pl pvi, qci, umbr, dmbr, ugbr, dgbr⟩ := by
    simp [parseBearerQoS, encBearerQoS, x1, x2, x3, x4, slice, z1, z2, z3, z4]
  refine ⟨newIE 80 0 (encBearerQoS pci pl pvi qci umbr dmbr ugbr dgbr), ?_, rfl, fun n => ?_⟩
  · simp [newBearerQoS, BearerQoS.marshal, BearerQoS.marshalTo, copyAt, setAt, k1, y1, y2, y3, y4, build, encBearerQoS,
      x1, x2, x3, x4]
  · rw [withInstance_new]
    refine ⟨carried_new g (by simp [encBearerQoS]) hg, ?_, ?_, ?_, ?_⟩
    · simp [IE.bearerQoS, hp]
    · simp [IE.priorityLevel, IE.bearerQoS, hp, k2]
    · simp [IE.qciLabel, encBearerQoS]
    · simp [IE.mbrUp, IE.mbrDown, IE.gbrUp, IE.gbrDown, bitRate, encBearerQoS, x1, x2, x3, x4, slice, z1, z2, z3, z4]

example : newBearerQoS 1 2 1 0xff 0x1111111111 0x2222222222 0 0x3333333333 =
    ok (some (.mk 80 22 0 [0x49, 0xff, 17, 17, 17, 17, 17, 34, 34, 34, 34, 34, 0, 0, 0, 0, 0, 51, 51, 51, 51, 51] [])) := by
  decide

/-- `HasPCI`/`HasPVI` only look at ARP elements: on every Bearer QoS element they report false, also when the flags are set -/
theorem C42_bearer_qos_pci_wrong (i : IE) (h : i.typ = 80) : i.hasPCI g = ok false ∧ i.hasPVI g = ok false := by
  simp [IE.hasPCI, IE.hasPVI, IE.arp, h]

example : (newBearerQoS 1 2 1 9 0 0 0 0).bind (fun i => (i.getD default).hasPCI defaultGrouped) = ok false := by decide

/-- C42: the Allocation/Retention Priority element -/
theorem C42_arp (pci pl pvi : UInt8) (h1 : pci < 2) (h2 : pl < 16) (h3 : pvi < 2) (hg : g 155 = false) (n : UInt8) :
    ((newARP pci pl pvi).withInstance n).payload = [encARP pci pl pvi] ∧ Carried g ((newARP pci pl pvi).withInstance n) ∧
    ((newARP pci pl pvi).withInstance n).priorityLevel g = ok pl ∧
    ((newARP pci pl pvi).withInstance n).hasPCI g = ok (pci == 1) ∧
    ((newARP pci pl pvi).withInstance n).hasPVI g = ok (pvi == 1) := by
  obtain ⟨k1, k2, k3, k4⟩ := arpOctet_eq pci pl pvi h1 h2 h3
  have hz : (0 : UInt8) ||| arpOctet pci pl pvi = encARP pci pl pvi := by rw [k1]; simp
  rw [newARP, hz, withInstance_new]
  refine ⟨rfl, carried_new g (by simp) hg, ?_, ?_, ?_⟩
  · simp [IE.priorityLevel, IE.arp, IE.valueAsUint8, hg, k2]
  · simp [IE.hasPCI, IE.arp, IE.valueAsUint8, hg, k3]
  · simp [IE.hasPVI, IE.arp, IE.valueAsUint8, hg, k4]

example : newARP 1 2 0 = .mk 155 1 0 [0x48] [] := by decide

/-- TS 29.274 8.16 -/
def encFlowQoS (qci : UInt8) (umbr dmbr ugbr dgbr : UInt64) : Bytes :=
  [qci] ++ be40 umbr ++ be40 dmbr ++ be40 ugbr ++ be40 dgbr

/-- C42: Flow QoS. Missing: `MBRForUplink` (`C42_flow_qos_mbr_wrong`). -/
theorem C42_flow_qos_partial (qci : UInt8) (umbr dmbr ugbr dgbr : UInt64) (r1 : umbr.toNat < 2 ^ 40)
    (r2 : dmbr.toNat < 2 ^ 40) (r3 : ugbr.toNat < 2 ^ 40) (r4 : dgbr.toNat < 2 ^ 40) (hg : g 81 = false) :
    ∃ i, newFlowQoS qci umbr dmbr ugbr dgbr = ok (some i) ∧ i.payload = encFlowQoS qci umbr dmbr ugbr dgbr ∧
      ∀ n, Carried g (i.withInstance n) ∧
        (i.withInstance n).flowQoS = ok ⟨qci, umbr, dmbr, ugbr, dgbr⟩ ∧ (i.withInstance n).qciLabel g = ok qci ∧
        (i.withInstance n).mbrDown = ok dmbr ∧ (i.withInstance n).gbrUp = ok ugbr ∧
        (i.withInstance n).gbrDown = ok dgbr := by
  obtain ⟨a1, b1, c1, d1, e1, x1, y1, z1⟩ := be40_lit umbr r1
  obtain ⟨a2, b2, c2, d2, e2, x2, y2, z2⟩ := be40_lit dmbr r2
  obtain ⟨a3, b3, c3, d3, e3, x3, y3, z3⟩ := be40_lit ugbr r3
  obtain ⟨a4, b4, c4, d4, e4, x4, y4, z4⟩ := be40_lit dgbr r4
  refine ⟨newIE 81 0 (encFlowQoS qci umbr dmbr ugbr dgbr), ?_, rfl, fun n => ?_⟩
  · simp [newFlowQoS, FlowQoS.marshal, FlowQoS.marshalTo, copyAt, setAt, y1, y2, y3, y4, build, encFlowQoS, x1, x2, x3, x4]
  · rw [withInstance_new]
    refine ⟨carried_new g (by simp [encFlowQoS]) hg, ?_, ?_, ?_⟩
    · simp [IE.flowQoS, parseFlowQoS, encFlowQoS, x1, x2, x3, x4, slice, z1, z2, z3, z4]
    · simp [IE.qciLabel, IE.valueAsUint8, hg, encFlowQoS]
    · simp [IE.mbrDown, IE.gbrUp, IE.gbrDown, bitRate, encFlowQoS, x1, x2, x3, x4, slice, z1, z2, z3, z4]

example : newFlowQoS 9 1 2 3 0x1111111111 = ok (some (newIE 81 0 [9, 0, 0, 0, 0, 1, 0, 0, 0, 0, 2, 0, 0, 0, 0, 3, 17, 17, 17, 17, 17])) := by
  decide

/-- `MBRForUplink` takes four octets of a Flow QoS element where five are needed: it returns 0 for every such element that is
long enough -/
theorem C42_flow_qos_mbr_wrong (i : IE) (h : i.typ = 81) (hl : 6 ≤ i.payload.length) : i.mbrUp = ok 0 := by
  unfold IE.mbrUp bitRate
  rw [if_neg (by rw [h]; decide), if_pos h, if_neg (by omega), slice_of_le (by omega) (by omega)]
  have : ((i.payload.drop 2).take (6 - 2)).length = 4 := by simp; omega
  simp only [bind_ok, ok.injEq]
  exact (C03_uint40_bytes _).2 (by omega)

example : (newFlowQoS 9 0x1111111111 5 6 7).bind (fun i => (i.getD default).mbrUp) = ok 0 := by decide
example : (newFlowQoS 9 0x1111111111 5 6 7).bind (fun i => (i.getD default).mbrDown) = ok 5 := by decide

theorem parseMulti_returns (b : Bytes) : Returns (parseMulti g b) := (C06_parse_total_lossless g b).2.1
theorem parseBearerQoS_returns (b : Bytes) : Returns (parseBearerQoS b) := by unfold parseBearerQoS; ret
theorem bearerContext_returns (i : IE) : Returns (i.bearerContext g) := by
  unfold IE.bearerContext; ret; exact parseMulti_returns g _
theorem bearerQoS_returns (i : IE) : Returns (i.bearerQoS g) := by
  unfold IE.bearerQoS
  ret
  · exact parseBearerQoS_returns _
  · refine returns_bind (bearerContext_returns g _) (fun _ _ => ?_)
    ret
    exact parseBearerQoS_returns _
theorem valueAsUint8_returns (i : IE) : Returns (i.valueAsUint8 g) := by unfold IE.valueAsUint8; ret
theorem arp_returns (i : IE) : Returns (i.arp g) := by unfold IE.arp; ret; exact valueAsUint8_returns g _

/-- C48 for the QoS readers: whatever the type and payload -/
theorem C48_qos (i : IE) : Returns i.ambr ∧ Returns i.ambrUp ∧ Returns i.ambrDown ∧ Returns (i.bearerQoS g) ∧
    Returns (i.arp g) ∧ Returns (i.hasPVI g) ∧ Returns (i.hasPCI g) ∧ Returns (i.priorityLevel g) ∧ Returns i.flowQoS ∧
    Returns (i.qciLabel g) ∧ Returns i.mbrUp ∧ Returns i.mbrDown ∧ Returns i.gbrUp ∧ Returns i.gbrDown := by
  refine ⟨?_, ?_, ?_, bearerQoS_returns g i, arp_returns g i, ?_, ?_, ?_, ?_, ?_, ?_, ?_, ?_, ?_⟩
  · unfold IE.ambr; ret; unfold parseAMBR; ret
  · unfold IE.ambrUp; ret
  · unfold IE.ambrDown; ret
  · have := arp_returns g i
    unfold IE.hasPVI; split <;> simp_all
  · have := arp_returns g i
    unfold IE.hasPCI; split <;> simp_all
  · unfold IE.priorityLevel; ret
    · exact returns_bind (arp_returns g _) (fun _ _ => by ret)
    · exact returns_bind (bearerQoS_returns g _) (fun _ _ => by ret)
  · unfold IE.flowQoS; ret; unfold parseFlowQoS; ret
  · unfold IE.qciLabel; ret; exact valueAsUint8_returns g _
  · unfold IE.mbrUp bitRate; ret
  · unfold IE.mbrDown bitRate; ret
  · unfold IE.gbrUp bitRate; ret
  · unfold IE.gbrDown bitRate; ret

example : (newIE 80 0 [1]).qciLabel defaultGrouped = err .eof := by decide

end Verif.V2

/-! ### cases that meet the hypotheses -/

namespace Verif.V2
open Res
example := C42_ambr (g := defaultGrouped) 0x01020304 0x05060708 (by decide)
example := C42_bearer_qos_partial (g := defaultGrouped) 1 2 1 0xff 0x1111111111 0x2222222222 3 4 (by decide) (by decide) (by decide) (by decide) (by decide)
  (by decide) (by decide) (by decide)
example := C42_bearer_qos_pci_wrong (g := defaultGrouped) (newIE 80 0 (0x49 :: List.replicate 21 0)) rfl
example := C42_arp (g := defaultGrouped) 1 2 1 (by decide) (by decide) (by decide) (by decide) 1
example := C42_flow_qos_partial (g := defaultGrouped) 1 0x1111111111 0x2222222222 3 4 (by decide) (by decide) (by decide) (by decide) (by decide)
example := C42_flow_qos_mbr_wrong (newIE 81 0 [1, 0, 0, 0, 0, 7, 9]) rfl (by decide)
end Verif.V2
