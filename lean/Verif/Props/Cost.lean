import Verif.Proofs.Cost
import Verif.Props.V1IE
import Verif.Props.V2Header
/-
Property theorems C87: what parsing and serialising cost, for every input, accepted or not.
`(V2.parseC g n b).cost.calls` elements are made, `.visits` elements are looked at by MarshalLen, and calls of Parse are nested
`.depth` deep on the stack.  `g` is any "is grouped" predicate.
-/
namespace Verif.Cost
open Res

namespace V2
open Verif.V2 Spec
variable (g : UInt8 → Bool)

/-- the counts are those of the modelled parsers: the same results -/
theorem C87_same (b : Bytes) : (parseC g (b.length + 1) b).res = parse g b ∧ (parseMultiC g (b.length + 1) b).res = parseMulti g b :=
  ⟨(parseC_fst g _).1 b, (parseC_fst g _).2 b⟩

/-- and of the modelled writer -/
theorem C87_same_write (x : IE) (b : Bytes) : (writeC g x b).res = x.marshalTo g b := writeC_fst g x b

/-- **C87** whatever octets are parsed as a sequence of elements: at most one element is made for every four octets begun, the
calls are nested at most as deep, and MarshalLen is called at most n(n+1)/2 times for n elements. -/
theorem C87_v2_any_partial (b : Bytes) : let r := parseMultiC g (b.length + 1) b
    r.cost.calls ≤ (b.length + 3) / 4 ∧ r.cost.depth ≤ r.cost.calls ∧
    r.cost.visits ≤ r.cost.calls * (r.cost.calls + 1) / 2 := by
  dsimp only
  obtain ⟨h1, h2, -, h3, -⟩ := (cost_bound g (b.length + 1)).2 b
  refine ⟨by omega, h1, ?_⟩
  rw [Nat.le_div_iff_mul_le (by omega), Nat.mul_add]
  omega

/-- the same for a single element -/
theorem C87_v2_one (b : Bytes) : let r := parseC g (b.length + 1) b
    r.cost.calls ≤ b.length / 4 + 1 ∧ r.cost.depth ≤ r.cost.calls ∧
    r.cost.visits ≤ r.cost.calls * (r.cost.calls - 1) / 2 := by
  dsimp only
  obtain ⟨h1, h2, -, h3, -⟩ := (cost_bound g (b.length + 1)).1 b
  refine ⟨by omega, h1, ?_⟩
  rw [Nat.le_div_iff_mul_le (by omega), Nat.mul_sub]
  omega

/-- **C87** when elements are nested at most d deep in the input, the cost is linear in its length: at most d calls of MarshalLen
for every four octets begun. -/
theorem C87_v2_linear (b : Bytes) : let r := parseMultiC g (b.length + 1) b
    r.cost.visits ≤ r.cost.depth * ((b.length + 3) / 4) := by
  intro r
  obtain ⟨-, -, h2, h3, -⟩ := (cost_bound g (b.length + 1)).2 b
  exact Nat.le_trans h2 (Nat.mul_le_mul_left _ (by omega))

/-- a datagram as `Serve` reads it has at most 1500 octets (gtpv2/conn.go:105, 179): whatever they are, at most 373 elements
are made of those after the header, nested at most 373 deep, with at most 69751 calls of MarshalLen. -/
theorem C87_v2_datagram (b : Bytes) (h : b.length ≤ 1500) (hd : Header) (hp : Header.parse b = ok hd) :
    let r := parseMultiC g (hd.payload.length + 1) hd.payload
    r.cost.calls ≤ 373 ∧ r.cost.depth ≤ 373 ∧ r.cost.visits ≤ 69751 := by
  intro r
  have hl : hd.payload.length + 8 ≤ b.length := by
    obtain ⟨tail, ht, -⟩ := (C10_parse_total_faithful b).2 hd hp
    rw [ht, encH]
    split <;> simp <;> omega
  obtain ⟨h1, h2, h3⟩ := C87_v2_any_partial g hd.payload
  have hc : r.cost.calls ≤ 373 := by simp only [r]; omega
  refine ⟨hc, by simp only [r] at *; omega, ?_⟩
  have := Nat.mul_le_mul hc (Nat.add_le_add_right hc 1)
  simp only [r] at *
  omega

/-- **C87** what the parse of a well-formed sequence costs exactly: as many elements as it has, nested as deep as they are, and
for every element one call of MarshalLen for itself and one for each element it lies in. -/
theorem C87_v2_exact (xs : List IE) (h : wfs g xs = true) :
    (parseMultiC g ((encs g xs).length + 1) (encs g xs)).cost = ⟨nodess xs, weights xs, heights xs⟩ :=
  (parseC_exact g _).2 xs h (Nat.le_refl _)

/-! ### departure: nested elements are measured again at each level -/

/-- elements of one type, each the only one in the one before -/
def chain (t : UInt8) : Nat → List IE
  | 0 => []
  | k + 1 => [.mk t (UInt16.ofNat (4 * k)) 0 (encs g (chain t k)) (chain t k)]

theorem length_chain (t : UInt8) (hg : g t = true) : ∀ k, (encs g (chain g t k)).length = 4 * k
  | 0 => rfl
  | k + 1 => by
    have := length_chain t hg k
    rw [chain, encs, encs, List.append_nil, length_enc, body, if_pos hg, this]
    omega

theorem wfs_chain (t : UInt8) (hg : g t = true) : ∀ k, k ≤ 16384 → wfs g (chain g t k) = true
  | 0, _ => rfl
  | k + 1, h => by
    have := wfs_chain t hg k (by omega)
    rw [chain, wfs, wfs, Bool.and_true, wf_grouped g hg]
    refine ⟨?_, rfl, this⟩
    rw [length_chain g t hg, UInt16.toNat_ofNat_of_lt' (by simp [UInt16.size]; omega)]

theorem chain_counts (t : UInt8) : ∀ k, nodess (chain g t k) = k ∧ heights (chain g t k) = k ∧ 2 * weights (chain g t k) = k * (k + 1)
  | 0 => by simp [chain, nodess, heights, weights]
  | k + 1 => by
    obtain ⟨h1, h2, h3⟩ := chain_counts t k
    simp only [chain, nodess, heights, weights, nodes, height, weight, h1, h2]
    refine ⟨by omega, by omega, ?_⟩
    simp only [Nat.add_mul, Nat.mul_add] at *
    omega

/-- not linear: k elements of a grouped type, each in the one before, take 4k octets, are accepted, and cost k(k+1)/2 calls of
MarshalLen and k nested calls of Parse. -/
theorem C87_v2_not_linear (t : UInt8) (hg : g t = true) (k : Nat) (hk : k ≤ 16384) :
    (encs g (chain g t k)).length = 4 * k ∧ parseMulti g (encs g (chain g t k)) = ok (chain g t k) ∧
    (parseMultiC g (4 * k + 1) (encs g (chain g t k))).cost = ⟨k, k * (k + 1) / 2, k⟩ := by
  have hl := length_chain g t hg k
  have hw := wfs_chain g t hg k hk
  obtain ⟨h1, h2, h3⟩ := chain_counts g t k
  refine ⟨hl, parseMulti_encs g _ hw, ?_⟩
  have := C87_v2_exact g _ hw
  rw [hl] at this
  rw [this, h1, h2, ← h3]
  simp

/-! ### serialising -/

/-- **C87** serialising any element into any buffer: MarshalTo is called at most once for each element, nested as deep as they
are, and MarshalLen at most 2 + 3(d-1) times for each of the n elements nested d deep. -/
theorem C87_v2_write (x : IE) (b : Bytes) : let r := writeC g x b
    r.cost.calls ≤ nodes x ∧ r.cost.depth ≤ height x ∧
    r.cost.visits ≤ 2 * nodes x + 3 * ((height x - 1) * nodes x) := by
  intro r
  obtain ⟨h1, h2, h3⟩ := writeC_bound g x b
  refine ⟨h1, h3, Nat.le_trans h2 ?_⟩
  cases x with
  | mk t n i p cs =>
    have hw := weights_le cs
    simp only [IE.children, nodes, height, Nat.add_sub_cancel_left, Nat.mul_add] at *
    omega

/-- a well-formed element has at most one element for every four octets it is serialised into -/
theorem C87_v2_nodes (x : IE) (h : wf g x = true) : nodes x ≤ (enc g x).length / 4 := by
  have := nodes_enc g x h
  omega

-- type 93 is grouped; a Bearer Context with an EBI and a Bearer QoS-like element, and an EBI after it
example : (parseMultiC (· == 93) 30 [93, 0, 10, 0, 73, 0, 1, 0, 5, 80, 0, 1, 0, 7, 73, 0, 1, 0, 6]).cost = ⟨4, 6, 2⟩ := by
  decide +kernel
-- refused after two elements
example : (parseMultiC (· == 93) 12 [73, 0, 1, 0, 5, 73, 0, 9, 0, 5, 6]).cost = ⟨2, 1, 1⟩ ∧
    (parseMultiC (· == 93) 12 [73, 0, 1, 0, 5, 73, 0, 9, 0, 5, 6]).res = err .invalidLength := by decide +kernel
example : encs (· == 93) (chain (· == 93) 93 3) = [93, 0, 8, 0, 93, 0, 4, 0, 93, 0, 0, 0] := by decide +kernel
example : (parseMultiC (· == 93) 13 [93, 0, 8, 0, 93, 0, 4, 0, 93, 0, 0, 0]).cost = ⟨3, 6, 3⟩ := by decide +kernel
example : (writeC (· == 93) (.mk 93 5 0 [] [.mk 73 1 0 [5] []]) (List.replicate 9 0)).cost = ⟨2, 5, 2⟩ := by decide +kernel

end V2

namespace TLV
open Verif.TLV

/-- **C87** GTPv0 and GTPv1: at most one element for every octet, at most three calls of MarshalLen for each, nothing nested:
linear for every input. -/
theorem C87_v01 (v : Ver) (b : Bytes) : let r := parseMultiC v.cfg (b.length + 1) b
    r.res = parseMulti v.cfg b ∧ r.cost.calls ≤ b.length ∧ r.cost.visits ≤ 3 * b.length ∧ r.cost.depth ≤ 1 := by
  intro r
  obtain ⟨h1, h2, h3⟩ := cost_bound v.agree (b.length + 1) b
  exact ⟨parseMultiC_fst _ b, h1, by simp only [r]; omega, h3⟩

example : (parseMultiC Ver.v1.cfg 20 [1, 128, 14, 5, 133, 0, 2, 1, 2]).cost = ⟨3, 9, 1⟩ := by decide +kernel

end TLV

/-- **C87** extension headers: at most one for every four octets, and one more that is refused. -/
theorem C87_ext (b : Bytes) : let r := extsC (b.length + 1) 0 b
    r.res = V1.Ext.parseMulti b ∧ r.cost.calls ≤ b.length / 4 + 1 ∧ r.cost.visits ≤ r.cost.calls ∧ r.cost.depth ≤ 1 := by
  intro r
  obtain ⟨h1, h2, h3⟩ := exts_bound (b.length + 1) 0 b
  exact ⟨extsC_fst _ _ b, by simp only [r]; omega, h2, h3⟩

example : (extsC 9 0 [1, 2, 3, 0x85, 1, 4, 5, 0]).cost = ⟨2, 2, 1⟩ := by decide +kernel

end Verif.Cost

namespace Verif.Cost.V2
open Res Verif.V2 Spec
/-! ### cases that meet the hypotheses -/

example := C87_v2_datagram (g := defaultGrouped) [0x48, 36, 0, 13, 1, 2, 3, 4, 0, 0, 9, 0, 73, 0, 1, 0, 5] (by decide) _ rfl
example := C87_v2_exact (g := defaultGrouped) [.mk 93 5 0 [73, 0, 1, 0, 5] [.mk 73 1 0 [5] []], .mk 1 1 0 [9] []] (by decide)
example := C87_v2_not_linear (g := defaultGrouped) 93 (by decide) 372 (by decide)
example := C87_v2_nodes (g := defaultGrouped) (.mk 93 5 0 [73, 0, 1, 0, 5] [.mk 73 1 0 [5] []]) (by decide)
end Verif.Cost.V2
