import Verif.Model.Typed.Indication
import Verif.Props.Typed.QoS
/-
Property theorem C45 (Indication flags), and C48 for the accessors.
-/
set_option linter.unusedSimpArgs false
namespace Verif.V2
open Res

variable (g : UInt8 → Bool)

/-- TS 29.274 8.12: the flags of octets 5 to 13, each from bit 8 to bit 1 (sp92 .. sp98 are spare) -/
def indLayout : List (List Ind) := [
  [.daf, .dtf, .hi, .dfi, .oi, .isrsi, .israi, .sgwci],
  [.sqci, .uimsi, .cfsi, .crsi, .ps, .pt, .si, .msv],
  [.retloc, .pbic, .srni, .s6af, .s4af, .mbmdt, .israu, .ccrsi],
  [.cprai, .arrl, .ppoff, .ppon, .ppsi, .csfbi, .clii, .cpsr],
  [.nsi, .uasi, .dtci, .bdwi, .psci, .pcri, .aosi, .aopi],
  [.roaai, .epcosi, .cpopci, .pmtmsi, .s11tf, .pnsi, .unaccsi, .wpmsi],
  [.fgsnn26, .reprefi, .fgsiwk, .eevrsi, .ltemui, .ltempi, .enbcrsi, .tspcmi],
  [.csrmfi, .mtedtn, .mtedta, .n5gnmi, .fgcnrs, .fgcnri, .fsrhoi, .ethpdn],
  [.sp98, .sp97, .sp96, .sp95, .sp94, .sp93, .sp92, .emci]]

/-- an octet from its bits, highest first -/
def octetOf (bs : List Bool) : UInt8 := UInt8.ofNat (bs.foldl (fun n b => 2 * n + b.toNat) 0)

/-- the payload of an Indication element with the flags `f` -/
def encInd (f : Ind → Bool) : Bytes := indLayout.map (fun row => octetOf (row.map f))

/-- 1 for set, 0 for not set, as `NewIndication` wants it -/
def num (f : Ind → Bool) (x : Ind) : UInt8 := if f x then 1 else 0

theorem octet8 : ∀ a b c d e f h i : Bool,
    (((((((((0 : UInt8) ||| ((if i then (1 : UInt8) else 0) <<< 0)) ||| ((if h then (1 : UInt8) else 0) <<< 1)) ||| ((if f then (1 : UInt8) else 0) <<< 2)) |||
      ((if e then (1 : UInt8) else 0) <<< 3)) ||| ((if d then (1 : UInt8) else 0) <<< 4)) ||| ((if c then (1 : UInt8) else 0) <<< 5)) |||
      ((if b then (1 : UInt8) else 0) <<< 6)) ||| ((if a then (1 : UInt8) else 0) <<< 7)) = octetOf [a, b, c, d, e, f, h, i] := by
  decide +kernel

theorem octetOf_bits : ∀ a b c d e f h i : Bool,
    hasBit 0 (octetOf [a, b, c, d, e, f, h, i]) = i ∧ hasBit 1 (octetOf [a, b, c, d, e, f, h, i]) = h ∧
    hasBit 2 (octetOf [a, b, c, d, e, f, h, i]) = f ∧ hasBit 3 (octetOf [a, b, c, d, e, f, h, i]) = e ∧
    hasBit 4 (octetOf [a, b, c, d, e, f, h, i]) = d ∧ hasBit 5 (octetOf [a, b, c, d, e, f, h, i]) = c ∧
    hasBit 6 (octetOf [a, b, c, d, e, f, h, i]) = b ∧ hasBit 7 (octetOf [a, b, c, d, e, f, h, i]) = a := by
  decide +kernel

theorem newIndication_payload (f : Ind → Bool) : newIndication (num f) = newIE 77 0 (encInd f) := by
  unfold newIndication encInd
  congr 1
  simp only [indBlocks, indLayout, List.map_cons, List.map_nil, List.foldl_cons, List.foldl_nil, num, octet8]

/-- every accessor's row agrees with the layout: its flag sits at that octet and bit, and the length check is just enough -/
theorem accessors_layout : ∀ a ∈ indAccessors,
    a.2.1 = a.2.2.1 + 1 ∧ a.2.2.1 < 9 ∧ a.2.2.2 < 8 ∧
    (indLayout[a.2.2.1]?.bind (fun row => row[7 - a.2.2.2]?)) = some a.1 := by decide +kernel

theorem octetOf_row (f : Ind → Bool) (row : List Ind) (hl : row.length = 8) (k : Nat) (hk : k < 8) (x : Ind)
    (hx : row[7 - k]? = some x) : hasBit k (octetOf (row.map f)) = f x := by
  match row, hl with
  | [a, b, c, d, e, p, h, i], _ =>
    have o := octetOf_bits (f a) (f b) (f c) (f d) (f e) (f p) (f h) (f i)
    match k, hk with
    | 0, _ => simp at hx; subst hx; exact o.1
    | 1, _ => simp at hx; subst hx; exact o.2.1
    | 2, _ => simp at hx; subst hx; exact o.2.2.1
    | 3, _ => simp at hx; subst hx; exact o.2.2.2.1
    | 4, _ => simp at hx; subst hx; exact o.2.2.2.2.1
    | 5, _ => simp at hx; subst hx; exact o.2.2.2.2.2.1
    | 6, _ => simp at hx; subst hx; exact o.2.2.2.2.2.2.1
    | 7, _ => simp at hx; subst hx; exact o.2.2.2.2.2.2.2

theorem layout_rows : ∀ row ∈ indLayout, row.length = 8 := by decide

theorem indFlag_enc (f : Ind → Bool) (i : IE) (ht : i.typ = 77) (hp : i.payload = encInd f) (a) (ha : a ∈ indAccessors) :
    i.indFlag a = ok (f a.1) := by
  obtain ⟨h1, h2, h3, h4⟩ := accessors_layout a ha
  have hl : (encInd f).length = 9 := rfl
  rw [Option.bind_eq_some_iff] at h4
  obtain ⟨row, hr, hx⟩ := h4
  rw [IE.indFlag, if_neg (by simp [ht]), hp, if_neg (by omega)]
  have : idx (encInd f) a.2.2.1 = ok (octetOf (row.map f)) := by
    rw [idx, encInd, List.getElem?_map, hr]; rfl
  rw [this]
  simp only [bind_ok]
  rw [octetOf_row f row (layout_rows row (List.mem_of_getElem? hr)) _ h3 _ hx]

/-- C45: for all 2^72 combinations of flags, the constructor returns the 3GPP encoding, which survives the wire, and each of
the 65 accessors reports exactly the flag it is named after - so no flag influences another. -/
theorem C45_indication (f : Ind → Bool) (hg : g 77 = false) (n : UInt8) :
    ((newIndication (num f)).withInstance n).payload = encInd f ∧ Carried g ((newIndication (num f)).withInstance n) ∧
    ∀ a ∈ indAccessors, ((newIndication (num f)).withInstance n).indFlag a = ok (f a.1) := by
  rw [newIndication_payload, withInstance_new]
  exact ⟨rfl, carried_new g (by show 9 < 65536; decide) hg, fun a ha => indFlag_enc f _ rfl rfl a ha⟩

example : (newIndication (num (fun x => x == .ps))).payload = [0, 8, 0, 0, 0, 0, 0, 0, 0] := by decide

/-- C45: every flag of the specification but the spare bits has an accessor, and no two accessors are for the same flag -/
theorem C45_complete : (∀ x ∈ indLayout.flatten, (∃ a ∈ indAccessors, a.1 = x) ∨
      x ∈ [Ind.sp92, .sp93, .sp94, .sp95, .sp96, .sp97, .sp98]) ∧
    (indAccessors.map (·.1)).Nodup ∧ indParams = indLayout.flatten ∧ indParams.Nodup := by
  refine ⟨?_, ?_, rfl, ?_⟩ <;> decide +kernel

/-! ### the constructors from a bit sequence and from octets -/

/-- '1' to '9' count as set -/
def isSet (c : UInt8) : Bool := decide (49 ≤ c ∧ c ≤ 57)

/-- a string of decimal digits, eight for each octet -/
def packBits : Nat → Bytes → Bytes
  | 0, _ => []
  | n + 1, s => octetOf ((s.take 8).map isSet) :: packBits n (s.drop 8)

theorem bitOf_digit {c : UInt8} (h : Utils.isDigit c) : bitOf c = some (if isSet c then 1 else 0) := by
  rcases Utils.digit_cases h with rfl | rfl | rfl | rfl | rfl | rfl | rfl | rfl | rfl | rfl <;> decide

theorem shift_facts (j : Nat) : ∀ k < 8, (8 * j + k) / 8 = j ∧ 8 * (j + 1) - (8 * j + k) - 1 = 7 - k := by
  intro k hk; omega

theorem bitLoop_step {c : UInt8} (h : Utils.isDigit c) (cs : Bytes) (j k : Nat) (hk : k < 8) (pre z : Bytes) (o : UInt8)
    (hj : j = pre.length) (i : Nat) (hi : i = 8 * j + k) :
    bitLoop (c :: cs) i (pre ++ o :: z) =
      bitLoop cs (8 * j + (k + 1)) (pre ++ (o ||| ((if isSet c then 1 else 0) <<< UInt8.ofNat (7 - k))) :: z) := by
  subst hi
  obtain ⟨f1, f2⟩ := shift_facts j k hk
  rw [bitLoop, bitOf_digit h]
  simp only [f1, f2]
  rw [idx_mid hj]
  simp only [bind_ok]
  rw [setAt_append hj (by simp)]
  simp [Nat.add_assoc]

theorem octet8' : ∀ a b c d e f h i : Bool,
    (((((((((0 : UInt8) ||| ((if a then (1 : UInt8) else 0) <<< UInt8.ofNat (7 - 0))) ||| ((if b then (1 : UInt8) else 0) <<< UInt8.ofNat (7 - 1))) |||
      ((if c then (1 : UInt8) else 0) <<< UInt8.ofNat (7 - 2))) ||| ((if d then (1 : UInt8) else 0) <<< UInt8.ofNat (7 - 3))) |||
      ((if e then (1 : UInt8) else 0) <<< UInt8.ofNat (7 - 4))) ||| ((if f then (1 : UInt8) else 0) <<< UInt8.ofNat (7 - 5))) |||
      ((if h then (1 : UInt8) else 0) <<< UInt8.ofNat (7 - 6))) ||| ((if i then (1 : UInt8) else 0) <<< UInt8.ofNat (7 - 7))) =
      octetOf [a, b, c, d, e, f, h, i] := by
  decide +kernel

theorem bitLoop_eq : ∀ (n : Nat) (s pre : Bytes) (i : Nat), Utils.Digits s → s.length = 8 * n → i = 8 * pre.length →
    bitLoop s i (pre ++ List.replicate n 0) = ok (some (pre ++ packBits n s))
  | 0, s, pre, i, _, hl, _ => by
    have : s = [] := by cases s with | nil => rfl | cons => simp at hl
    subst this; simp [bitLoop, packBits]
  | n + 1, s, pre, i, hd, hl, hi => by
    match s, hl with
    | a :: b :: c :: d :: e :: f :: h :: k :: r, hl =>
      rw [List.replicate_succ]
      rw [bitLoop_step (hd a (by simp)) _ pre.length 0 (by omega) pre _ 0 rfl i (by omega)]
      rw [bitLoop_step (hd b (by simp)) _ pre.length 1 (by omega) pre _ _ rfl _ rfl]
      rw [bitLoop_step (hd c (by simp)) _ pre.length 2 (by omega) pre _ _ rfl _ rfl]
      rw [bitLoop_step (hd d (by simp)) _ pre.length 3 (by omega) pre _ _ rfl _ rfl]
      rw [bitLoop_step (hd e (by simp)) _ pre.length 4 (by omega) pre _ _ rfl _ rfl]
      rw [bitLoop_step (hd f (by simp)) _ pre.length 5 (by omega) pre _ _ rfl _ rfl]
      rw [bitLoop_step (hd h (by simp)) _ pre.length 6 (by omega) pre _ _ rfl _ rfl]
      rw [bitLoop_step (hd k (by simp)) _ pre.length 7 (by omega) pre _ _ rfl _ rfl]
      rw [octet8']
      have ih := bitLoop_eq n r (pre ++ [octetOf ([a, b, c, d, e, f, h, k].map isSet)]) (8 * pre.length + (7 + 1))
        (fun x hx => hd x (by simp [hx])) (by simp at hl; omega) (by simp; omega)
      simp only [List.append_assoc, List.singleton_append] at ih
      simpa [packBits] using ih

/-- C45: the bit sequence constructor sets exactly the flags whose character is a digit above 0, in the order of the
specification; a string of any other length or with another character gives no element. -/
theorem C45_bit_sequence (s : Bytes) :
    (s.length = 72 → Utils.Digits s →
      newIndicationBits s = ok (some (newIE 77 0 (packBits 9 s))) ∧
      ∀ f : Ind → Bool, (indLayout.flatten.map f = s.map isSet) → packBits 9 s = encInd f) ∧
    ((s.length ≠ 72 ∨ ¬ Utils.Digits s) → newIndicationBits s = ok none) := by
  refine ⟨fun hl hd => ⟨?_, ?_⟩, ?_⟩
  · rw [newIndicationBits, if_neg (by simp [hl])]
    have := bitLoop_eq 9 s [] 0 hd hl rfl
    rw [List.nil_append, List.nil_append] at this
    rw [this]; rfl
  · intro f hf
    have key : ∀ (n : Nat) (rows : List (List Ind)) (s : Bytes), rows.length = n → (∀ r ∈ rows, r.length = 8) →
        rows.flatten.map f = s.map isSet → packBits n s = rows.map (fun row => octetOf (row.map f)) := by
      intro n
      induction n with
      | zero => intro rows s h1 _ _; cases rows with
        | nil => rfl
        | cons => simp at h1
      | succ n ih =>
        intro rows s h1 h2 h3
        match rows, h1 with
        | r :: rows, h1 =>
          have hr := h2 r (by simp)
          have e1 : r.map f = (s.take 8).map isSet := by
            have := congrArg (List.take 8) h3
            rw [List.flatten_cons, List.map_append, List.take_append_of_le_length (by simp [hr]),
              List.take_of_length_le (by simp [hr]), ← List.map_take] at this
            exact this
          have e2 : rows.flatten.map f = (s.drop 8).map isSet := by
            have := congrArg (List.drop 8) h3
            rw [List.flatten_cons, List.map_append, List.drop_append_of_le_length (by simp [hr]),
              List.drop_eq_nil_of_le (by simp [hr]), List.nil_append, ← List.map_drop] at this
            exact this
          rw [packBits, ← e1, ih rows _ (by simpa using h1) (fun x hx => h2 x (by simp [hx])) e2]
          rfl
    exact key 9 indLayout s rfl layout_rows hf
  · intro h
    by_cases hl : s.length = 72
    · have hd : ¬ Utils.Digits s := by rcases h with h | h; exact absurd hl h; exact h
      rw [newIndicationBits, if_neg (by simp [hl])]
      have key : ∀ (s : Bytes) (i : Nat) (p : Bytes), ¬ Utils.Digits s → i + s.length ≤ 8 * p.length →
          bitLoop s i p = ok none := by
        intro s
        induction s with
        | nil => intro i p h; exact absurd (by intro c hc; simp at hc) h
        | cons c cs ih =>
          intro i p h hb
          rw [bitLoop]
          by_cases hc : Utils.isDigit c
          · rw [bitOf_digit hc]
            simp only [List.length_cons] at hb
            have hlt : i / 8 < p.length := by omega
            simp only
            rw [idx_of_lt hlt]
            simp only [bind_ok]
            rw [setAt_of_lt hlt]
            simp only [bind_ok]
            refine ih _ _ (fun hcs => h ?_) (by simp; omega)
            intro x hx
            simp only [List.mem_cons] at hx
            rcases hx with rfl | hx
            · exact hc
            · exact hcs x hx
          · have : bitOf c = none := by
              have e : ¬ (48 ≤ c ∧ c ≤ 57) := hc
              rw [bitOf, if_neg e]
            rw [this]
      rw [key s 0 _ hd (by simp [hl])]
      rfl
    · rw [newIndicationBits, if_pos hl]

/-- C45: from octets, whatever is in the first nine is what the accessors see; flags beyond the given octets are not set. -/
theorem C45_octets (octs : Bytes) (n : UInt8) (hg : g 77 = false) :
    ((newIndicationOctets octs).withInstance n).payload = octs.take 9 ∧
    Carried g ((newIndicationOctets octs).withInstance n) ∧
    ∀ a ∈ indAccessors, ((newIndicationOctets octs).withInstance n).indFlag a =
      ok (match octs[a.2.2.1]? with | some o => hasBit a.2.2.2 o | none => false) := by
  rw [newIndicationOctets, withInstance_new]
  refine ⟨rfl, carried_new g (by simp; omega) hg, fun a ha => ?_⟩
  obtain ⟨h1, h2, h3, h4⟩ := accessors_layout a ha
  rw [IE.indFlag, if_neg (by simp), payload_new]
  by_cases hl : a.2.2.1 < octs.length
  · rw [if_neg (by simp; omega), idx_of_lt (by simp; omega)]
    simp [hl]
  · rw [if_pos (by simp; omega)]
    rw [List.getElem?_eq_none (by omega)]

example : newIndicationBits ([49, 48, 49] ++ List.replicate 69 48) = ok (some (.mk 77 9 0 [0xa0, 0, 0, 0, 0, 0, 0, 0, 0] [])) := by
  decide
example : (newIndicationOctets [0xa1, 8]).indFlag (.ps, 2, 1, 3) = ok true ∧
    (newIndicationOctets [0xa1, 8]).indFlag (.msv, 2, 1, 0) = ok false := by decide

/-- C48 for the Indication accessors -/
theorem C48_indication (i : IE) : ∀ a ∈ indAccessors, Returns (i.indFlag a) := by
  intro a ha
  obtain ⟨h1, -⟩ := accessors_layout a ha
  unfold IE.indFlag
  ret

end Verif.V2

/-! ### cases that meet the hypotheses -/

namespace Verif.V2
open Res
example := C45_indication (g := defaultGrouped) (fun x => x == .ps) (by decide) 1
example := C45_octets (g := defaultGrouped) [0xa1, 8] 1 (by decide)
example := C48_indication (newIndicationOctets [0xa1, 8]) (.ps, 2, 1, 3) (by decide)
end Verif.V2
