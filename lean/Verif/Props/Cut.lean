import Verif.Props.Departures
import Verif.Props.V1Msg
import Verif.Props.V0Msg
import Verif.Props.UConn
/-
C92: a message of which only the first k octets arrive.  GTPv1 looks at Length and refuses it.  GTPv2 and GTPv0 notice only a
cut inside an element; the T-PDUs of GTPv0 and what the GTPv1 relay forwards are not checked at all.
-/
namespace Verif.V2
open Res Spec Msg
variable (g : UInt8 → Bool)

/-- a sequence of elements that begins like another one begins with its elements -/
theorem encs_prefix : ∀ (xs zs : List IE) (r : Bytes), wfs g xs = true → wfs g zs = true → encs g zs = encs g xs ++ r →
    ∃ ys, zs = xs ++ ys ∧ r = encs g ys
  | [], zs, r, _, _, h => ⟨zs, rfl, by simpa [encs] using h.symm⟩
  | x :: xs, [], r, _, _, h => by
    have := congrArg List.length h
    have hl := length_enc g x
    simp [encs] at this
    omega
  | x :: xs, z :: zs, r, hx, hz, h => by
    simp only [wfs, Bool.and_eq_true] at hx hz
    simp only [encs, List.append_assoc] at h
    have h1 := parse_enc g z (encs g zs) hz.1
    rw [h, parse_enc g x _ hx.1] at h1
    simp only [ok.injEq] at h1
    subst h1
    obtain ⟨ys, e1, e2⟩ := encs_prefix xs zs r hx.2 hz.2 (List.append_cancel_left h)
    exact ⟨ys, by rw [e1, List.cons_append], e2⟩

theorem wfs_append (xs ys : List IE) : wfs g (xs ++ ys) = (wfs g xs && wfs g ys) := by
  induction xs with
  | nil => simp [wfs]
  | cons x xs ih => simp [wfs, ih, Bool.and_assoc]

/-- a header whose Length promises more than there is -/
theorem parse_cut (b : Bytes) (h : Header) (hp : Header.parse b = ok h) (hl : h.length.toNat + 4 = b.length)
    (k : Nat) (h12 : 12 ≤ k) (hk : k < b.length) :
    Header.parse (b.take k) = ok { h with payload := h.payload.take (k - (b.length - h.payload.length)) } ∧
    h.payload.length ≤ b.length ∧ b.length - h.payload.length ≤ 12 := by
  match b, hk, hl, hp with
  | f :: t :: l0 :: l1 :: a0 :: a1 :: a2 :: a3 :: s0 :: s1 :: s2 :: sp :: r, hk, hl, hp =>
    obtain ⟨j, rfl⟩ : ∃ j, k = j + 12 := ⟨k - 12, by omega⟩
    have hN : (UInt16.ofNat (l0.toNat * 256 + l1.toNat)).toNat = l0.toNat * 256 + l1.toNat :=
      toNat_ofNat16 (by have := l0.toNat_lt; have := l1.toNat_lt; omega)
    rw [Header.parse_eq] at hp ⊢
    simp only [List.length_cons] at hl hk
    simp only [List.take_succ_cons, Header.parseSpec, List.length_take] at hp ⊢
    have hm : min j r.length = j := by omega
    rw [hm]
    by_cases c4 : l0.toNat * 256 + l1.toNat < 4
    · rw [if_pos c4] at hp; cases hp
    rw [if_neg c4] at hp ⊢
    by_cases cT : f.toNat / 8 % 2 = 1
    · rw [if_pos cT] at hp ⊢
      by_cases c8 : l0.toNat * 256 + l1.toNat < 8
      · rw [if_pos c8] at hp; cases hp
      rw [if_neg c8] at hp ⊢
      have key : (∃ p, h = ⟨f, t, UInt16.ofNat (l0.toNat * 256 + l1.toNat),
          UInt32.ofNat (a0.toNat * 16777216 + a1.toNat * 65536 + a2.toNat * 256 + a3.toNat),
          UInt32.ofNat (s0.toNat * 65536 + s1.toNat * 256 + s2.toNat), sp, p⟩) := by
        split at hp
        · simp only [ok.injEq] at hp; exact ⟨_, hp.symm⟩
        · split at hp
          · simp only [ok.injEq] at hp; exact ⟨_, hp.symm⟩
          · cases hp
      obtain ⟨p, rfl⟩ := key
      simp only [hN] at hl
      by_cases c6 : l0.toNat * 256 + l1.toNat + 4 < 65536
      case neg => rw [if_neg (by omega), if_neg c6] at hp; cases hp
      rw [if_neg (by omega), if_pos c6] at hp
      simp only [ok.injEq, Header.mk.injEq, true_and] at hp
      rw [if_pos (by omega)]
      have e : p = r := by rw [← hp, List.take_of_length_le (by omega)]
      subst e
      simp only [List.length_cons]
      refine ⟨?_, by omega, by omega⟩
      rw [show j + 12 - (p.length + 1 + 1 + 1 + 1 + 1 + 1 + 1 + 1 + 1 + 1 + 1 + 1 - p.length) = j by omega]
    · rw [if_neg cT] at hp ⊢
      have key : (∃ p, h = ⟨f, t, UInt16.ofNat (l0.toNat * 256 + l1.toNat), 0,
          UInt32.ofNat (a0.toNat * 65536 + a1.toNat * 256 + a2.toNat), a3, p⟩) := by
        split at hp
        · simp only [ok.injEq] at hp; exact ⟨_, hp.symm⟩
        · split at hp
          · simp only [ok.injEq] at hp; exact ⟨_, hp.symm⟩
          · cases hp
      obtain ⟨p, rfl⟩ := key
      simp only [hN] at hl
      by_cases c6 : l0.toNat * 256 + l1.toNat + 4 < 65536
      case neg => rw [if_neg (by omega), if_neg c6] at hp; cases hp
      rw [if_neg (by omega), if_pos c6] at hp
      simp only [ok.injEq, Header.mk.injEq, true_and] at hp
      rw [if_pos (by omega)]
      have e : p = s0 :: s1 :: s2 :: sp :: r := by
        rw [← hp, List.take_of_length_le (by simp only [List.length_cons]; omega)]
      subst e
      simp only [List.length_cons]
      refine ⟨?_, by omega, by omega⟩
      rw [show j + 12 - (r.length + 1 + 1 + 1 + 1 + 1 + 1 + 1 + 1 + 1 + 1 + 1 + 1 - (r.length + 1 + 1 + 1 + 1)) = j + 4 by omega]
      simp only [List.take_succ_cons]

theorem schemaOf_early (t : UInt8) : (schemaOf t).early = true :=
  forall_byte (p := fun t => (schemaOf t).early = true) (by decide +kernel) t

theorem parseMsg_two (g : UInt8 → Bool) (f t : UInt8) (r : Bytes) :
    parseMsg g (f :: t :: r) = unmarshal hdrOps (ieOps g) (schemaOf t) (f :: t :: r) := by
  unfold parseMsg
  rw [if_neg (by simp)]
  rfl

theorem parse_short (b : Bytes) (h : b.length < 12) : ∃ e, Header.parse b = err e := by
  rw [Header.parse_eq]
  match b, h with
  | [], _ | [_], _ | [_, _], _ | [_, _, _], _ | [_, _, _, _], _ | [_, _, _, _, _], _ | [_, _, _, _, _, _], _
  | [_, _, _, _, _, _, _], _ | [_, _, _, _, _, _, _, _], _ | [_, _, _, _, _, _, _, _, _], _
  | [_, _, _, _, _, _, _, _, _, _], _ | [_, _, _, _, _, _, _, _, _, _, _], _ => exact ⟨_, rfl⟩
  | _ :: _ :: _ :: _ :: _ :: _ :: _ :: _ :: _ :: _ :: _ :: _ :: r, h => simp at h; omega

theorem parseMsg_short (b : Bytes) (h : b.length < 12) : ∃ e, parseMsg g b = err e := by
  match b, h with
  | [], _ | [_], _ => exact ⟨_, rfl⟩
  | f :: t :: r, h =>
    obtain ⟨e, he⟩ := parse_short _ h
    refine ⟨e, ?_⟩
    rw [parseMsg_two]
    unfold unmarshal
    have he' : hdrOps.parse (f :: t :: r) = err e := he
    rw [he']
    rfl

/-- the message read from octets with this header -/
theorem parseMsg_of_header (f t : UInt8) (r : Bytes) (h : Header) (hp : Header.parse (f :: t :: r) = ok h) :
    (h.payload.length < 2 → parseMsg g (f :: t :: r) = ok ⟨schemaOf t, h, Fields.empty⟩) ∧
    (∀ xs, wfs g xs = true → h.payload = encs g xs →
      parseMsg g (f :: t :: r) = ok ⟨schemaOf t, h, classify (ieOps g) (schemaOf t).unRules (schemaOf t).unDefault xs⟩) ∧
    (2 ≤ h.payload.length → (∀ xs, wfs g xs = true → h.payload ≠ encs g xs) → ∃ e, parseMsg g (f :: t :: r) = err e) := by
  rw [parseMsg_two]
  have hp' : hdrOps.parse (f :: t :: r) = ok h := hp
  have hpay : hdrOps.payload h = h.payload := rfl
  have hmul : (ieOps g).parseMulti = parseMulti g := rfl
  refine ⟨?_, ?_, ?_⟩
  · intro h2
    unfold unmarshal
    rw [hp', bind_ok, if_pos (by rw [schemaOf_early, hpay]; simpa using h2)]
  · intro xs hw he
    unfold unmarshal
    rw [hp', bind_ok, hpay, hmul]
    split
    · rename_i hc
      cases xs with
      | nil => rfl
      | cons x xs =>
        have := length_enc g x
        simp only [Bool.and_eq_true, decide_eq_true_eq, he, encs, List.length_append] at hc
        omega
    · rw [he, parseMulti_encs g xs hw]; rfl
  · intro h2 hn
    unfold unmarshal
    rw [hp', bind_ok, hpay, hmul, if_neg (by simp; omega)]
    rcases parseMulti_total g h.payload with ⟨e, he⟩ | ⟨xs, _, hw, he⟩
    · exact ⟨e, by rw [he]; rfl⟩
    · exact absurd he (hn xs hw)

/-- accepted -/
def _root_.Verif.Res.accepted {α : Type} : Res α → Bool
  | .ok _ => true
  | _ => false

/-! ### C92 -/

/-- the same octets with the Length field put right -/
def relength (b : Bytes) : Bytes := b.take 2 ++ be16 (UInt16.ofNat (b.length - 4)) ++ b.drop 4

theorem parse_relength (b : Bytes) (h : Header) (hp : Header.parse b = ok h) (h64 : b.length < 65536)
    (hlt : b.length < h.length.toNat + 4) :
    Header.parse (relength b) = ok { h with length := UInt16.ofNat (b.length - 4) } := by
  by_cases hs : b.length < 12
  · obtain ⟨e, he⟩ := parse_short b hs
    rw [he] at hp; cases hp
  match b, hp, hlt, hs, h64 with
  | f :: t :: l0 :: l1 :: a0 :: a1 :: a2 :: a3 :: s0 :: s1 :: s2 :: sp :: r, hp, hlt, hs, h64 =>
    have hN : (UInt16.ofNat (l0.toNat * 256 + l1.toNat)).toNat = l0.toNat * 256 + l1.toNat :=
      toNat_ofNat16 (by have := l0.toNat_lt; have := l1.toNat_lt; omega)
    simp only [List.length_cons] at hlt h64
    simp only [relength, List.length_cons]
    obtain ⟨m0, m1, hm, hm'⟩ := be16_cases (UInt16.ofNat
      (r.length + 1 + 1 + 1 + 1 + 1 + 1 + 1 + 1 + 1 + 1 + 1 + 1 - 4))
    rw [toNat_ofNat16 (by omega)] at hm'
    have hn' : m0.toNat * 256 + m1.toNat = r.length + 8 := by omega
    have k1 : ¬ m0.toNat * 256 + m1.toNat < 8 := by omega
    have k2 : ¬ m0.toNat * 256 + m1.toNat + 4 > 12 + r.length := by omega
    have k3 : m0.toNat * 256 + m1.toNat + 4 < 65536 := by omega
    rw [hm]
    simp only [List.take_succ_cons, List.take_zero, List.drop_succ_cons, List.drop_zero, List.cons_append, List.nil_append]
    rw [Header.parse_eq] at hp ⊢
    simp only [Header.parseSpec] at hp ⊢
    rw [if_neg (by omega)]
    by_cases c4 : l0.toNat * 256 + l1.toNat < 4
    · rw [if_pos c4] at hp; cases hp
    rw [if_neg c4] at hp
    by_cases cT : f.toNat / 8 % 2 = 1
    · rw [if_pos cT] at hp ⊢
      rw [if_neg k1, if_neg k2, if_pos k3]
      by_cases c8 : l0.toNat * 256 + l1.toNat < 8
      · rw [if_pos c8] at hp; cases hp
      rw [if_neg c8] at hp
      split at hp
      · simp only [ok.injEq] at hp
        subst hp
        rw [List.take_of_length_le (by omega), hm']
      · split at hp
        · simp only [ok.injEq] at hp
          subst hp
          simp only [hN] at hlt
          omega
        · cases hp
    · rw [if_neg cT] at hp ⊢
      rw [if_neg k2, if_pos k3]
      split at hp
      · simp only [ok.injEq] at hp
        subst hp
        rw [List.take_of_length_le (by simp only [List.length_cons]; omega), hm']
      · split at hp
        · simp only [ok.injEq] at hp
          subst hp
          simp only [hN] at hlt
          omega
        · cases hp
  | [], _, _, hs, _ | [_], _, _, hs, _ | [_, _], _, _, hs, _ | [_, _, _], _, _, hs, _ | [_, _, _, _], _, _, hs, _
  | [_, _, _, _, _], _, _, hs, _ | [_, _, _, _, _, _], _, _, hs, _ | [_, _, _, _, _, _, _], _, _, hs, _
  | [_, _, _, _, _, _, _, _], _, _, hs, _ | [_, _, _, _, _, _, _, _, _], _, _, hs, _
  | [_, _, _, _, _, _, _, _, _, _], _, _, hs, _ | [_, _, _, _, _, _, _, _, _, _, _], _, _, hs, _ => simp at hs

/-- **C92** a GTPv2-C message, whose Length is right, of which only the first k octets arrive, is refused, and nothing happens
at the endpoint, unless k is at the end of the header or between two of the message's elements, or one octet behind the header.
Missing: those cuts (`C92_boundary_wrong`, `C92_one_octet_wrong`). -/
theorem C92_v2_partial (b : Bytes) (m : Message) (zs : List IE) (hb : parseMsg g b = ok m)
    (hl : m.hdr.length.toNat + 4 = b.length) (hw : wfs g zs = true) (hz : m.hdr.payload = encs g zs)
    (k : Nat) (hk : k < b.length) (hno : 12 ≤ k → k + (encs g zs).length ≠ b.length + 1)
    (hcut : ∀ xs ys, zs = xs ++ ys → k + (encs g ys).length = b.length → k < 12) :
    ∃ e, parseMsg g (b.take k) = err e ∧
      ∀ (c : Conn.Conn) (a : Send.Addr) (w : Bool), Conn.serveDatagram g c a (b.take k) w = ([], err e) := by
  have key : ∃ e, parseMsg g (b.take k) = err e := by
    by_cases h12 : k < 12
    · exact parseMsg_short g _ (by simp; omega)
    match b, hb, hk with
    | f :: t :: r, hb, hk =>
      rw [parseMsg_two] at hb
      obtain ⟨hp, hs, hf⟩ := unmarshal_ok hb
      have hp : Header.parse (f :: t :: r) = ok m.hdr := hp
      obtain ⟨c1, c2, c3⟩ := parse_cut _ _ hp hl k (by omega) hk
      obtain ⟨j, rfl⟩ : ∃ j, k = j + 1 + 1 := ⟨k - 2, by omega⟩
      simp only [List.take_succ_cons] at c1 ⊢
      have hlen := congrArg List.length hz
      refine (parseMsg_of_header g f t _ _ c1).2.2 ?_ ?_
      · simp only [List.length_take]
        have := hno (by omega)
        by_cases hnil : j + 1 + 1 + (encs g zs).length = (f :: t :: r).length
        · exact absurd (hcut [] zs rfl hnil) (by omega)
        omega
      · intro xs hx he
        dsimp only at he
        rw [hz] at he
        obtain ⟨ys, e1, e2⟩ := encs_prefix g xs zs _ hx hw (by
          rw [← he]; exact (List.take_append_drop _ _).symm)
        have l2 := congrArg List.length e2
        rw [List.length_drop] at l2
        rw [hz] at c2 c3
        exact absurd (hcut xs ys e1 (by rw [← l2]; omega)) (by omega)
    | [], hb, hk => simp at hk
    | [_], hb, hk => simp at hk; omega
  obtain ⟨e, he⟩ := key
  exact ⟨e, he, fun c a w => by unfold Conn.serveDatagram; rw [he]⟩

/-- **C92** fails: cut between two elements (and behind the twelfth octet), the message is taken for one that ends there; apart
from the Length member, it is read as the same octets with the right Length. -/
theorem C92_boundary_wrong (b : Bytes) (m : Message) (xs ys : List IE) (hb : parseMsg g b = ok m)
    (hl : m.hdr.length.toNat + 4 = b.length) (hw : wfs g (xs ++ ys) = true) (hz : m.hdr.payload = encs g (xs ++ ys))
    (hy : ys ≠ []) (h12 : 12 + (encs g ys).length ≤ b.length) :
    ∃ m', parseMsg g (b.take (b.length - (encs g ys).length)) = ok m' ∧
      m'.schema = m.schema ∧ m'.hdr = { m.hdr with payload := encs g xs } ∧
      parseMsg g (relength (b.take (b.length - (encs g ys).length))) =
        ok { m' with hdr := { m'.hdr with length := UInt16.ofNat (b.length - (encs g ys).length - 4) } } := by
  obtain ⟨hwx, hwy⟩ : wfs g xs = true ∧ wfs g ys = true := by rw [wfs_append] at hw; simpa using hw
  obtain ⟨y, ys', rfl⟩ : ∃ y ys', ys = y :: ys' := by
    cases ys with
    | nil => exact absurd rfl hy
    | cons y ys' => exact ⟨y, ys', rfl⟩
  have hy4 := length_enc g y
  have hyl : 4 ≤ (encs g (y :: ys')).length := by simp only [encs, List.length_append]; omega
  generalize hyy : y :: ys' = ys at *
  match b, hb, hl, h12 with
  | f :: t :: r, hb, hl, h12 =>
    rw [parseMsg_two] at hb
    obtain ⟨hp, hs, hf⟩ := unmarshal_ok hb
    have hp : Header.parse (f :: t :: r) = ok m.hdr := hp
    have hk : (f :: t :: r).length - (encs g ys).length < (f :: t :: r).length := by omega
    have h12' : 12 ≤ (f :: t :: r).length - (encs g ys).length := by omega
    obtain ⟨c1, c2, c3⟩ := parse_cut _ _ hp hl _ h12' hk
    have hlen := congrArg List.length hz
    rw [encs_append, List.length_append] at hlen
    have e0 : m.hdr.payload.take ((f :: t :: r).length - (encs g ys).length - ((f :: t :: r).length - m.hdr.payload.length))
        = encs g xs := by
      rw [show (f :: t :: r).length - (encs g ys).length - ((f :: t :: r).length - m.hdr.payload.length)
        = (encs g xs).length by omega, hz, encs_append, List.take_left]
    rw [e0] at c1
    generalize hkk : (f :: t :: r).length - (encs g ys).length = k at *
    obtain ⟨j, rfl⟩ : ∃ j, k = j + 1 + 1 := ⟨k - 2, by omega⟩
    have e1 := c1
    simp only [List.take_succ_cons] at e1 ⊢
    have d1 := (parseMsg_of_header g f t _ _ e1).2.1 xs hwx rfl
    refine ⟨_, d1, hs.symm, rfl, ?_⟩
    have hlt := m.hdr.length.toNat_lt
    have hbl : ((f :: t :: r).take (j + 1 + 1)).length = j + 1 + 1 := by rw [List.length_take]; omega
    have c4 := parse_relength _ _ c1 (by rw [hbl]; omega) (by rw [hbl]; dsimp only; omega)
    rw [hbl] at c4
    have e5 : ∃ q, relength ((f :: t :: r).take (j + 1 + 1)) = f :: t :: q := ⟨_, rfl⟩
    obtain ⟨q, hq⟩ := e5
    rw [List.take_succ_cons, List.take_succ_cons] at hq
    rw [List.take_succ_cons, List.take_succ_cons, hq] at c4
    rw [hq]
    exact (parseMsg_of_header g f t _ _ c4).2.1 xs hwx rfl

/-- **C92** fails: cut one octet behind the header, the message is taken for one without any element. -/
theorem C92_one_octet_wrong (b : Bytes) (m : Message) (hb : parseMsg g b = ok m) (hl : m.hdr.length.toNat + 4 = b.length)
    (k : Nat) (hk : k + m.hdr.payload.length = b.length + 1) (h12 : 12 ≤ k) (h2 : 2 ≤ m.hdr.payload.length) :
    ∃ m', parseMsg g (b.take k) = ok m' ∧ m'.schema = m.schema ∧ m'.hdr.length = m.hdr.length ∧ ∀ i, m'.fields i = [] := by
  match b, hb, hl, hk with
  | f :: t :: r, hb, hl, hk =>
    rw [parseMsg_two] at hb
    obtain ⟨hp, hs, hf⟩ := unmarshal_ok hb
    have hp : Header.parse (f :: t :: r) = ok m.hdr := hp
    obtain ⟨c1, c2, c3⟩ := parse_cut _ _ hp hl k h12 (by omega)
    obtain ⟨j, rfl⟩ : ∃ j, k = j + 1 + 1 := ⟨k - 2, by omega⟩
    simp only [List.take_succ_cons] at c1 ⊢
    refine ⟨_, (parseMsg_of_header g f t _ _ c1).1 ?_, hs.symm, rfl, fun _ => rfl⟩
    simp only [List.length_take]
    omega
  | [], hb, hl, hk => simp at hk; omega
  | [_], hb, hl, hk => simp at hk; omega

/-- a Modify Bearer Request with a Recovery element (3) and an F-TEID element (87) -/
def exCut : Bytes := [0x48, 34, 0, 26, 0, 0, 0, 9, 0, 0, 1, 0, 3, 0, 1, 0, 7, 87, 0, 9, 0, 0x80, 0, 0, 0, 1, 10, 0, 0, 1]

/-- all 30 octets are read; of the 30 ways to cut it short three are accepted: behind the header, one octet later, and behind
the first element -/
example : exCut.length = 30 ∧ (parseMsg defaultGrouped exCut).accepted = true ∧
    (List.range 30).filter (fun k => (parseMsg defaultGrouped (exCut.take k)).accepted) = [12, 13, 17] := by decide +kernel

end Verif.V2

/-! ### GTPv1 -/
namespace Verif.V1
open Res

theorem parse_too_short (b : Bytes) (h : b.length < 8 ∨ ∃ f t l0 l1 r, b = f :: t :: l0 :: l1 :: r ∧
    b.length < l0.toNat * 256 + l1.toNat + 8) : Header.parse b = err .tooShortParse := by
  rw [Header.parse_eq]
  match b, h with
  | [], _ | [_], _ | [_, _], _ | [_, _, _], _ | [_, _, _, _], _ | [_, _, _, _, _], _ | [_, _, _, _, _, _], _
  | [_, _, _, _, _, _, _], _ => rfl
  | f :: t :: l0 :: l1 :: a0 :: a1 :: a2 :: a3 :: r, h =>
    rcases h with h | ⟨_, _, _, _, _, h, h'⟩
    · simp at h; omega
    · simp only [List.cons.injEq] at h
      obtain ⟨rfl, rfl, rfl, rfl, _⟩ := h
      simp only [Header.parseSpec]
      rw [if_pos (by simp only [List.length_cons] at h'; omega)]

theorem take_too_short (b : Bytes) (f t l0 l1 : UInt8) (r : Bytes) (hb : b = f :: t :: l0 :: l1 :: r)
    (hl : b.length ≤ l0.toNat * 256 + l1.toNat + 8) (k : Nat) (hk : k < b.length) :
    Header.parse (b.take k) = err .tooShortParse := by
  apply parse_too_short
  by_cases h8 : k < 8
  · left; simp; omega
  · right
    obtain ⟨j, rfl⟩ : ∃ j, k = j + 1 + 1 + 1 + 1 := ⟨k - 4, by omega⟩
    subst hb
    refine ⟨f, t, l0, l1, r.take j, rfl, ?_⟩
    rw [List.length_take]; omega

theorem parseMsg_too_short (b : Bytes) (h : Header.parse b = err .tooShortParse) : parseMsg b = err .tooShortParse := by
  unfold parseMsg
  split
  · rfl
  · rename_i h2
    match b, h, h2 with
    | x :: y :: r, h, _ =>
      have e : idx (x :: y :: r) 1 = ok y := rfl
      rw [e, bind_ok]
      split
      · rw [h]; rfl
      · have h' : hdrOps.parse (x :: y :: r) = err .tooShortParse := h
        unfold Msg.unmarshal
        rw [h']; rfl
    | [_], _, h2 => exact absurd (by simp) h2
    | [], _, h2 => exact absurd (by simp) h2

/-- **C92** for GTPv1: whatever is cut off a message or T-PDU, what is left is refused by the message parser and by
decapsulation; the endpoint does nothing, in particular no handler is called, nothing is delivered and nothing is sent,
unless it relays the T-PDU (`C92_relay_wrong`); and unless a relay entry exists and not even two octets are left, which
crashes it (C40), it goes on. -/
theorem C92_v1_partial (b : Bytes) (f t l0 l1 : UInt8) (teid : UInt32) (r : Bytes) (hb : b = [f, t, l0, l1] ++ be32 teid ++ r)
    (hl : b.length ≤ l0.toNat * 256 + l1.toNat + 8) (k : Nat) (hk : k < b.length) :
    parseMsg (b.take k) = err .tooShortParse ∧ decapsulate (b.take k) = err .tooShortParse ∧
    decapsulateExts (b.take k) = err .tooShortParse ∧
    ∀ (u : UConn.UConn) (seen : Bool) (a : UConn.Addr) (w : Bool), (seen = false ∨ t ≠ 255 ∨ u.relay.load teid = none) →
      (UConn.process u seen a (b.take k) w).1 = [] ∧
      ((UConn.process u seen a (b.take k) w).2 = .panic ↔ seen = true ∧ k < 2) := by
  obtain ⟨a0, a1, a2, a3, he, hr⟩ := V2.be32_cases teid
  have hp := take_too_short b f t l0 l1 (a0 :: a1 :: a2 :: a3 :: r) (by rw [hb, he]; rfl) hl k hk
  have hm := parseMsg_too_short _ hp
  refine ⟨hm, by unfold decapsulate; rw [hp]; rfl, by unfold decapsulateExts; rw [hp]; rfl, ?_⟩
  intro u seen a w hs
  have hph : UConn.parseAndHandle u a (b.take k) w = ([], err .tooShortParse) := by
    unfold UConn.parseAndHandle; rw [hm]
  cases seen with
  | false =>
    unfold UConn.process
    rw [if_neg (by simp), hph]
    exact ⟨rfl, by simp⟩
  | true =>
    by_cases h2 : k < 2
    · have e : idx (b.take k) 1 = .panic := by
        have : k = 0 ∨ k = 1 := by omega
        subst hb
        rcases this with rfl | rfl <;> rfl
      unfold UConn.process
      rw [if_pos rfl, e]
      exact ⟨rfl, by simp [h2]⟩
    · obtain ⟨j, rfl⟩ : ∃ j, k = j + 1 + 1 := ⟨k - 2, by omega⟩
      have e : idx (b.take (j + 1 + 1)) 1 = ok t := by subst hb; rfl
      unfold UConn.process
      rw [if_pos rfl, e]
      dsimp only
      by_cases ht : t = 255
      · rw [if_pos (by simp [ht])]
        by_cases h11 : (b.take (j + 1 + 1)).length < 11
        · rw [if_pos h11]
          exact ⟨rfl, by simp⟩
        · rw [if_neg h11]
          have hload : u.relay.load teid = none := by
            rcases hs with h | h | h
            · cases h
            · exact absurd ht h
            · exact h
          have hj : 8 ≤ j + 1 + 1 := by simp only [List.length_take] at h11; omega
          have et : b.take (j + 1 + 1) = [f, t, l0, l1] ++ be32 teid ++ r.take (j + 2 - 8) := by
            have h8 : ([f, t, l0, l1] ++ be32 teid).length = 8 := by rw [he]; rfl
            rw [hb, List.take_append, h8, List.take_of_length_le (by omega)]
          have es : slice (b.take (j + 1 + 1)) 4 8 >>= rd32 = ok teid := by
            rw [et]; exact UConn.slice_teid f t l0 l1 teid _
          rw [es]
          simp only [hload]
          rw [hph]
          exact ⟨rfl, by simp⟩
      · rw [if_neg (by simp [ht]), hph]
        exact ⟨rfl, by simp⟩

/-- **C92** fails for relayed T-PDUs: of a T-PDU whose Length counts all of b, the first k octets (at least 11) are forwarded
as they are, with the old Length. -/
theorem C92_relay_wrong (u : UConn.UConn) (a : UConn.Addr) (f l0 l1 : UInt8) (teid : UInt32) (r : Bytes) (p : UConn.Peer)
    (hp : u.relay.load teid = some p) (ho : u.opened p.conn = true) (k : Nat) (h11 : 11 ≤ k)
    (hk : k < ([f, 255, l0, l1] ++ be32 teid ++ r).length) (hmax : k ≤ 1500) :
    UConn.serve u true a (([f, 255, l0, l1] ++ be32 teid ++ r).take k) true =
      ([.sent p.conn p.addr ([f, 255, l0, l1] ++ be32 p.teid ++ r.take (k - 8))], ok ()) := by
  obtain ⟨a0, a1, a2, a3, he, hr⟩ := V2.be32_cases teid
  have h8 : ([f, 255, l0, l1] ++ be32 teid).length = 8 := by rw [he]; rfl
  rw [List.length_append, h8] at hk
  have et : ([f, 255, l0, l1] ++ be32 teid ++ r).take k = [f, 255, l0, l1] ++ be32 teid ++ r.take (k - 8) := by
    rw [List.take_append, h8, List.take_of_length_le (by omega)]
  rw [et]
  exact (UConn.C37_relay_partial u a f l0 l1 teid (r.take (k - 8)) p hp ho (by simp; omega) (by simp; omega)).1

/-- a T-PDU with an IPv4 header in it: no cut is accepted by decapsulation -/
example : (List.range 30).filter (fun k => (decapsulate (([0x30, 255, 0, 20, 0x11, 0x11, 0x11, 0x11, 0x45, 0, 0, 20, 0, 0, 0, 0, 64,
    1, 0, 0, 10, 0, 0, 1, 10, 0, 0, 2] : Bytes).take k)).accepted) = [28, 29] := by decide +kernel

end Verif.V1

/-! ### GTPv0 -/
namespace Verif.TLV
open Res
variable {c : Cfg} {p : Spec.Proto}

/-- a sequence of elements that begins like another one begins with its elements -/
theorem encs_prefix (A : Agree c p) : ∀ (xs zs : List IE) (r : Bytes), (∀ x ∈ xs, Spec.wf p x = true) →
    (∀ x ∈ zs, Spec.wf p x = true) → (∀ x, xs.getLast? = some x → Spec.hasValue x = true) →
    Spec.encs p zs = Spec.encs p xs ++ r → ∃ ys, zs = xs ++ ys ∧ r = Spec.encs p ys
  | [], zs, r, _, _, _, h => ⟨zs, rfl, by simpa [Spec.encs] using h.symm⟩
  | x :: xs, [], r, _, _, _, h => by
    have := congrArg List.length h
    have hl := one_le_enc (p := p) x
    simp only [Spec.encs, List.map_cons, List.flatten_cons, List.length_append, List.map_nil, List.flatten_nil,
      List.length_nil] at this
    omega
  | x :: xs, z :: zs, r, hx, hz, hv, h => by
    have h2 : 2 ≤ (Spec.encs p (x :: xs)).length := by
      simp only [Spec.encs, List.map_cons, List.flatten_cons, List.length_append]
      cases xs with
      | nil => have := two_le_enc (p := p) x (hv x rfl); omega
      | cons y ys =>
        have h1 := one_le_enc (p := p) x
        have h2 := one_le_enc (p := p) y
        simp only [List.map_cons, List.flatten_cons, List.length_append]
        omega
    have p1 : parse c (Spec.encs p (z :: zs)) = ok x := by
      rw [parse_ok_iff A]
      refine ⟨hx x List.mem_cons_self, by rw [h, List.length_append]; omega, Spec.encs p xs ++ r, ?_⟩
      rw [h]
      simp [Spec.encs]
    have p2 : parse c (Spec.encs p (z :: zs)) = ok z := by
      rw [parse_ok_iff A]
      exact ⟨hz z List.mem_cons_self, by rw [h, List.length_append]; omega, Spec.encs p zs, by simp [Spec.encs]⟩
    rw [p1] at p2
    simp only [ok.injEq] at p2
    subst p2
    have h' : Spec.encs p zs = Spec.encs p xs ++ r := by
      have : Spec.enc p x ++ Spec.encs p zs = Spec.enc p x ++ (Spec.encs p xs ++ r) := by
        simpa [Spec.encs] using h
      exact List.append_cancel_left this
    obtain ⟨ys, e1, e2⟩ := encs_prefix A xs zs r (fun y hy => hx y (List.mem_cons_of_mem _ hy))
      (fun y hy => hz y (List.mem_cons_of_mem _ hy)) (by
        intro y hy
        apply hv
        cases xs with
        | nil => simp at hy
        | cons a l => simpa using hy) h'
    exact ⟨ys, by rw [e1, List.cons_append], e2⟩

end Verif.TLV

namespace Verif.V0
open Res Msg

/-- a header with less behind it than Length says -/
theorem parse_cut (b : Bytes) (h : Header) (hp : Header.parse b = ok h) (hl : h.length.toNat + 20 = b.length)
    (k : Nat) (h20 : 20 ≤ k) (hk : k < b.length) :
    Header.parse (b.take k) = ok { h with payload := h.payload.take (k - 20) } ∧ h.payload.length + 20 = b.length := by
  obtain ⟨x0, x1, x2, x3, x4, x5, x6, x7, x8, x9, x10, x11, x12, x13, x14, x15, x16, x17, x18, x19, r, rfl⟩ := cases20 b (by omega)
  obtain ⟨j, rfl⟩ : ∃ j, k = j + 20 := ⟨k - 20, by omega⟩
  have hN : (UInt16.ofNat (x2.toNat * 256 + x3.toNat)).toNat = x2.toNat * 256 + x3.toNat :=
    toNat_ofNat16 (by have := x2.toNat_lt; have := x3.toNat_lt; omega)
  rw [Header.parse_cons] at hp
  split at hp
  · cases hp
  simp only [List.length_cons] at hl hk
  simp only [List.take_succ_cons]
  rw [Header.parse_cons]
  obtain ⟨tid, ht⟩ : ∃ t, rd64 [x12, x13, x14, x15, x16, x17, x18, x19] = ok t := ⟨_, rfl⟩
  rw [ht, bind_ok] at hp ⊢
  simp only [ok.injEq] at hp
  subst hp
  simp only [hN] at hl
  rw [if_neg (by rw [List.length_take]; omega)]
  refine ⟨?_, by simp only [List.length_cons]⟩
  rw [show j + 20 - 20 = j by omega]

theorem schemaOf_early (t : UInt8) : (schemaOf t).early = true :=
  forall_byte (p := fun t => (schemaOf t).early = true) (by decide +kernel) t

theorem parseMsg_other (f t : UInt8) (r : Bytes) (ht : t ≠ 255) :
    parseMsg (f :: t :: r) = (unmarshal hdrOps ieOps (schemaOf t) (f :: t :: r) >>= fun m => ok (.msg m)) := by
  unfold parseMsg
  rw [if_neg (by simp)]
  have e : idx (f :: t :: r) 1 = ok t := rfl
  rw [e, bind_ok, if_neg (by simpa using ht)]

theorem parseMsg_t (f : UInt8) (r : Bytes) :
    parseMsg (f :: 255 :: r) = (Header.parse (f :: 255 :: r) >>= fun h => ok (.tpdu h)) := by
  unfold parseMsg
  rw [if_neg (by simp)]
  rfl

theorem parseMsg_short (b : Bytes) (h : b.length < 20) : parseMsg b = err .tooShortParse := by
  match b, h with
  | [], _ | [_], _ => rfl
  | f :: t :: r, h =>
    have hp := Header.parse_short _ h
    by_cases ht : t = 255
    · subst ht; rw [parseMsg_t, hp]; rfl
    · have hp' : hdrOps.parse (f :: t :: r) = err .tooShortParse := hp
      rw [parseMsg_other f t r ht]
      unfold unmarshal
      rw [hp']; rfl

/-- the message read from octets with this header -/
theorem parseMsg_of_header (f t : UInt8) (r : Bytes) (ht : t ≠ 255) (h : Header) (hp : Header.parse (f :: t :: r) = ok h) :
    (h.payload.length < 2 → parseMsg (f :: t :: r) = ok (.msg ⟨schemaOf t, h, Fields.empty⟩)) ∧
    (∀ xs, (∀ x ∈ xs, TLV.Spec.wf TLV.Spec.v0 x = true) → (∀ x, xs.getLast? = some x → TLV.Spec.hasValue x = true) →
      h.payload = TLV.Spec.encs TLV.Spec.v0 xs →
      parseMsg (f :: t :: r) = ok (.msg ⟨schemaOf t, h, classify ieOps (schemaOf t).unRules (schemaOf t).unDefault xs⟩)) ∧
    (2 ≤ h.payload.length → (∀ xs, (∀ x ∈ xs, TLV.Spec.wf TLV.Spec.v0 x = true) →
      (∀ x, xs.getLast? = some x → TLV.Spec.hasValue x = true) → h.payload ≠ TLV.Spec.encs TLV.Spec.v0 xs) →
      ∃ e, parseMsg (f :: t :: r) = err e) := by
  rw [parseMsg_other f t r ht]
  have hp' : hdrOps.parse (f :: t :: r) = ok h := hp
  have hpay : hdrOps.payload h = h.payload := rfl
  have hmul : ieOps.parseMulti = TLV.parseMulti TLV.v0 := rfl
  refine ⟨?_, ?_, ?_⟩
  · intro h2
    unfold unmarshal
    rw [hp', bind_ok, if_pos (by rw [schemaOf_early, hpay]; simpa using h2)]
    rfl
  · intro xs hw hv he
    unfold unmarshal
    rw [hp', bind_ok, hpay, hmul]
    split
    · rename_i hc
      cases xs with
      | nil => rfl
      | cons x xs =>
        have h2 : 2 ≤ (TLV.Spec.encs TLV.Spec.v0 (x :: xs)).length := by
          simp only [TLV.Spec.encs, List.map_cons, List.flatten_cons, List.length_append]
          cases xs with
          | nil => have := TLV.two_le_enc (p := TLV.Spec.v0) x (hv x rfl); omega
          | cons y ys =>
            have h1 := TLV.one_le_enc (p := TLV.Spec.v0) x
            have h2 := TLV.one_le_enc (p := TLV.Spec.v0) y
            simp only [List.map_cons, List.flatten_cons, List.length_append]
            omega
        simp only [Bool.and_eq_true, decide_eq_true_eq, he] at hc
        omega
    · rw [(TLV.parseMulti_ok_iff TLV.agree_v0 _ xs).2 ⟨hw, he, hv⟩]; rfl
  · intro h2 hn
    unfold unmarshal
    rw [hp', bind_ok, hpay, hmul, if_neg (by simp; omega)]
    have hr := TLV.parseMulti_total TLV.agree_v0 h.payload
    cases hq : TLV.parseMulti TLV.v0 h.payload with
    | ok xs =>
      obtain ⟨q1, q2, q3⟩ := (TLV.parseMulti_ok_iff TLV.agree_v0 _ xs).1 hq
      exact absurd q2 (hn xs q1 q3)
    | err e => exact ⟨e, rfl⟩
    | panic => rw [hq] at hr; simp at hr
    | diverge => rw [hq] at hr; simp at hr

/-- **C92** for GTPv0 messages: refused unless the cut is at the end of the header, between two elements, or one octet behind the
header.  Missing: those cuts (`C92_v0_boundary_wrong`), and T-PDUs (`C92_v0_tpdu_wrong`). -/
theorem C92_v0_partial (b : Bytes) (m : Message) (zs : List TLV.IE) (hb : parseMsg b = ok (.msg m))
    (hl : m.hdr.length.toNat + 20 = b.length) (hw : ∀ x ∈ zs, TLV.Spec.wf TLV.Spec.v0 x = true)
    (hz : m.hdr.payload = TLV.Spec.encs TLV.Spec.v0 zs) (k : Nat) (hk : k < b.length) (hno : k ≠ 21)
    (hcut : ∀ xs ys, zs = xs ++ ys → k + (TLV.Spec.encs TLV.Spec.v0 ys).length ≠ b.length) :
    ∃ e, parseMsg (b.take k) = err e := by
  by_cases h20 : k < 20
  · exact ⟨_, parseMsg_short _ (by simp; omega)⟩
  match b, hb, hk with
  | f :: t :: r, hb, hk =>
    by_cases ht : t = 255
    · subst ht
      rw [parseMsg_t] at hb
      cases hh : Header.parse (f :: 255 :: r) <;> rw [hh] at hb <;> cases hb
    · rw [parseMsg_other f t r ht, bind_eq_ok] at hb
      obtain ⟨m', hm, hmm⟩ := hb
      simp only [ok.injEq, AnyMsg.msg.injEq] at hmm
      subst hmm
      obtain ⟨hp, hs, hf⟩ := unmarshal_ok hm
      have hp : Header.parse (f :: t :: r) = ok m'.hdr := hp
      obtain ⟨c1, c2⟩ := parse_cut _ _ hp hl k (by omega) hk
      obtain ⟨j, rfl⟩ : ∃ j, k = j + 1 + 1 := ⟨k - 2, by omega⟩
      simp only [List.take_succ_cons] at c1 ⊢
      have hlen := congrArg List.length hz
      refine (parseMsg_of_header f t _ ht _ c1).2.2 ?_ ?_
      · simp only [List.length_take]
        have := hcut [] zs rfl
        omega
      · intro xs hx hv he
        dsimp only at he
        rw [hz] at he
        obtain ⟨ys, e1, e2⟩ := TLV.encs_prefix TLV.agree_v0 xs zs _ hx hw hv (by
          rw [← he]; exact (List.take_append_drop _ _).symm)
        have l2 := congrArg List.length e2
        rw [List.length_drop] at l2
        exact absurd (show j + 1 + 1 + (TLV.Spec.encs TLV.Spec.v0 ys).length = (f :: t :: r).length by rw [← l2]; omega)
          (hcut xs ys e1)
  | [], hb, hk => simp at hk
  | [_], hb, hk => simp at hk; omega

/-- **C92** fails for GTPv0: cut between two elements, the message is taken for one that ends there. -/
theorem C92_v0_boundary_wrong (b : Bytes) (m : Message) (xs ys : List TLV.IE) (hb : parseMsg b = ok (.msg m))
    (hl : m.hdr.length.toNat + 20 = b.length) (hw : ∀ x ∈ xs ++ ys, TLV.Spec.wf TLV.Spec.v0 x = true)
    (hv : ∀ x ∈ xs, TLV.Spec.hasValue x = true) (hz : m.hdr.payload = TLV.Spec.encs TLV.Spec.v0 (xs ++ ys)) (hy : ys ≠ []) :
    ∃ m', parseMsg (b.take (b.length - (TLV.Spec.encs TLV.Spec.v0 ys).length)) = ok (.msg m') ∧ m'.schema = m.schema ∧
      m'.hdr = { m.hdr with payload := TLV.Spec.encs TLV.Spec.v0 xs } ∧
      m'.fields = classify ieOps m.schema.unRules m.schema.unDefault xs := by
  have hy1 : 1 ≤ (TLV.Spec.encs TLV.Spec.v0 ys).length := by
    cases ys with
    | nil => exact absurd rfl hy
    | cons y ys =>
      have := TLV.one_le_enc (p := TLV.Spec.v0) y
      simp only [TLV.Spec.encs, List.map_cons, List.flatten_cons, List.length_append]
      omega
  have happ : TLV.Spec.encs TLV.Spec.v0 (xs ++ ys) = TLV.Spec.encs TLV.Spec.v0 xs ++ TLV.Spec.encs TLV.Spec.v0 ys := by
    simp [TLV.Spec.encs]
  have h20 : ¬ b.length < 20 := fun h => by rw [parseMsg_short b h] at hb; cases hb
  match b, hb, hl, h20 with
  | f :: t :: r, hb, hl, h20 =>
    by_cases ht : t = 255
    · subst ht
      rw [parseMsg_t] at hb
      cases hh : Header.parse (f :: 255 :: r) <;> rw [hh] at hb <;> cases hb
    · rw [parseMsg_other f t r ht, bind_eq_ok] at hb
      obtain ⟨m', hm, hmm⟩ := hb
      simp only [ok.injEq, AnyMsg.msg.injEq] at hmm
      subst hmm
      obtain ⟨hp, hs, hf⟩ := unmarshal_ok hm
      have hp : Header.parse (f :: t :: r) = ok m'.hdr := hp
      have hlen := congrArg List.length hz
      rw [happ, List.length_append] at hlen
      have hpl : m'.hdr.payload.length + 20 = (f :: t :: r).length := by
        have := (C26_faithful _ _ hp).2.1
        rw [this, List.length_drop]; omega
      have hk : (f :: t :: r).length - (TLV.Spec.encs TLV.Spec.v0 ys).length < (f :: t :: r).length := by omega
      obtain ⟨c1, c2⟩ := parse_cut _ _ hp hl _ (by omega) hk
      have e0 : m'.hdr.payload.take ((f :: t :: r).length - (TLV.Spec.encs TLV.Spec.v0 ys).length - 20)
          = TLV.Spec.encs TLV.Spec.v0 xs := by
        rw [show (f :: t :: r).length - (TLV.Spec.encs TLV.Spec.v0 ys).length - 20
          = (TLV.Spec.encs TLV.Spec.v0 xs).length by omega, hz, happ, List.take_left]
      rw [e0] at c1
      have h2k : 2 ≤ (f :: t :: r).length - (TLV.Spec.encs TLV.Spec.v0 ys).length := by omega
      generalize hkk : (f :: t :: r).length - (TLV.Spec.encs TLV.Spec.v0 ys).length = k at *
      obtain ⟨j, rfl⟩ : ∃ j, k = j + 1 + 1 := ⟨k - 2, by omega⟩
      simp only [List.take_succ_cons] at c1 ⊢
      refine ⟨_, (parseMsg_of_header f t _ ht _ c1).2.1 xs (fun x hx => hw x (List.mem_append_left _ hx))
        (fun x hx => hv x (List.mem_of_getLast? hx)) rfl, hs.symm, rfl, ?_⟩
      rw [hs]
  | [], hb, hl, h20 => simp at h20
  | [_], hb, hl, h20 => simp at h20

/-- **C92** fails for GTPv0 T-PDUs: every cut behind the header is accepted, and the user gets the part that is left. -/
theorem C92_v0_tpdu_wrong (seq label : UInt16) (tid : UInt64) (payload : Bytes) (hp : payload.length ≤ 65515)
    (k : Nat) (hk : k ≤ payload.length) :
    ∃ h b h', tpduMarshal (newTPDU seq label tid payload) = ok (h, b) ∧ b.length = 20 + payload.length ∧
      parseMsg (b.take (20 + k)) = ok (.tpdu h') ∧ h'.payload = payload.take k ∧ h'.tid = tid ∧ h'.seq = seq := by
  obtain ⟨b, h, e1, e2, e3, f1, f2, f3, f4, f5, f6, f7⟩ := C26_new 0x1e 255 seq label tid payload hp
  refine ⟨newTPDU seq label tid payload, b, { h with payload := payload.take k }, ?_, e2, ?_, rfl, f5, f3⟩
  · have e : tpduMarshal (newTPDU seq label tid payload)
        = ((Header.new 0x1e 255 seq label tid payload).marshal >>= fun b => ok (newTPDU seq label tid payload, b)) := rfl
    rw [e, e1, bind_ok]
  · have hty := (C26_faithful b h e3).2.2.2.1
    rw [f2] at hty
    have hcut : Header.parse (b.take (20 + k)) = ok { h with payload := payload.take k } := by
      by_cases hk' : k = payload.length
      · rw [List.take_of_length_le (by omega), e3, hk', List.take_length, ← f6]
      · have := (parse_cut b h e3 (by omega) (20 + k) (by omega) (by omega)).1
        rw [this, f6, show 20 + k - 20 = k by omega]
    match b, e2, hty, hcut with
    | f :: t :: r, e2, hty, hcut =>
      simp only [List.getElem?_cons_succ, List.getElem?_cons_zero, Option.some.injEq] at hty
      subst hty
      rw [show 20 + k = (18 + k) + 1 + 1 by omega] at hcut ⊢
      simp only [List.take_succ_cons] at hcut ⊢
      rw [parseMsg_t, hcut]
      rfl
    | [], e2, _, _ => simp at e2; omega
    | [_], e2, _, _ => simp at e2; omega

/-- an Echo Response with Recovery (14) and a private extension (255); of the 27 cuts three are accepted -/
def exCut : Bytes := [0x1e, 2, 0, 7, 0, 1, 0, 0, 0xff, 0xff, 0xff, 0xff, 0, 0, 0, 0, 0, 0, 0, 0, 14, 5, 255, 0, 2, 0, 1]

example : exCut.length = 27 ∧ (parseMsg exCut).accepted = true ∧
    (List.range 27).filter (fun k => (parseMsg (exCut.take k)).accepted) = [20, 21, 22] := by decide +kernel

end Verif.V0

namespace Verif.V2
open Res Spec Msg
/-! ### cases that meet the hypotheses -/

def exParts : List IE := [.mk 3 1 0 [7] [], .mk 87 9 0 [0x80, 0, 0, 0, 1, 10, 0, 0, 1] []]
example := C92_v2_partial (g := defaultGrouped) exCut _ exParts rfl (by decide) (by decide) (by decide) 25 (by decide) (by decide) (by
  intro xs ys he hk
  match xs, he with
  | [], he => simp at he; subst he; revert hk; decide
  | [_], he => simp [exParts] at he; obtain ⟨_, rfl⟩ := he; revert hk; decide
  | [_, _], he => simp [exParts] at he; obtain ⟨_, _, rfl⟩ := he; revert hk; decide
  | _ :: _ :: _ :: _, he => simp [exParts] at he)
example := C92_boundary_wrong (g := defaultGrouped) exCut _ [.mk 3 1 0 [7] []] [.mk 87 9 0 [0x80, 0, 0, 0, 1, 10, 0, 0, 1] []]
  rfl (by decide) (by decide) (by decide) (by decide) (by decide)
example := C92_one_octet_wrong (g := defaultGrouped) exCut _ rfl (by decide) 13 (by decide) (by decide) (by decide)
end Verif.V2

namespace Verif.V1
open Res

example := C92_v1_partial _ 0x30 255 0 5 7 [1, 2, 3, 4, 5] rfl (by decide) 10 (by decide)
example := C92_relay_wrong { UConn.newUConn 0 (some [10, 0, 0, 1]) (fun _ => true) with relay := [(7, ⟨9, "b", 1⟩)] } "a"
  0x30 0 5 7 [1, 2, 3, 4, 5] ⟨9, "b", 1⟩ rfl rfl 12 (by decide) (by decide) (by decide)
end Verif.V1

namespace Verif.V0
open Res Msg

def exParts : List TLV.IE := [⟨14, 0, [5]⟩, ⟨255, 2, [0, 1]⟩]
example := C92_v0_partial exCut _ exParts rfl (by decide) (by decide) (by decide) 24 (by decide) (by decide) (by
  intro xs ys he hk
  match xs, he with
  | [], he => simp at he; subst he; revert hk; decide
  | [_], he => simp [exParts] at he; obtain ⟨_, rfl⟩ := he; revert hk; decide
  | [_, _], he => simp [exParts] at he; obtain ⟨_, _, rfl⟩ := he; revert hk; decide
  | _ :: _ :: _ :: _, he => simp [exParts] at he)
example := C92_v0_boundary_wrong exCut _ [⟨14, 0, [5]⟩] [⟨255, 2, [0, 1]⟩] rfl (by decide) (by decide) (by decide) (by decide) (by decide)
example := C92_v0_tpdu_wrong 1 2 3 [1, 2, 3] (by decide) 2 (by decide)
end Verif.V0
