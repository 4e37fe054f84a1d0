import Verif.Model.Gtp
import Verif.Props.V0Msg
import Verif.Props.V1Msg
import Verif.Props.V2Msg2
/-
Property theorems on the version independent parser: C28.
-/
namespace Verif.Gtp
open Res

/-- the result of the version independent parser agrees with the result of a version specific one: same message, same
error, or both crash -/
def SameAs {α : Type} (wrap : α → GMsg) (r : Res GMsg) (p : Res α) : Prop :=
  (∀ m, p = ok m → r = ok (wrap m)) ∧ (∀ e, p = err e → r = err e) ∧ (p = .panic → r = .panic) ∧ (p = diverge → r = diverge)

theorem sameAs_bind {α : Type} (wrap : α → GMsg) (p : Res α) : SameAs wrap (p >>= fun m => ok (wrap m)) p := by
  cases p <;> simp [SameAs]

/-- **C28** the three high bits of the first octet select the parser. -/
theorem C28_dispatch (g : UInt8 → Bool) (f : UInt8) (r : Bytes) (hr : 7 ≤ r.length) :
    (f.toNat < 32 → SameAs .v0 (parse g (f :: r)) (V0.parseMsg (f :: r))) ∧
    (32 ≤ f.toNat → f.toNat < 64 → SameAs .v1 (parse g (f :: r)) (V1.parseMsg (f :: r))) ∧
    (64 ≤ f.toNat → f.toNat < 96 → SameAs .v2 (parse g (f :: r)) (V2.parseMsg g (f :: r))) ∧
    (96 ≤ f.toNat → parse g (f :: r) = err .invalidVersion) := by
  have hd : (f >>> 5).toNat = f.toNat / 32 := by
    revert f
    apply forall_byte (p := fun f => (f >>> 5).toNat = f.toNat / 32)
    decide +kernel
  have hf := f.toNat_lt
  unfold parse
  rw [if_neg (by simp only [List.length_cons]; omega)]
  simp only [idx, List.getElem?_cons_zero, bind_ok]
  rw [hd]
  refine ⟨?_, ?_, ?_, ?_⟩
  · intro h
    rw [show f.toNat / 32 = 0 by omega]
    exact sameAs_bind _ _
  · intro h1 h2
    rw [show f.toNat / 32 = 1 by omega]
    exact sameAs_bind _ _
  · intro h1 h2
    rw [show f.toNat / 32 = 2 by omega]
    exact sameAs_bind _ _
  · intro h
    obtain ⟨n, hn⟩ : ∃ n, f.toNat / 32 = n + 3 := ⟨f.toNat / 32 - 3, by omega⟩
    rw [hn]
    rfl

/-- **C28** fewer than 8 octets are an error. -/
theorem C28_short (g : UInt8 → Bool) (b : Bytes) (hb : b.length < 8) : parse g b = err .tooShortParse := by
  unfold parse; rw [if_pos hb]

/-- **C28** below 64 KiB the parser returns. -/
theorem C28_total (g : UInt8 → Bool) (b : Bytes) (hb : b.length < 65536) : Returns (parse g b) := by
  unfold parse
  split
  · simp
  match b with
  | [] => contradiction
  | f :: r =>
    simp only [idx, List.getElem?_cons_zero, bind_ok]
    split
    · exact returns_bind (V0.C27_total_partial _ hb).2 (fun _ _ => by simp)
    · exact returns_bind (V1.C22_message_partial _ hb) (fun _ _ => by simp)
    · exact returns_bind (V2.C11_parse_total g _) (fun _ _ => by simp)
    · simp

/-- **C28** messages built by the three packages are recognised as such: GTPv0 -/
theorem C28_own_v0 (g : UInt8 → Bool) (s : Msg.Schema) (hs : s ∈ V0.Tab.all) (seq label : UInt16) (tid : UInt64)
    (ies : List (Option TLV.IE)) (hw : ∀ x, some x ∈ ies → V0.okIE x)
    (hmax : 20 + ((ies.filterMap id).map (TLV.IE.marshalLen TLV.v0)).sum < 65536) :
    ∃ m' b, V0.marshalMsg (V0.newMessage s seq label tid ies) = ok (m', b) ∧ parse g b = ok (.v0 (.msg m')) := by
  refine ⟨_, _, V0.marshalMsg_new s (Or.inl hs) seq label tid ies hw, ?_⟩
  have hr := V0.round_trip s (Or.inl hs) (V0.schemaOf_all s hs) (V0.all_typ s hs) seq label tid ies hw hmax
  obtain ⟨h, hh⟩ : ∃ h, h = (V0.done (V0.newMessage s seq label tid ies)).hdr := ⟨_, rfl⟩
  have hf : h.flags = 0x1e := by rw [hh]; exact V0.all_flags s hs
  rw [← hh] at hr ⊢
  obtain ⟨r, he⟩ : ∃ r, V0.Spec.encH h = h.flags :: r := ⟨_, rfl⟩
  have hl := V0.length_encH h
  rw [he] at hr hl ⊢
  simp only [List.length_cons, V0.Header.marshalLen] at hl
  exact ((C28_dispatch g h.flags r (by omega)).1 (by rw [hf]; decide)).1 _ hr

/-- **C28** GTPv1 -/
theorem C28_own_v1 (g : UInt8 → Bool) (s : Msg.Schema) (hs : s ∈ V1.Tab.all) (teid : UInt32) (seq : UInt16)
    (ies : List (Option TLV.IE)) (hw : ∀ x, some x ∈ ies → V1.okIE x) (hseq : s.flags = 0x30 → seq = 0)
    (hmax : 12 + ((ies.filterMap id).map (TLV.IE.marshalLen TLV.v1)).sum < 65536) :
    ∃ m' b, V1.marshalMsg (V1.newMessage s teid seq ies) = ok (m', b) ∧ parse g b = ok (.v1 (.msg m')) := by
  obtain ⟨hm, hr⟩ := V1.round_trip s (Or.inl hs) (V1.schemaOf_all s hs) (V1.all_typ s hs) teid seq ies hw hseq hmax
  refine ⟨_, _, hm, ?_⟩
  obtain ⟨h, hh⟩ : ∃ h, h = (V1.done (V1.newMessage s teid seq ies)).hdr := ⟨_, rfl⟩
  have hf : h.flags = 0x32 ∨ h.flags = 0x30 := by rw [hh]; exact V1.all_flags s hs
  rw [← hh] at hr ⊢
  obtain ⟨r, he⟩ : ∃ r, V1.Spec.encH h = h.flags :: r := ⟨_, rfl⟩
  have hl := V1.length_encH h
  rw [he] at hr hl ⊢
  simp only [List.length_cons, V1.Header.marshalLen] at hl
  exact ((C28_dispatch g h.flags r (by omega)).2.1 (by rcases hf with h | h <;> rw [h] <;> decide)
    (by rcases hf with h | h <;> rw [h] <;> decide)).1 _ hr

/-- **C28** GTPv2 -/
theorem C28_own_v2 (g : UInt8 → Bool) (b : Bytes) (m : V2.Message) (hp : V2.parseMsg g b = ok m)
    (hf : m.hdr.flags.toNat / 32 = 2) : parse g b = ok (.v2 m) := by
  obtain ⟨_, ⟨tail, hb⟩, _⟩ := V2.C12_dispatch_faithful g b m hp
  obtain ⟨r, he⟩ : ∃ r, V2.Spec.encH m.hdr = m.hdr.flags :: r := ⟨_, rfl⟩
  have hl := V2.length_encH m.hdr
  rw [he] at hl
  simp only [List.length_cons, V2.Header.marshalLen] at hl
  rw [hb, he, List.cons_append] at hp ⊢
  exact ((C28_dispatch g m.hdr.flags (r ++ tail) (by rw [List.length_append]; split at hl <;> omega)).2.2.1
    (by omega) (by omega)).1 _ hp

/-- an Echo Request of each version, and one that claims version 3 -/
example : (∃ m, parse V2.defaultGrouped [0x1e, 1, 0, 0, 0, 1, 0, 2, 0xff, 0xff, 0xff, 0xff, 0, 0, 0, 0, 0, 0, 0, 3] = ok (.v0 m)) ∧
    (∃ m, parse V2.defaultGrouped [0x32, 1, 0, 4, 0, 0, 0, 0, 0, 1, 0, 0] = ok (.v1 m)) ∧
    (∃ m, parse V2.defaultGrouped [0x40, 1, 0, 9, 0, 0, 1, 0, 3, 0, 1, 0, 5] = ok (.v2 m)) ∧
    parse V2.defaultGrouped [0x60, 1, 0, 4, 0, 0, 0, 0, 0, 1, 0, 0] = err .invalidVersion :=
  ⟨⟨_, rfl⟩, ⟨_, rfl⟩, ⟨_, rfl⟩, rfl⟩

end Verif.Gtp

namespace Verif.Gtp
open Res
/-! ### cases that meet the hypotheses -/

example := C28_dispatch V2.defaultGrouped 0x32 [1, 0, 4, 0, 0, 0, 0, 0, 1, 0, 0] (by decide)
example := C28_short V2.defaultGrouped [0x40, 1, 0, 4, 0, 0, 1] (by decide)
example := C28_total V2.defaultGrouped [0x40, 1, 0, 9, 0, 0, 1, 0, 3, 0, 1, 0, 5] (by decide)
example := C28_own_v0 V2.defaultGrouped V0.Tab.echoResponse (by simp [V0.Tab.all]) 1 2 0x2143658709214305
  [none, some ⟨14, 0, [7]⟩] (by intro x hx; simp at hx; subst hx; decide) (by decide)
example := C28_own_v1 V2.defaultGrouped V1.Tab.echoResponse (by simp [V1.Tab.all]) 0 0xabcd
  [none, some ⟨14, 0, [7]⟩] (by intro x hx; simp at hx; subst hx; decide) (by decide) (by decide)
example := C28_own_v2 V2.defaultGrouped [0x40, 1, 0, 9, 0, 0, 1, 0, 3, 0, 1, 0, 5] _ rfl (by decide)

end Verif.Gtp
