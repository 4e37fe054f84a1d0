import Verif.Props.Typed.Plain
import Verif.Model.Typed.Addr
import Verif.Model.Typed.Convenience
import Verif.Model.Typed.Delay
import Verif.Model.Typed.Identity
import Verif.Model.Typed.Indication
import Verif.Model.Typed.PCO
import Verif.Model.Typed.Plmn
import Verif.Model.Typed.QoS
import Verif.Model.Typed.TFT
import Verif.Model.Typed.Time
import Verif.Model.Typed.ULI
import Verif.Model.AddrText
/-
C101: whatever its arguments, a constructor of a GTPv2 element makes an element of the type it is named after, with instance 0.
-/
namespace Verif.V2
open Res NetIP

/-- the element goes out as type `t`, two octets of length, instance 0, and a value -/
def Own (t : UInt8) (i : IE) : Prop := ∀ g, ∃ n0 n1 r, i.marshal g = ok (t :: n0 :: n1 :: 0 :: r)
/-- so does an element a constructor returns that may return nil, or panic -/
def Owns (t : UInt8) (x : Res (Option IE)) : Prop := ∀ i, x = ok (some i) → Own t i
def OwnR (t : UInt8) (x : Res IE) : Prop := ∀ i, x = ok i → Own t i

theorem own_mk {i : IE} {t : UInt8} (h1 : i.typ = t) (h2 : i.rawInst = 0) : Own t i := by
  intro g
  obtain ⟨t', n, i', p, cs⟩ := i
  cases h1; cases h2
  rw [marshal_eq]
  exact ⟨_, _, _, rfl⟩
theorem own_new (t : UInt8) (p : Bytes) : Own t (newIE t 0 p) := own_mk rfl rfl
theorem owns_build (t : UInt8) (r : Res Bytes) : Owns t (build t r) := by
  intro i h
  unfold build at h
  split at h <;> cases h
  exact own_new _ _
theorem owns_grouped (g : UInt8 → Bool) (t : UInt8) (l : List (Option IE)) : Owns t (newGrouped g t l) := by
  intro i h
  rw [newGrouped_eq] at h
  cases h
  exact own_mk rfl rfl
theorem owns_bind {α : Type} {t : UInt8} (r : Res α) (f : α → Res (Option IE)) (h : ∀ x, Owns t (f x)) : Owns t (r >>= f) := by
  intro i hi
  cases r with
  | ok x => exact h x i hi
  | err _ => cases hi
  | panic => cases hi
  | diverge => cases hi
theorem ownR_bind {α : Type} {t : UInt8} (r : Res α) (f : α → Res IE) (h : ∀ x, OwnR t (f x)) : OwnR t (r >>= f) := by
  intro i hi
  cases r with
  | ok x => exact h x i hi
  | err _ => cases hi
  | panic => cases hi
  | diverge => cases hi
theorem ownR_ok (t : UInt8) (p : Bytes) : OwnR t (ok (newIE t 0 p)) := by
  intro i h; cases h; exact own_new _ _

/-- **C101** the constructors of elements with one plain value; `std8` and so on are the type numbers of the standard (Props/Typed/Plain.lean) -/
theorem C101_plain :
    (∀ r ∈ plain8, ∃ t, (r.name, t) ∈ std8 ∧ ∀ v, Own t (r.new8 v)) ∧ (∀ r ∈ plain16, ∃ t, (r.name, t) ∈ std16 ∧ ∀ v, Own t (r.new16 v)) ∧
    (∀ r ∈ plain32, ∃ t, (r.name, t) ∈ std32 ∧ ∀ v, Own t (r.new32 v)) ∧ (∀ r ∈ plainStr, ∃ t, (r.name, t) ∈ stdStr ∧ ∀ v, Own t (r.newStr v)) ∧
    (∀ r ∈ plainName, ∃ t, (r.name, t) ∈ stdName ∧ ∀ v, OwnR t (r.newName v)) ∧
    (∀ v, Own 73 (newEBI v)) ∧ (∀ v, Own 94 (newChargingID v)) ∧ (∀ v, Own 112 (newPTMSISignature v)) ∧ (∀ v, Own 147 (newCSGID v)) ∧
    (∀ v, Own 148 (newCMI v)) ∧ (∀ n v, OwnR 255 (newPrivateExtension n v)) ∧ (∀ v, Own 156 (newEPCTimerRaw v)) ∧ (∀ v, Own 92 (newDelayValueRaw v)) := by
  refine ⟨fun r h => ⟨_, mem_std std_eq.1 h, fun _ => own_new _ _⟩, fun r h => ⟨_, mem_std std_eq.2.1 h, fun _ => own_new _ _⟩,
    fun r h => ⟨_, mem_std std_eq.2.2.1 h, fun _ => own_new _ _⟩, fun r h => ⟨_, mem_std std_eq.2.2.2.1 h, fun _ => own_new _ _⟩,
    fun r h => ⟨_, mem_std std_eq.2.2.2.2 h, fun v => ownR_bind _ _ fun b => ownR_ok _ _⟩,
    fun _ => own_new _ _, fun _ => own_new _ _, fun _ => own_new _ _, fun _ => own_new _ _, fun _ => own_new _ _, ?_,
    fun _ => own_new _ _, fun _ => own_new _ _⟩
  exact fun n v => ownR_bind _ _ fun b => ownR_bind _ _ fun b => ownR_ok _ _

/-- **C101** subscribers, networks and places -/
theorem C101_identity :
    (∀ s, Owns 1 (newIMSI s)) ∧ (∀ s, Owns 76 (newMSISDN s)) ∧ (∀ s, Owns 75 (newMEI s)) ∧ (∀ c n, Owns 83 (newPLMN 83 c n)) ∧
    (∀ c n, Owns 120 (newPLMN 120 c n)) ∧ (∀ c n x, Owns 89 (newGlobalCNID c n x)) ∧ (∀ c n x, Owns 115 (newTrace c n x)) ∧
    (∀ c n x m l i, Owns 145 (newUCI c n x m l i)) ∧ (∀ c n x y z, Owns 117 (newGUTI c n x y z)) ∧
    (∀ a b c d e f h i, Owns 86 (newULI a b c d e f h i)) ∧ (∀ a b c d e f h i j k, Owns 86 (newULILazy a b c d e f h i j k)) := by
  have dig : ∀ t s, Owns t (newDigits t s) := by
    intro t s
    unfold newDigits
    first | exact owns_build _ _ | (intro i h; split at h <;> cases h <;> exact own_new _ _)
  refine ⟨dig 1, dig 76, dig 75, fun _ _ => owns_build _ _, fun _ _ => owns_build _ _, fun _ _ _ => owns_build _ _, fun _ _ _ => owns_build _ _,
    fun _ _ _ _ _ _ => owns_build _ _, fun _ _ _ _ _ => owns_build _ _, fun _ _ _ _ _ _ _ _ => owns_build _ _, ?_⟩
  exact fun _ _ _ _ _ _ _ _ _ _ => owns_bind _ _ fun b => owns_build _ _

/-- **C101** addresses and tunnel endpoints, given as octets or as text -/
theorem C101_addresses :
    (∀ f t a b, Owns 87 (newFTEID f t a b)) ∧ (∀ f t a b, Owns 87 (newFTEIDText f t a b)) ∧ (∀ a x, Owns 79 (newPAA a x)) ∧
    (∀ a, Owns 79 (newPAAText a)) ∧ (∀ a x, Owns 79 (newPAAIPv6Text a x)) ∧ (∀ a b x, Owns 79 (newPAADual a b x)) ∧
    (∀ a b x, Owns 79 (newPAADualText a b x)) ∧ (∀ a, Own 74 (newIPAddress a)) ∧ (∀ a, Own 74 (newIPAddressText a)) ∧
    (∀ a x l, Owns 90 (newS103 a x l)) ∧ (∀ a x l, Owns 90 (newS103Text a x l)) ∧ (∀ e a x, Owns 91 (newS1UDF e a x)) ∧
    (∀ e a x, Owns 91 (newS1UDFText e a x)) ∧ (∀ a x l, Owns 132 (newCSID a x l)) ∧ (∀ a l, Owns 132 (newCSIDText a l)) := by
  have ip : ∀ a, Own 74 (newIPAddress a) := by
    intro a; unfold newIPAddress
    split
    · exact own_new _ _
    · split <;> exact own_new _ _
  have cs : ∀ a x l, Owns 132 (newCSID a x l) := by
    intro a x l
    unfold newCSID
    split <;> first | exact owns_build _ _ | (intro i h; cases h)
  refine ⟨fun _ _ _ _ => owns_build _ _, fun _ _ _ _ => owns_build _ _, fun _ _ => owns_build _ _, fun _ => owns_build _ _, fun _ _ => owns_build _ _,
    fun _ _ _ => owns_build _ _, fun _ _ _ => owns_build _ _, ip, ?_, fun _ _ _ => owns_build _ _, fun _ _ _ => owns_build _ _,
    fun _ _ _ => owns_build _ _, fun _ _ _ => owns_build _ _, cs, fun a l => cs _ _ _⟩
  intro a; unfold newIPAddressText
  simp only
  split <;> exact own_new _ _

/-- **C101** bearers: quality of service, flags, templates, and the Bearer Context itself -/
theorem C101_bearers (g : UInt8 → Bool) :
    (∀ a b, Owns 72 (newAMBR a b)) ∧ (∀ a b c d e f h i, Owns 80 (newBearerQoS a b c d e f h i)) ∧ (∀ a b c d e, Owns 81 (newFlowQoS a b c d e)) ∧
    (∀ a b c, Own 155 (newARP a b c)) ∧ (∀ a b c d, Own 97 (newBearerFlags a b c d)) ∧ (∀ a b c d, Owns 84 (newBearerTFT 84 a b c d)) ∧
    (∀ a b c d, Owns 85 (newBearerTFT 85 a b c d)) ∧ (∀ l, Owns 93 (newBearerContext g l)) ∧ (∀ a b c, Owns 186 (newPaging a b c)) ∧ (∀ p l, Owns 78 (newPCO p l)) := by
  refine ⟨fun _ _ => owns_build _ _, fun _ _ _ _ _ _ _ _ => owns_build _ _, fun _ _ _ _ _ => owns_build _ _, fun _ _ _ => own_new _ _,
    fun _ _ _ _ => own_new _ _, fun _ _ _ _ => owns_build _ _, fun _ _ _ _ => owns_build _ _, fun l => owns_grouped _ _ _,
    fun _ _ _ => owns_build _ _, fun _ _ => owns_build _ _⟩

/-- **C101** the constructors of Bearer Contexts and templates for a particular use -/
theorem C101_uses (g : UInt8 → Bool) :
    (∀ a b c d e f h i l, Owns 93 (bcCreateBearerRequest g a b c d e f h i l)) ∧ (∀ a b c d e l, Owns 93 (bcCreateBearerResponse g a b c d e l)) ∧
    (∀ a b, Owns 93 (bcDeleteBearerRequest g a b)) ∧ (∀ a b c d e, Owns 93 (bcDeleteBearerResponse g a b c d e)) ∧
    (∀ a b, Owns 93 (bcModifyBearerCommand g a b)) ∧ (∀ a b c d e f h i, Owns 93 (bcUpdateBearerRequest g a b c d e f h i)) ∧
    (∀ a b c d e l, Owns 93 (bcUpdateBearerResponse g a b c d e l)) ∧ (∀ a b c, Owns 93 (bcDeleteBearerCommand g a b c)) ∧
    (∀ a b, Owns 93 (bcDeleteBearerFailure g a b)) ∧ (∀ a l, Owns 93 (bcIndirectRequest g a l)) ∧ (∀ a b l, Owns 93 (bcIndirectResponse g a b l)) ∧
    (∀ a b c d e f l, Owns 93 (bcForwardRelocation g a b c d e f l)) ∧ (∀ a b c d e l, Owns 93 (bcContextResponse g a b c d e l)) ∧
    (∀ a b, Owns 93 (bcContextAcknowledge g a b)) ∧
    ∀ t, t = 84 ∨ t = 85 → (∀ f p, Owns t (tftCreateNew t f p)) ∧ (∀ f p, Owns t (tftAdd t f p)) ∧ (∀ f p, Owns t (tftReplace t f p)) ∧
      (∀ l p, Owns t (tftDeleteFilters t l p)) ∧ (∀ p, Owns t (tftDeleteExisting t p)) ∧ (∀ p, Owns t (tftNoOperation t p)) := by
  have w : ∀ k l f, Owns 93 (within g k l f) := fun k l f => owns_bind _ _ fun x => owns_bind _ _ fun y => owns_grouped _ _ _
  have n : ∀ l, Owns 93 (newBearerContext g l) := fun l => owns_grouped _ _ _
  exact ⟨fun _ _ _ _ _ _ _ _ _ => w _ _ _, fun _ _ _ _ _ _ => w _ _ _, fun _ _ => n _, fun _ _ _ _ _ => n _, fun _ _ => n _,
    fun _ _ _ _ _ _ _ _ => n _, fun _ _ _ _ _ _ => w _ _ _, fun _ _ _ => n _, fun _ _ => n _, fun _ _ => w _ _ _, fun _ _ _ => w _ _ _,
    fun _ _ _ _ _ _ _ => w _ _ _, fun _ _ _ _ _ _ => w _ _ _, fun x y => owns_bind _ _ fun z => owns_grouped _ _ _,
    fun t _ => ⟨fun _ _ => owns_build _ _, fun _ _ => owns_build _ _, fun _ _ => owns_build _ _, fun _ _ => owns_build _ _, fun _ => owns_build _ _,
      fun _ => owns_build _ _⟩⟩

/-- **C101** causes, flags and times -/
theorem C101_others :
    (∀ a b c d o, Own 2 (newCause a b c d o)) ∧ (∀ a b c, Owns 172 (newRANNAS a b c)) ∧ (∀ p, Own 77 (newIndication p)) ∧
    (∀ l, Own 77 (newIndicationOctets l)) ∧ (∀ s, Owns 77 (newIndicationBits s)) ∧ (∀ a b, Own 171 (newMBMSFlags a b)) ∧
    (∀ d, Own 156 (newEPCTimer d)) ∧ (∀ d f, Owns 154 (newThrottling d f)) ∧ (∀ q d, Own 114 (newUETimeZone q d)) ∧
    (∀ s n, Own 170 (newULITimestamp s n)) ∧ (∀ d i, newDelayValue d = some i → Own 92 i) := by
  refine ⟨?_, fun _ _ _ => owns_build _ _, fun _ => own_new _ _, fun _ => own_new _ _, ?_, fun _ _ => own_new _ _, fun _ => own_new _ _,
    fun _ _ => owns_build _ _, fun _ _ => own_new _ _, fun _ _ => own_new _ _, ?_⟩
  · intro a b c d o
    cases o <;> exact own_new _ _
  · intro s i h
    unfold newIndicationBits at h
    split at h
    · cases h
    · revert i
      exact owns_bind _ _ fun p => by
        intro i h
        cases p with
        | none => cases h
        | some p => cases h; exact own_new _ _
  · intro d i h
    unfold newDelayValue at h
    split at h <;> cases h
    exact own_new _ _

/-- an element of one type and instance 0 is not one of another type or instance -/
theorem Own.only {t t' : UInt8} {i : IE} (h : Own t i) (h' : Own t' i) : t = t' := by
  obtain ⟨_, _, _, e⟩ := h defaultGrouped
  obtain ⟨_, _, _, e'⟩ := h' defaultGrouped
  rw [e] at e'
  injection e' with e'
  injection e'

example : (newPTMSISignature 0xbeebee).marshal defaultGrouped = ok [112, 0, 3, 0, 0xbe, 0xeb, 0xee] ∧
    newMSISDN [56, 49, 57, 48] = ok (some (newIE 76 0 [0x18, 0x09])) ∧ ¬ Own 112 ((newPTMSISignature 1).withInstance 1) := by
  refine ⟨by decide +kernel, by decide +kernel, fun h => ?_⟩
  obtain ⟨_, _, _, e⟩ := h defaultGrouped
  rw [show ((newPTMSISignature 1).withInstance 1).marshal defaultGrouped = ok [112, 0, 3, 1, 0, 0, 1] by decide +kernel] at e
  injection e with e
  injection e with _ e
  injection e with _ e
  injection e with _ e
  injection e with e _
  exact absurd e (by decide)

end Verif.V2
