import Verif.Model.Typed.Time
import Verif.Props.Typed.Plain
/-
Property theorems C50 for timers, throttling, time zone, timestamp and delay value, and C48 for them.
-/
set_option linter.unusedSimpArgs false
namespace Verif.V2
open Res Utils

variable (g : UInt8 → Bool)
open Duration

/-! ### EPC Timer, Throttling -/

/-- TS 29.274 8.85, 8.87: the codes of the timer units and the units -/
def timerUnits : List (UInt8 × Duration) :=
  [(4, 10 * hour), (3, hour), (2, 10 * minute), (1, minute), (0, 2 * second)]

/-- `x` is an octet for `d`: unit code in bits 8 to 6, number of units in bits 5 to 1 -/
def TimerOctet (x : UInt8) (d : Duration) : Prop :=
  ∃ u ∈ timerUnits, ∃ v, v < 32 ∧ x = UInt8.ofNat (u.1.toNat * 32 + v) ∧ d = v * u.2
instance (x d) : Decidable (TimerOctet x d) := inferInstanceAs (Decidable (∃ u ∈ timerUnits, ∃ v, v < 32 ∧ _))

/-- the durations a timer octet can express: 0 to 31 times a unit -/
def Expressible (d : Duration) : Prop := ∃ u ∈ timerUnits, ∃ v : Nat, v < 32 ∧ d = v * u.2
instance (d) : Decidable (Expressible d) := inferInstanceAs (Decidable (∃ u ∈ timerUnits, ∃ v, v < 32 ∧ _))

def timerOctet (d : Duration) : UInt8 := (timerUnit d).1 + ((timerUnit d).2 &&& (0x1f : UInt8))

theorem timer_forall : ∀ u ∈ timerUnits, ∀ v : Fin 32, TimerOctet (timerOctet ((v.val : Int) * u.2)) ((v.val : Int) * u.2) ∧
    timerValue (timerOctet ((v.val : Int) * u.2)) = (v.val : Int) * u.2 := by decide +kernel

theorem timerValue_expressible : ∀ x : UInt8, timerValue x = infinite ∨ Expressible (timerValue x) := by
  intro x
  exact forall_byte (p := fun x => timerValue x = infinite ∨ Expressible (timerValue x)) (by decide +kernel) x

theorem C50_epc_timer_octet (d : Duration) (h : Expressible d) (n : UInt8) (hg : g 156 = false) :
    ∃ x, (newEPCTimer d).typ = 156 ∧ (newEPCTimer d).payload = [x] ∧ TimerOctet x d ∧
      Carried g ((newEPCTimer d).withInstance n) := by
  obtain ⟨u, hu, v, hv, rfl⟩ := h
  exact ⟨_, rfl, rfl, (timer_forall u hu ⟨v, hv⟩).1, carried_new g (by simp) hg⟩

/-- The duration comes back exactly when it is expressible, or when it is the one that stands for infinity. -/
theorem C50_epc_timer_partial (d : Duration) (n : UInt8) :
    ((newEPCTimer d).withInstance n).timer = ok d ↔ Expressible d ∨ d = infinite := by
  have e : ((newEPCTimer d).withInstance n).timer = ok (timerValue (timerOctet d)) := by
    simp [newEPCTimer, newUint8IE, IE.timer, idx, timerOctet]
  rw [e, ok.injEq]
  constructor
  · intro h
    rcases timerValue_expressible (timerOctet d) with h' | h'
    · exact .inr (h ▸ h')
    · exact .inl (h ▸ h')
  · rintro (⟨u, hu, v, hv, rfl⟩ | rfl)
    · exact (timer_forall u hu ⟨v, hv⟩).2
    · decide +kernel

example : (newEPCTimer (25 * minute)).timer = ok (25 * minute) ∧ (newEPCTimer (33 * minute)).timer ≠ ok (33 * minute) := by decide +kernel

/-- the deviations: 33 minutes become one minute, one second becomes infinity; zero is not sent as the octet 0, which stands for
a stopped timer -/
theorem C50_epc_timer_wrong :
    (newEPCTimer (33 * minute)).timer = ok minute ∧ (newEPCTimer second).timer = ok infinite ∧
    (newEPCTimer 0).payload = [0x80] := by decide +kernel

example : Expressible (25 * minute) ∧ (newEPCTimer (25 * minute)).payload = [0x39] ∧ ¬ Expressible (33 * minute) := by
  decide +kernel

/-- the delay an octet is read as -/
def throttlingDelay (x : UInt8) : Throttling :=
  match parseThrottling [x, 0] with
  | ok f => f
  | _ => ⟨0, -1, 0⟩

theorem throttlingDelay_expressible (x : UInt8) : Expressible (throttlingDelay x).delay :=
  forall_byte (p := fun x => Expressible (throttlingDelay x).delay) (by decide +kernel) x

theorem parseThrottling_eq (x y : UInt8) (r : Bytes) : parseThrottling (x :: y :: r) = ok { throttlingDelay x with factor := y } := by
  have : ¬ (r.length + 1 + 1 < 2) := by omega
  simp [throttlingDelay, parseThrottling, idx, this]

/-- TS 29.274 8.85: delay octet and factor -/
theorem C50_throttling_partial (d : Duration) (h : Expressible d) (factor : UInt8) (n : UInt8) (hg : g 154 = false) :
    ∃ i x, newThrottling d factor = ok (some i) ∧ i.typ = 154 ∧ i.payload = [x, factor] ∧ TimerOctet x d ∧
      Carried g (i.withInstance n) ∧ (i.withInstance n).throttling = ok (newThrottlingFields d factor) ∧
      (newThrottlingFields d factor).delay = d ∧ (newThrottlingFields d factor).factor = factor ∧
      (newThrottlingFields d factor).unit.toNat = x.toNat / 32 := by
  have key : ∀ u ∈ timerUnits, ∀ v : Fin 32,
      let f := newThrottlingFields ((v.val : Int) * u.2) 0
      let x := ((f.unit <<< 5) &&& (0xe0 : UInt8)) ||| (f.value &&& (0x1f : UInt8))
      TimerOctet x ((v.val : Int) * u.2) ∧ parseThrottling [x, 0] = ok f ∧ f.unit.toNat = x.toNat / 32 := by decide +kernel
  obtain ⟨u, hu, v, hv, rfl⟩ := h
  obtain ⟨k1, k2, k3⟩ := key u hu ⟨v, hv⟩
  generalize ((v : Int) * u.2) = d at *
  have ev : (newThrottlingFields d factor).value = (newThrottlingFields d 0).value := rfl
  have eu : (newThrottlingFields d factor).unit = (newThrottlingFields d 0).unit := rfl
  generalize hx : (((newThrottlingFields d 0).unit <<< 5) &&& (0xe0 : UInt8)) |||
    ((newThrottlingFields d 0).value &&& (0x1f : UInt8)) = x at k1 k2 k3
  refine ⟨newIE 154 0 [x, factor], x, ?_, rfl, rfl, k1, carried_new g (by simp) hg, ?_, rfl, rfl, ?_⟩
  · simp [newThrottling, Throttling.marshalTo, setAt, build, ev, eu, hx, List.replicate_succ]
    rfl
  · rw [parseThrottling_eq, ok.injEq] at k2
    simp only [IE.throttling, withInstance_new, typ_new, payload_new, if_true, parseThrottling_eq, ok.injEq]
    have : ∀ a b : Throttling, { a with factor := 0 } = b → { a with factor := factor } = { b with factor := factor } := by
      rintro _ _ rfl; rfl
    exact this _ _ k2
  · rw [eu]; exact k3

example : newThrottling (7 * minute) 80 = ok (some (newIE 154 0 [0x27, 80])) := by decide +kernel

/-- any other delay is read as another one -/
theorem C50_throttling_wrong (d : Duration) (h : ¬ Expressible d) (factor : UInt8) {i : IE} {f : Throttling}
    (_hi : newThrottling d factor = ok (some i)) (hf : i.throttling = ok f) : f.delay ≠ d := by
  intro hd
  apply h
  simp only [IE.throttling] at hf
  split at hf
  · match hp : i.payload with
    | [] => simp [hp, parseThrottling] at hf
    | [_] => simp [hp, parseThrottling] at hf
    | x :: y :: r =>
      rw [hp, parseThrottling_eq, ok.injEq] at hf
      subst hf
      exact hd ▸ throttlingDelay_expressible x
  · simp at hf

example : ∃ i f, newThrottling second 5 = ok (some i) ∧ i.throttling = ok f ∧ f.delay = 0 := by
  exact ⟨newIE 154 0 [0, 5], ⟨0, 0, 5⟩, by decide +kernel, by decide +kernel, rfl⟩

/-! ### UE Time Zone -/

/-- TS 24.008 10.5.3.8, TS 23.040 9.2.3.11: quarter hours in two semi-octets, tens in the low one, bit 4 the sign -/
def zoneOctet (q : Int) : UInt8 :=
  UInt8.ofNat ((q.natAbs % 10) * 16 + (if q < 0 then 8 else 0) + q.natAbs / 10)

/-- offsets up to 79 quarter hours to either side of UTC, which the encoding is made for -/
theorem C50_time_zone (q : Int) (h1 : -79 ≤ q) (h2 : q ≤ 79) (dst : UInt8) (hd : dst < 4) (n : UInt8) (hg : g 114 = false) :
    (newUETimeZone q dst).typ = 114 ∧ (newUETimeZone q dst).payload = [zoneOctet q, dst] ∧
    Carried g ((newUETimeZone q dst).withInstance n) ∧ ((newUETimeZone q dst).withInstance n).timeZone = ok (q * (15 * minute)) ∧
    ((newUETimeZone q dst).withInstance n).daylightSaving = ok dst := by
  have key : ∀ k : Fin 159, ∀ t : Fin 4,
      (newUETimeZone ((k.val : Int) - 79) (.ofNat t)).payload = [zoneOctet ((k.val : Int) - 79), .ofNat t] ∧
      (newUETimeZone ((k.val : Int) - 79) (.ofNat t)).timeZone = ok (((k.val : Int) - 79) * (15 * minute)) ∧
      (newUETimeZone ((k.val : Int) - 79) (.ofNat t)).daylightSaving = ok (.ofNat t) := by decide +kernel
  obtain ⟨k, hk, rfl⟩ : ∃ k : Nat, k < 159 ∧ q = (k : Int) - 79 := ⟨(q + 79).toNat, by omega, by omega⟩
  have := key ⟨k, hk⟩ ⟨dst.toNat, hd⟩
  simp only [UInt8.ofNat_toNat] at this
  exact ⟨rfl, this.1, carried_new g (by simp) hg, this.2.1, this.2.2⟩

/-- 80 quarter hours overwrite the sign -/
theorem C50_time_zone_limit : (newUETimeZone 80 0).timeZone = ok 0 := by decide +kernel

example : (newUETimeZone (-20) 1).payload = [0x0a, 1] ∧ (newUETimeZone (-20) 1).timeZone = ok (-5 * hour) := by decide +kernel

/-! ### ULI Timestamp -/

/-- TS 29.274 8.101: seconds since 1900 modulo 2^32; right for every time from 1970 to 2106 -/
theorem C50_timestamp_partial (sec : Int) (ns : Nat) (h1 : 0 ≤ sec) (h2 : sec < 4294967296) (h3 : ns < 1000000000) (n : UInt8)
    (hg : g 170 = false) :
    (newULITimestamp sec ns).typ = 170 ∧
    (newULITimestamp sec ns).payload = be32 (UInt32.ofNat ((sec + 2208988800) % 4294967296).toNat) ∧
    Carried g ((newULITimestamp sec ns).withInstance n) ∧ ((newULITimestamp sec ns).withInstance n).timestamp = ok sec := by
  have e : ((saturate ((sec + epochDelta) * 1000000000 + ns)) % 2 ^ 64).toNat / 1000000000 = (sec + 2208988800).toNat := by
    unfold saturate epochDelta; simp only [Int.reducePow]; omega
  have e2 : UInt32.ofNat (sec + 2208988800).toNat = UInt32.ofNat ((sec + 2208988800) % 4294967296).toNat := by
    apply UInt32.toNat_inj.mp
    rw [UInt32.toNat_ofNat', UInt32.toNat_ofNat']
    omega
  have e3 : newULITimestamp sec ns = newIE 170 0 (be32 (UInt32.ofNat ((sec + 2208988800) % 4294967296).toNat)) := by
    unfold newULITimestamp newUint32IE
    simp only [e, e2]
  rw [e3]
  refine ⟨rfl, rfl, carried_new g (by simp) hg, ?_⟩
  have hr := rd32_be32' (UInt32.ofNat ((sec + 2208988800) % 4294967296).toNat)
  simp only [IE.timestamp, withInstance_new, typ_new, payload_new, length_be32]
  rw [if_neg (by omega), if_pos (by simp), hr]
  simp only [bind_ok, ok.injEq]
  rw [UInt32.toNat_sub, UInt32.toNat_ofNat']
  show ((((4294967296 - 2208988800) + ((sec + 2208988800) % 4294967296).toNat % 2 ^ 32) % 2 ^ 32 : Nat) : Int) = sec
  simp only [Nat.reducePow]
  omega

/-- a time between 1900 and 1970 comes back 2^32 seconds later -/
theorem C50_timestamp_before_1970 : (newULITimestamp (-1) 0).timestamp = ok 4294967295 := by decide +kernel

example : (newULITimestamp 1549065600 500).payload = [223, 255, 92, 0] := by decide +kernel

/-! ### Delay Value -/

/-- TS 29.274 8.29: multiples of 50 milliseconds.  The accessor divides where it should multiply. -/
theorem C50_delay_value_wrong (x : UInt8) (n : UInt8) :
    ((newDelayValueRaw x).withInstance n).delayValue = ok ((x.toNat : Int) * 50000000) ↔ x = 0 := by
  have : ((newDelayValueRaw x).withInstance n).delayValue = ok (((x / 50).toNat : Int) * 1000000) := by
    simp [newDelayValueRaw, newUint8IE, IE.delayValue, idx]
  rw [this, ok.injEq]
  exact forall_byte (p := fun x => ((x / 50).toNat : Int) * 1000000 = (x.toNat : Int) * 50000000 ↔ x = 0) (by decide +kernel) x

example : (newDelayValueRaw 4).delayValue ≠ ok 200000000 := by decide +kernel

/-- the element carries the octet given -/
theorem C50_delay_value_partial (x : UInt8) (n : UInt8) (hg : g 92 = false) :
    (newDelayValueRaw x).typ = 92 ∧ (newDelayValueRaw x).payload = [x] ∧ Carried g ((newDelayValueRaw x).withInstance n) :=
  ⟨rfl, rfl, carried_new g (by simp) hg⟩

theorem C48_time (i : IE) : Returns i.timer ∧ Returns i.throttling ∧ Returns i.timeZone ∧ Returns i.daylightSaving ∧
    Returns i.timestamp ∧ Returns i.delayValue := by
  refine ⟨?_, ?_, ?_, ?_, ?_, ?_⟩
  · unfold IE.timer; ret
  · unfold IE.throttling parseThrottling; ret
  · unfold IE.timeZone; dsimp only; ret
  · unfold IE.daylightSaving; ret
  · unfold IE.timestamp; ret
  · unfold IE.delayValue; ret

example : (newIE 154 0 [1]).throttling = err .eof := by decide

end Verif.V2

/-! ### cases that meet the hypotheses -/

namespace Verif.V2
open Res Utils Duration
example := C50_epc_timer_octet (g := defaultGrouped) (25 * minute) (by decide +kernel) 1 (by decide)
example := C50_throttling_partial (g := defaultGrouped) (7 * minute) (by decide +kernel) 80 1 (by decide)
example := C50_throttling_wrong second (by decide +kernel) 5 (i := newIE 154 0 [0, 5]) (f := ⟨0, 0, 5⟩) (by decide +kernel) (by decide +kernel)
example := C50_time_zone (g := defaultGrouped) (-20) (by decide) (by decide) 1 (by decide) 1 (by decide)
example := C50_timestamp_partial (g := defaultGrouped) 1549065600 500 (by decide) (by decide) (by decide) 1 (by decide)
example := C50_delay_value_partial (g := defaultGrouped) 7 1 (by decide)
end Verif.V2
