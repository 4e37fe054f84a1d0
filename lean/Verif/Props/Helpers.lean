import Verif.Props.Generic
import Verif.Props.V2Registry
import Verif.Props.Typed.TFT
import Verif.Props.Typed.Time
import Verif.Props.V1Header
/-
Small helpers of the API: flag octets of headers (C10, C26), comprehension of extension headers (C22), cell identities (C03),
subscriber of a TEID (C33), packet filters and parameters built by their constructors (C46), raw timers (C50).
-/
namespace Verif.V2
open Res Spec

/-- the octet `NewHeaderFlags` makes has the version in bits 8 to 6, the P flag in bit 5 and the T flag in bit 4, and no other bit,
whatever the numbers given; `IsPiggybacking` and `HasTEID` read them back -/
theorem C10_flags (v p t : Nat) (typ : UInt8) (teid seq : UInt32) (data : Bytes) :
    let f := Header.newFlags v p t
    f.toNat = v % 8 * 32 + p % 2 * 16 + t % 2 * 8 ∧
    (Header.new f typ teid seq data).isPiggybacking = (p % 2 == 1) ∧ (Header.new f typ teid seq data).hasTEID = (t % 2 == 1) := by
  have key : ∀ (v : Fin 8) (p t : Fin 2),
      let f := UInt8.ofNat ((v.val <<< 5) ||| (p.val <<< 4) ||| (t.val <<< 3))
      f.toNat = v.val * 32 + p.val * 16 + t.val * 8 ∧ (((f >>> 4) &&& 1) == 1) = (p.val == 1) ∧ (((f >>> 3) &&& 1) == 1) = (t.val == 1) := by
    decide +kernel
  have e : Header.newFlags v p t = UInt8.ofNat ((v % 8) <<< 5 ||| (p % 2) <<< 4 ||| (t % 2) <<< 3) := by
    unfold Header.newFlags
    rw [show (7 : Nat) = 2 ^ 3 - 1 from rfl, show (1 : Nat) = 2 ^ 1 - 1 from rfl, Nat.and_two_pow_sub_one_eq_mod,
      Nat.and_two_pow_sub_one_eq_mod, Nat.and_two_pow_sub_one_eq_mod]
  have k := key ⟨v % 8, by omega⟩ ⟨p % 2, by omega⟩ ⟨t % 2, by omega⟩
  simp only at k
  intro f
  have hf : f = UInt8.ofNat ((v % 8) <<< 5 ||| (p % 2) <<< 4 ||| (t % 2) <<< 3) := e
  rw [← hf] at k
  exact k

example : Header.newFlags 2 0 1 = 0x48 ∧ Header.newFlags 2 1 1 = 0x58 := by decide

end Verif.V2

namespace Verif.V0
open Res

/-- the octet `HeaderFlags` makes has the version in bits 8 to 6, the protocol type in bit 5, the spare bits 4 to 2 set and the
SNDCP flag in bit 1, whatever the numbers given -/
theorem C26_flags (v p s : Nat) : (Header.newFlags v p s).toNat = v % 8 * 32 + p % 2 * 16 + 14 + s % 2 := by
  have key : ∀ (v : Fin 8) (p s : Fin 2),
      (UInt8.ofNat ((v.val <<< 5) ||| (p.val <<< 4) ||| s.val ||| 0x0e)).toNat = v.val * 32 + p.val * 16 + 14 + s.val := by
    decide +kernel
  unfold Header.newFlags
  rw [show (7 : Nat) = 2 ^ 3 - 1 from rfl, show (1 : Nat) = 2 ^ 1 - 1 from rfl, Nat.and_two_pow_sub_one_eq_mod,
    Nat.and_two_pow_sub_one_eq_mod, Nat.and_two_pow_sub_one_eq_mod]
  exact key ⟨v % 8, by omega⟩ ⟨p % 2, by omega⟩ ⟨s % 2, by omega⟩

example : Header.newFlags 0 1 0 = 0x1e := by decide

end Verif.V0

namespace Verif.V1

/-- an endpoint must comprehend an extension header when the first bit of its type is set (TS 29.281 5.2.1) -/
theorem C22_comprehension (e : Ext) : e.comprehension = true ↔ 128 ≤ e.typ.toNat := by
  unfold Ext.comprehension
  generalize e.typ = t
  exact forall_byte (p := fun t => (t >>> 7 == 1) = true ↔ 128 ≤ t.toNat) (by decide +kernel) t

/-- PDU Session Container (0x85) and Service Class Indicator (0x20) -/
example : (⟨0x85, 1, [1, 2], 0⟩ : Ext).comprehension = true ∧ (⟨0x20, 1, [1, 2], 0⟩ : Ext).comprehension = false := by decide

end Verif.V1

namespace Verif.Utils
open Res

/-- the number of a cell is split into base station and cell, for every number: the cell is the last octet -/
theorem C03_eci (eci : UInt32) : ∃ enb cell, parseECI eci = ok (enb, cell) ∧ enb.toNat = eci.toNat / 256 ∧ cell.toNat = eci.toNat % 256 ∧
    eci.toNat = enb.toNat * 256 + cell.toNat := by
  have h := eci.toNat_lt
  refine ⟨_, _, rfl, ?_, ?_, ?_⟩ <;>
    simp only [UInt32.toNat_ofNat', UInt8.toNat_ofNat', UInt8.toNat_ofNat] <;> omega

example : parseECI 0x0abcdef1 = ok (0xabcde, 0xf1) := by decide

end Verif.Utils

namespace Verif.V2.Conn
open Res

/-- the subscriber of a TEID is the one of the session found by that TEID; there is an answer exactly when there is a session -/
theorem C33_subscriber (localIf counter : UInt8) (heap : Nat → Sess) (ops : List Op) (c : Conn)
    (h : applyAll (newConn localIf counter heap) ops = ok c) (t : UInt32) (p : String) :
    (∀ imsi, getIMSIByTEID c t p = ok imsi →
      ∃ s, getSessionByTEID c t p = ok s ∧ (c.heap s).imsi = imsi ∧ (c.heap s).peer = p ∧ Op.register t s ∈ ops) ∧
    (∀ s, getSessionByTEID c t p = ok s → getIMSIByTEID c t p = ok (c.heap s).imsi) := by
  constructor
  · intro imsi hi
    unfold getIMSIByTEID at hi
    rw [bind_eq_ok] at hi
    obtain ⟨s, hs, hi⟩ := hi
    simp only [ok.injEq] at hi
    obtain ⟨hp, pre, post, ho, _⟩ := C33_teid_sound localIf counter heap ops c h t p s hs
    exact ⟨s, hs, hi, hp, by rw [ho]; simp⟩
  · intro s hs
    rw [getIMSIByTEID, hs, bind_ok]

end Verif.V2.Conn

namespace Verif.V2
open Res Spec

variable (g : UInt8 → Bool)
open Duration

/-- **C46** from the constructors of packet filters and parameters: what they build is within the format, and the values given are
what the accessor returns.  Partial: as `C46_tft_partial`. -/
theorem C46_built_partial (op : UInt8) (hop : op = 1 ∨ op = 3 ∨ op = 4) (fs : List (UInt8 × UInt8 × UInt8 × List Comp))
    (hd : ∀ f ∈ fs, f.1 < 4 ∧ f.2.1 < 16 ∧ (∀ c ∈ f.2.2.2, CompOK c) ∧ (encComps f.2.2.2).length < 256) (hn : fs.length < 16)
    (ps : List (UInt8 × Bytes)) (hps : ∀ p ∈ ps, p.2.length < 256) (hodd : ps = [] ∨ ps.length % 2 = 1)
    (hl : (encTFT ⟨op, fs.map (fun f => newFilter f.1 f.2.1 f.2.2.1 f.2.2.2), [], ps.map (fun p => newParam p.1 p.2)⟩).length < 65536)
    (n : UInt8) (hg : g 84 = false) :
    ∃ i r, newBearerTFT 84 op (fs.map (fun f => some (newFilter f.1 f.2.1 f.2.2.1 f.2.2.2))) [] (ps.map (fun p => some (newParam p.1 p.2))) =
        ok (some i) ∧ Carried g (i.withInstance n) ∧ (i.withInstance n).tft g = ok r ∧ r.op = op ∧ r.ids = [] ∧
      r.filters.map (fun f => (f.dir, f.ident, f.prec, f.comps)) = fs ∧ r.params.map (fun p => (p.ident, p.contents)) = ps := by
  have hok : TFTOK ⟨op, fs.map (fun f => newFilter f.1 f.2.1 f.2.2.1 f.2.2.2), [], ps.map (fun p => newParam p.1 p.2)⟩ :=
    { r_op := by
        show op < 8
        rcases hop with rfl | rfl | rfl <;> decide
      r_filters := by
        intro p hp
        obtain ⟨f, hf, rfl⟩ := List.mem_map.1 hp
        obtain ⟨a, b, c, d⟩ := hd f hf
        refine ⟨a, b, c, d, ?_⟩
        show (UInt8.ofNat (compsLen f.2.2.2)).toNat = (encComps f.2.2.2).length
        rw [compsLen_eq, UInt8.toNat_ofNat']
        omega
      r_params := by
        intro p hp
        obtain ⟨q, hq, rfl⟩ := List.mem_map.1 hp
        have := hps q hq
        refine ⟨this, ?_⟩
        show (UInt8.ofNat q.2.length).toNat = q.2.length
        rw [UInt8.toNat_ofNat']
        omega
      r_count := by simpa using hn
      r_nofilters := by intro h1 h3 h4; exact absurd hop (by simp [h1, h3, h4])
      r_noids := fun _ => rfl }
  have hodd' : ps.map (fun p => newParam p.1 p.2) = [] ∨ (ps.map (fun p => newParam p.1 p.2)).length % 2 = 1 :=
    (by rcases hodd with h | h
        · left; simp [h]
        · right; simpa using h)
  generalize hF : (⟨op, fs.map (fun f => newFilter f.1 f.2.1 f.2.2.1 f.2.2.2), [], ps.map (fun p => newParam p.1 p.2)⟩ : TFT) = F at hok hl
  have hodd'' : F.params = [] ∨ F.params.length % 2 = 1 := by rw [← hF]; exact hodd'
  obtain ⟨i, h1, _, h3, h4⟩ := C46_tft_partial g hok hodd'' hl (Or.inl rfl : (84 : UInt8) = 84 ∨ (84 : UInt8) = 85) hg n
  subst hF
  refine ⟨i, _, ?_, h3, h4, rfl, rfl, ?_, ?_⟩
  · rw [← h1]
    have e1 : (some ∘ fun f : UInt8 × UInt8 × UInt8 × List Comp => newFilter f.1 f.2.1 f.2.2.1 f.2.2.2) =
      fun f => some (newFilter f.1 f.2.1 f.2.2.1 f.2.2.2) := rfl
    have e2 : (some ∘ fun p : UInt8 × Bytes => newParam p.1 p.2) = fun p => some (newParam p.1 p.2) := rfl
    simp only [List.map_map, e1, e2]
  · have e : ((fun f : Filter => (f.dir, f.ident, f.prec, f.comps)) ∘
        fun f : UInt8 × UInt8 × UInt8 × List Comp => newFilter f.1 f.2.1 f.2.2.1 f.2.2.2) = id := by
      funext ⟨a, b, c, d⟩
      rfl
    simp only [List.map_map, e, List.map_id]
  · have e : ((fun p : Param => (p.ident, p.contents)) ∘ fun p : UInt8 × Bytes => newParam p.1 p.2) = id := by
      funext ⟨a, b⟩
      rfl
    simp only [List.map_map, e, List.map_id]

/-- one filter with a protocol and a remote port, one parameter -/
example : (newIE 84 0 [0x31, 0x35, 200, 5, 0x30, 17, 0x50, 0, 80, 1, 1, 0xaa]).tft (fun _ => false) =
    ok ⟨1, [newFilter 3 5 200 [⟨0x30, [17]⟩, ⟨0x50, [0, 80]⟩]], [], [newParam 1 [0xaa]]⟩ := by decide

/-- **C46** a packet filter of 256 octets of components or more shows (and sends) a length that is too small. -/
theorem C46_long_filter_wrong (d i p : UInt8) (cs : List Comp) (h : 256 ≤ (encComps cs).length) :
    (newFilter d i p cs).len.toNat < (encComps cs).length := by
  have := (newFilter d i p cs).len.toNat_lt
  omega

/-- **C50** a timer given as an octet has that octet, and is read as what the octet stands for. -/
theorem C50_timer_raw (x : UInt8) (n : UInt8) (hg : g 156 = false) :
    (newEPCTimerRaw x).typ = 156 ∧ (newEPCTimerRaw x).payload = [x] ∧ Carried g ((newEPCTimerRaw x).withInstance n) ∧
    ∃ d, ((newEPCTimerRaw x).withInstance n).timer = ok d ∧ (7 * 32 ≤ x.toNat → d = infinite) ∧ (x.toNat < 5 * 32 → TimerOctet x d) := by
  refine ⟨rfl, rfl, carried_new g (by simp) hg, timerValue x, ?_, ?_⟩
  · simp [newEPCTimerRaw, newUint8IE, IE.timer, idx]
  · exact forall_byte (p := fun x => (7 * 32 ≤ x.toNat → timerValue x = infinite) ∧ (x.toNat < 5 * 32 → TimerOctet x (timerValue x)))
      (by decide +kernel) x

/-- 40 hours as four times ten hours -/
example : (newEPCTimerRaw 0x84).timer = ok (40 * hour) := by decide

end Verif.V2

namespace Verif.V2
open Res Spec
/-! ### cases that meet the hypotheses -/

example := Conn.C33_subscriber 10 0 Conn.exHeap [.register 5 0, .activate 0, .register 7 2, .remove 0, .register 9 1] _ rfl 7 "other"
example := C46_built_partial (g := defaultGrouped) 1 (.inl rfl) [(3, 5, 200, [⟨0x30, [17]⟩, ⟨0x50, [0, 80]⟩])] (by unfold CompOK; decide) (by decide)
  [(1, [0xaa])] (by decide) (.inr rfl) (by decide) 0 (by decide)
example := C46_long_filter_wrong 3 5 200 (List.replicate 128 ⟨0x30, [17]⟩) (by decide +kernel)
example := C50_timer_raw (g := defaultGrouped) 0x84 0 (by decide)
end Verif.V2
