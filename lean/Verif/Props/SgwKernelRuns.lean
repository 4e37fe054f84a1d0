import Verif.Props.PgwKernel
import Verif.Props.Sgw
import Verif.Props.SgwKernel
import Verif.Props.SgwRuns
/-
C110, a concrete run of the S-GW with kernel tunnels.
-/
namespace Verif.V2.Sgw
open Res Send Conn NetIP V1.Tunnel

/-- a kernel without devices -/
def exSys : Sys := ⟨fun _ => none, false, none, false, [], []⟩
def exNet : Net := ⟨fun _ => none, [("lo", 5)]⟩
def exK0 : KState := ⟨exStart, fun _ => [], fun _ => [], (enable .zero exSys dev1).1, (enable .zero exSys dev5).1, (addRoutes (fun _ => false) exNet).1⟩

theorem exK0_runs : RunsK defaultGrouped exG exK0 :=
  .start _ ⟨⟨_, _, _, _, rfl⟩, ⟨.zero, exSys, (by intro d l h; cases h), Prod.ext rfl (by decide +kernel)⟩,
    ⟨.zero, exSys, (by intro d l h; cases h), Prod.ext rfl (by decide +kernel)⟩, ⟨fun _ => false, exNet, (addRoutes (fun _ => false) exNet).2.1, by
      intro r hr
      simp only [exNet, List.mem_cons, List.not_mem_nil, or_false] at hr
      subst hr
      decide, rfl⟩⟩

/-- the attach of Props/Sgw.lean, the Modify Bearer Request and the detach of Props/SgwRuns.lean -/
def exK1 : KState := (stepK defaultGrouped exG exK0 (exE 0 20) .zero (.s11 "m" exReq)).1
def exK2 : KState := (stepK defaultGrouped exG exK1 (exE 1 30) .zero (.s5 exP (match exPgw.2.1 with | [.sent _ d] => d | _ => []))).1
def exK3 : KState := (stepK defaultGrouped exG exK2 (exE 1 40) .zero (.wake 0)).1
def exK4 (f : KFaults) : KState × List (Port × Ev) × Res Unit := stepK defaultGrouped exG exK3 (exE 1 50) f (.s11 "m" exMod)

-- the subscriber is 10.9.0.1; the tunnels are there after the Modify Bearer Request
example : exK3.ip11 0 = ipString [10, 9, 0, 1] ∧ exK3.ip5 0 = ipString [10, 9, 0, 1] ∧ exK3.tunnels dev1 = [] ∧ exK3.tunnels dev5 = [] := by
  decide +kernel
example : (exK4 .zero).2.2 = ok () ∧ (exK4 .zero).2.1.length = 1 ∧ (exK4 .zero).1.tunnels dev1 = [⟨[10, 0, 3, 1], [10, 9, 0, 1], 77, 43⟩] ∧
    (exK4 .zero).1.tunnels dev5 = [⟨[10, 0, 0, 2], [10, 9, 0, 1], 8, 22⟩] ∧ (exK4 .zero).1.net.out dev1 = some dev5 ∧
    (exK4 .zero).1.net.out dev5 = some dev1 ∧ (exK4 .zero).1.wraps dev5 [10, 9, 0, 1] = some ([10, 0, 0, 2], 8) ∧
    (exK4 .zero).1.wraps dev1 [10, 9, 0, 1] = some ([10, 0, 3, 1], 77) ∧ (exK4 .zero).1.wraps dev1 [10, 9, 0, 2] = none := by
  decide +kernel
-- the S5-U tunnel cannot be made
example : let x := exK4 ⟨fun _ => false, fun _ => true⟩
    x.2.1.length = 0 ∧ x.2.2 = err .other ∧ x.1.tunnels dev1 = [⟨[10, 0, 3, 1], [10, 9, 0, 1], 77, 43⟩] ∧ x.1.tunnels dev5 = [] := by
  decide +kernel
-- the detach changes nothing in the kernel
example : let x := stepK defaultGrouped exG (exK4 .zero).1 (exE 1 60) .zero (.s11 "m" exDel)
    x.2.1.length = 1 ∧ x.2.2 = ok () ∧ x.1.tunnels dev1 = [⟨[10, 0, 3, 1], [10, 9, 0, 1], 77, 43⟩] := by
  decide +kernel
-- routes and rules, and what `close` leaves
example : let x := addRoutes (fun _ => false) exNet
    x.1.table 2001 = some dev5 ∧ x.1.table 2005 = some dev1 ∧ x.1.rules = [("lo", 5), (dev1, 2001), (dev5, 2005)] ∧ x.2.2 = true ∧
    (takeBack x.2.1 x.1).2 = 1 ∧ (takeBack x.2.1 x.1).1.table 2005 = some dev1 ∧ (takeBack x.2.1 x.1).1.rules = [("lo", 5)] := by
  decide +kernel

end Verif.V2.Sgw

/-! ### cases that meet the hypotheses -/

namespace Verif.V2.Sgw
open Res Send Conn NetIP V1.Tunnel Spec IPSpec
open Pgw (Says says_get has_of exMsg exMsg_ok exSchema)

theorem exK1_runs : RunsK defaultGrouped exG exK1 := .step _ _ _ _ exK0_runs (unused_ex (by decide))
theorem exK2_runs : RunsK defaultGrouped exG exK2 := .step _ _ _ _ exK1_runs (unused_ex (by decide +kernel))
theorem exK3_runs : RunsK defaultGrouped exG exK3 := .step _ _ _ _ exK2_runs (unused_ex (by decide +kernel))
theorem exK4_runs : RunsK defaultGrouped exG (exK4 .zero).1 := .step _ _ _ _ exK3_runs (unused_ex (by decide +kernel))
theorem exK_attached : Attached exK3.st 0 0 0 0 "m" exP exV 20 21 22 43 7 8 [10, 0, 0, 2] := by
  refine ⟨?_, ?_, ?_, ?_, ?_, ?_, ?_, ?_, ?_⟩
  case refine_4 => intro x hx; rcases hx with h | h <;> rw [h] <;> decide +kernel
  all_goals decide +kernel
theorem exK4_attached : Attached (exK4 .zero).1.st 0 0 0 0 "m" exP exV 20 21 22 43 7 8 [10, 0, 0, 2] := by
  refine ⟨?_, ?_, ?_, ?_, ?_, ?_, ?_, ?_, ?_⟩
  case refine_4 => intro x hx; rcases hx with h | h <;> rw [h] <;> decide +kernel
  all_goals decide +kernel

example := C110_undisturbed defaultGrouped exG (exK4 .zero).1 exK4_runs (exE 1 60) .zero (.s11 "m" exDel) (by
  intro a d m e hm hs
  cases e
  obtain rfl := ok.inj (exDel_ok.symm.trans hm)
  exact absurd (congrArg Msg.Schema.typ (exDel_schema.symm.trans hs)) (by decide))
example := C110_attach_partial _ exUsual exG _ _ _ _ exOnV4 exK0 exK0_runs (exE 0 20) exUnused 20 21 22 rfl rfl rfl rfl "m" exReq _ exReq_ok exReq_schema
  (by decide +kernel) (.inl exReq_teid) exV exReq_asks [10, 9, 0, 1] rfl exReq_paa Pgw.exP _ _ Pgw.exOnV4 _ _ Pgw.exRunsK0 0 0 Pgw.exFresh0 7 8 (by decide) rfl
  (by decide +kernel) "10.0.1.2:2123" (exE 1 30) (exE 1 40) 43 rfl rfl .zero .zero .zero
example := C110_modify_partial _ exUsual exG _ _ _ _ exOnV4 exK3 exK3_runs 0 0 0 0 "m" exP exV 20 21 22 43 7 8 [10, 0, 0, 2] rfl exK_attached [10, 9, 0, 1] rfl
  (by decide +kernel) (by decide +kernel) exMod _ exMod_ok exMod_schema (by decide +kernel) 0 77 [10, 0, 3, 1] rfl exMod_moves (by decide) (exE 1 50) rfl
example := C110_answer_partial _ exUsual exG _ _ _ _ exOnV4 exK3 exK3_runs 0 0 0 0 "m" exP exV 20 21 22 43 7 8 [10, 0, 0, 2] rfl exK_attached [10, 9, 0, 1] rfl
  (by decide +kernel) (by decide +kernel) exMod _ exMod_ok exMod_schema (by decide +kernel) 0 77 [10, 0, 3, 1] rfl exMod_moves (by decide) (exE 1 50) rfl
  ⟨fun _ => false, fun _ => true⟩
example := C110_fails_wrong _ exUsual exG _ _ _ _ exOnV4 exK3 exK3_runs 0 0 0 0 "m" exP exV 20 21 22 43 7 8 [10, 0, 0, 2] rfl exK_attached [10, 9, 0, 1] rfl
  (by decide +kernel) (by decide +kernel) exMod _ exMod_ok exMod_schema (by decide +kernel) 0 77 [10, 0, 3, 1] rfl exMod_moves (by decide) (exE 1 50) rfl
  (by
    have h : exK3.tunnels dev5 = [] := by decide +kernel
    rintro t ⟨q, hq, _⟩
    rw [h] at hq; cases hq)
example := C110_through_partial _ exUsual exG _ _ _ _ exOnV4 exK0 exK0_runs (exE 0 20) exUnused 20 21 22 rfl rfl rfl rfl "m" exReq _ exReq_ok exReq_schema
  (by decide +kernel) (.inl exReq_teid) exV exReq_asks [10, 9, 0, 1] rfl exReq_paa Pgw.exP _ _ Pgw.exOnV4 _ _ Pgw.exRunsK0 0 0 Pgw.exFresh0 7 8 (by decide) rfl
  (by decide +kernel) "10.0.1.2:2123" (exE 1 30) (exE 1 40) 43 rfl rfl .zero .zero .zero (exE 1 50) rfl exMod _ exMod_ok exMod_schema (by decide +kernel)
  0 77 [10, 0, 3, 1] rfl exMod_moves (by decide)
example := C110_detach_wrong _ exUsual exG (exK4 .zero).1 exK4_runs 0 0 0 0 "m" exP exV 20 21 22 43 7 8 (by decide) (by decide) [10, 0, 0, 2] exK4_attached
  (by decide +kernel) exDel _ exDel_ok exDel_schema (by decide +kernel) Pgw.exP _ _ Pgw.exOnV4 exPgw.1 exPgw_runs 0 "10.0.1.2:2123" (by decide +kernel)
  (by decide +kernel) 1 1 9 10 (exE 1 60) (exE 1 60) (exE 1 60) rfl rfl .zero .zero .zero
example := C110_close_wrong (fun _ => false) exNet _ _ rfl
end Verif.V2.Sgw
