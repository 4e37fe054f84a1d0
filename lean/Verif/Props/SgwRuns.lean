import Verif.Props.Sgw
import Verif.Props.SgwLater
/-
C100, concrete runs of the S-GW after an attach, and what goes wrong.
-/
namespace Verif.V2.Sgw
open Res Send Conn NetIP Spec IPSpec
open Pgw (Says has_of typ_of getByTEID_ok seq_small fteidOf fteidOf_reads)

/-! ### concrete runs -/

/-- the attach of Props/Sgw.lean goes on: the eNodeB is at 10.0.3.1 -/
def exGroup (l : List IE) : Option IE :=
  match newGrouped defaultGrouped 93 (l.map some) with
  | ok x => x
  | _ => none
def exMod : Bytes := Pgw.exDatagram Tab.modifyBearerRequest 20 10 [exGroup [newIE 73 0 [5], newIE 87 0 [0x80, 0, 0, 0, 77, 10, 0, 3, 1]]]
def exDel : Bytes := Pgw.exDatagram Tab.deleteSessionRequest 20 11 [some (newIE 73 0 [5])]
def ex4 : State × List (Port × Ev) × Res Unit := step defaultGrouped exG ex3.1 (exE 1 50) (.s11 "m" exMod)
def ex5 : State × List (Port × Ev) × Res Unit := step defaultGrouped exG ex4.1 (exE 1 60) (.s11 "m" exDel)
def exPgw2 : Conn × List Ev × Res Unit := Pgw.serve defaultGrouped Pgw.exP exPgw.1 1 1 (some 9) (some 10) "10.0.1.2:2123" (exOut ex5) true
def ex6 : State × List (Port × Ev) × Res Unit :=
  step defaultGrouped exG ex5.1 (exE 1 30) (.s5 exP (match exPgw2.2.1 with | [.sent _ d] => d | _ => []))
def ex7 : State × List (Port × Ev) × Res Unit := step defaultGrouped exG ex6.1 (exE 1 40) (.wake 0)

-- the bearer moves to the eNodeB
example : exSeen ex4 = ([(.s11, ⟨"m", 35, 200, 10, [(2, 0, [16, 0]),
      (93, 0, [2, 0, 2, 0, 16, 0, 73, 0, 1, 0, 0, 87, 0, 9, 0, 0x81, 0, 0, 0, 43, 10, 0, 1, 3])]⟩)], ok ()) ∧
    Moves (newMessage defaultGrouped Tab.modifyBearerRequest 20 10 [exGroup [newIE 73 0 [5], newIE 87 0 [0x80, 0, 0, 0, 77, 10, 0, 3, 1]]]) 0 77 [10, 0, 3, 1] := by
  refine ⟨by decide +kernel, _, [], has_of (k := 8) (by exact rfl) (by decide) rfl, ?_⟩
  decide +kernel
-- user data both ways, to and from 10.0.0.2, the P-GW, and 10.0.3.1, the eNodeB
def exUser (u : V1.UConn.UConn) (a : Addr) (d : Bytes) : List (Option (Nat × Addr × Bytes)) :=
  (V1.UConn.serve u true a d true).1.map fun x => match x with
    | .sent n a d => some (n, a, d)
    | _ => none
example : exUser ex4.1.s1u "10.0.3.1:2152" ([0x30, 255, 0, 3] ++ be32 43 ++ [1, 2, 3]) =
      [some (1, "10.0.0.2:2152", [0x30, 255, 0, 3] ++ be32 8 ++ [1, 2, 3])] ∧
    exUser ex4.1.s5u "10.0.0.2:2152" ([0x30, 255, 0, 3] ++ be32 22 ++ [4, 5, 6]) =
      [some (0, "10.0.3.1:2152", [0x30, 255, 0, 3] ++ be32 77 ++ [4, 5, 6])] := by
  decide +kernel
-- the detach
example : exSeen ex5 = ([(.s5, ⟨exP, 36, 7, 2, [(73, 0, [5])]⟩)], ok ()) ∧ exSeen ex6 = ([], ok ()) ∧
    exSeen ex7 = ([(.s11, ⟨"m", 37, 200, 11, [(2, 0, [16, 0])]⟩)], ok ()) ∧
    getSessionByTEID ex5.1.s11 20 "m" = ok 0 ∧ getSessionByTEID ex7.1.s11 20 "m" = err .notFound ∧ getSessionByTEID ex7.1.s5 21 exP = err .notFound ∧
    getSessionByTEID exPgw2.1 7 "10.0.1.2:2123" = err .notFound ∧ ex7.1.waiting.length = 0 := by
  decide +kernel

-- no answer of the P-GW; a refusal (cause 94), and what the MME gets after it
def exRefused : State × List (Port × Ev) × Res Unit :=
  step defaultGrouped exG ex1.1 (exE 1 30) (.s5 exP (Pgw.exDatagram Tab.createSessionResponse 21 1 [some (newIE 2 0 [94, 0])]))
def exSilent (st : State) : State × List (Port × Ev) × Res Unit := step defaultGrouped exG st (exE 1 40) (.expire 0)
example : exSeen (exSilent ex1.1) = ([(.s11, ⟨"m", 33, 200, 9, [(2, 0, [73, 0])]⟩)], err .other) ∧
    getSessionByTEID ex1.1.s11 20 "m" = ok 0 ∧ getSessionByTEID (exSilent ex1.1).1.s11 20 "m" = err .notFound ∧
    getSessionByTEID (exSilent ex1.1).1.s5 21 exP = ok 0 := by
  decide +kernel
example : exSeen exRefused = ([], err .other) ∧ getSessionByTEID exRefused.1.s5 21 exP = err .notFound ∧
    exSeen (exSilent exRefused.1) = ([(.s11, ⟨"m", 33, 200, 9, [(2, 0, [73, 0])]⟩)], err .other) := by
  decide +kernel

/-! ### what goes wrong -/

theorem exStart_runs : Runs defaultGrouped exG exStart := Runs.start _ _ _ _
theorem unused_ex {st : State} {n : Nat} (h : (st.s11.byImsi.all fun x => x.2 != n) = true) : ∀ imsi, st.s11.byImsi.load imsi ≠ some n := by
  intro imsi e
  simp only [SyncMap.load, Option.map_eq_some_iff] at e
  obtain ⟨x, hx, rfl⟩ := e
  have := List.all_eq_true.1 h x (List.mem_of_find?_eq_some hx)
  simp at this

def exLess2 : State × List (Port × Ev) × Res Unit :=
  step defaultGrouped exG ex1.1 (exE 1 30) (.s5 exP (Pgw.exDatagram Tab.createSessionResponse 21 1
    [some (newIE 2 0 [16, 0]), some (newIE 87 1 [0x87, 0, 0, 0, 7, 10, 0, 0, 1]), some (newIE 79 0 [1, 10, 9, 0, 1]), exGroup [newIE 2 0 [16, 0], newIE 73 0 [5]]]))
def exLess3 : State × List (Port × Ev) × Res Unit := step defaultGrouped exG exLess2.1 (exE 1 40) (.wake 0)

/-- **C100** departure: if the P-GW's answer to the attach has no F-TEID for user data, the attach is reported to the MME as successful, and
the MME's Modify Bearer Request then crashes the S-GW (s11_handlers.go:294, RemoteAddress of the bearer is nil) -/
theorem C100_modify_wrong : ∃ (p : Cfg) (st : State) (e : Env) (a : Addr) (d : Bytes), Runs defaultGrouped p st ∧
    (step defaultGrouped p st e (.s11 a d)).2.2 = .panic := by
  have h1 : Runs defaultGrouped exG ex1.1 := Runs.step _ _ _ exStart_runs (unused_ex (by decide))
  have h2 : Runs defaultGrouped exG exLess2.1 := Runs.step _ _ _ h1 (unused_ex (by decide +kernel))
  have h3 : Runs defaultGrouped exG exLess3.1 := Runs.step _ _ _ h2 (unused_ex (by decide +kernel))
  exact ⟨exG, exLess3.1, exE 1 50, "m", exMod, h3, by decide +kernel⟩
example : (exSeen exLess3).1.map (fun x => (x.1, x.2.typ, x.2.ies.take 1)) = [(.s11, 33, [(2, 0, [16, 0])])] := by decide +kernel

/-- **C100** departure: anybody who knows the IMSI ends the S11 session of an attached subscriber with one request that is not even complete.
The MME is not told, and the S-GW's session on S5 and the P-GW's stay. -/
theorem C100_intruder_wrong : ∃ (p : Cfg) (st : State) (e : Env) (a : Addr) (d : Bytes), Runs defaultGrouped p st ∧
    getSessionByTEID st.s11 20 "m" = ok 0 ∧ a ≠ "m" ∧ (step defaultGrouped p st e (.s11 a d)).2 = ([], err .other) ∧
    getSessionByTEID (step defaultGrouped p st e (.s11 a d)).1.s11 20 "m" = err .notFound ∧
    getSessionByTEID (step defaultGrouped p st e (.s11 a d)).1.s5 21 exP = ok 0 := by
  have h1 : Runs defaultGrouped exG ex1.1 := Runs.step _ _ _ exStart_runs (unused_ex (by decide))
  have h2 : Runs defaultGrouped exG ex2.1 := Runs.step _ _ _ h1 (unused_ex (by decide +kernel))
  have h3 : Runs defaultGrouped exG ex3.1 := Runs.step _ _ _ h2 (unused_ex (by decide +kernel))
  refine ⟨exG, ex3.1, exE 1 30, "t", Pgw.exDatagram Tab.createSessionRequest 0 9 (exIEs.eraseIdx 1), h3, by decide +kernel, by decide, ?_⟩
  refine ⟨Prod.ext (List.eq_nil_of_length_eq_zero (by decide +kernel)) (by decide +kernel), by decide +kernel, by decide +kernel⟩

/-- **C100** departure: a Delete Session Request for a session whose S5 part is gone (here after a refusal of the P-GW) is not answered, and
the session stays -/
theorem C100_delete_wrong : ∃ (p : Cfg) (st : State) (e : Env) (a : Addr) (d : Bytes), Runs defaultGrouped p st ∧
    getSessionByTEID st.s11 20 a = ok 0 ∧ (step defaultGrouped p st e (.s11 a d)).2 = ([], err .notFound) ∧
    getSessionByTEID (step defaultGrouped p st e (.s11 a d)).1.s11 20 a = ok 0 := by
  have h1 : Runs defaultGrouped exG ex1.1 := Runs.step _ _ _ exStart_runs (unused_ex (by decide))
  have h2 : Runs defaultGrouped exG exRefused.1 := Runs.step _ _ _ h1 (unused_ex (by decide +kernel))
  refine ⟨exG, exRefused.1, exE 1 30, "m", exDel, h2, by decide +kernel, ?_⟩
  exact ⟨Prod.ext (List.eq_nil_of_length_eq_zero (by decide +kernel)) (by decide +kernel), by decide +kernel⟩

end Verif.V2.Sgw

/-! ### cases that meet the hypotheses -/

namespace Verif.V2.Sgw
open Res Send Conn NetIP Spec IPSpec
open Pgw (Says says_get has_of exMsg exMsg_ok exSchema)

theorem exRuns1 : Runs defaultGrouped exG ex1.1 := Runs.step _ _ _ exRuns0 (unused_ex (by decide))
theorem exRuns2 : Runs defaultGrouped exG ex2.1 := Runs.step _ _ _ exRuns1 (unused_ex (by decide +kernel))
theorem exRuns3 : Runs defaultGrouped exG ex3.1 := Runs.step _ _ _ exRuns2 (unused_ex (by decide +kernel))
theorem exRuns4 : Runs defaultGrouped exG ex4.1 := Runs.step _ _ _ exRuns3 (unused_ex (by decide +kernel))
theorem exAttached : Attached ex3.1 0 0 0 0 "m" exP exV 20 21 22 43 7 8 [10, 0, 0, 2] := by
  refine ⟨?_, ?_, ?_, ?_, ?_, ?_, ?_, ?_, ?_⟩
  case refine_4 => intro x hx; rcases hx with h | h <;> rw [h] <;> decide +kernel
  all_goals decide +kernel
theorem exAttached4 : Attached ex4.1 0 0 0 0 "m" exP exV 20 21 22 43 7 8 [10, 0, 0, 2] := by
  refine ⟨?_, ?_, ?_, ?_, ?_, ?_, ?_, ?_, ?_⟩
  case refine_4 => intro x hx; rcases hx with h | h <;> rw [h] <;> decide +kernel
  all_goals decide +kernel
theorem exMod_ok : parseMsg defaultGrouped exMod = ok (exMsg exMod) := exMsg_ok (by decide +kernel)
theorem exMod_schema : (exMsg exMod).schema = Tab.modifyBearerRequest := exSchema _ (by simp [Tab.all]) exMod_ok (by decide +kernel)
theorem exMod_moves : Moves (exMsg exMod) 0 77 [10, 0, 3, 1] := by
  have h : (exMsg exMod).fields 8 = [(exGroup [newIE 73 0 [5], newIE 87 0 [0x80, 0, 0, 0, 77, 10, 0, 3, 1]]).get!] := by decide +kernel
  have hc : (exGroup [newIE 73 0 [5], newIE 87 0 [0x80, 0, 0, 0, 77, 10, 0, 3, 1]]).get!.children = [newIE 73 0 [5], newIE 87 0 [0x80, 0, 0, 0, 77, 10, 0, 3, 1]] := by
    decide +kernel
  refine ⟨_, _, has_of exMod_schema (k := 8) (by decide) h, ?_, ?_⟩ <;> rw [hc]
  · exact ⟨_, List.mem_cons_of_mem _ List.mem_cons_self, rfl⟩
  · intro j hj
    rcases List.mem_cons.1 hj with rfl | hj
    · intro h; exact absurd h (by decide)
    · obtain rfl := List.mem_singleton.1 hj
      exact fun _ => ⟨by decide +kernel, by decide +kernel, by decide +kernel⟩
theorem exDel_ok : parseMsg defaultGrouped exDel = ok (exMsg exDel) := exMsg_ok (by decide +kernel)
theorem exDel_schema : (exMsg exDel).schema = Tab.deleteSessionRequest := exSchema _ (by simp [Tab.all]) exDel_ok (by decide +kernel)
theorem exPgw_runs : Pgw.Runs defaultGrouped Pgw.exP exPgw.1 := by
  dsimp only [exPgw]
  exact Pgw.Runs.datagram (Pgw.start fun _ => Pgw.exS0) 0 0 7 8 "10.0.1.2:2123" (exOut ex1) Pgw.exRuns0 Pgw.exFresh0
    (Pgw.exDrawn (exMsg_ok (by decide +kernel)) (by decide) (by decide +kernel))

/-- the P-GW's refusal, cause 94 -/
def exNo : Bytes := Pgw.exDatagram Tab.createSessionResponse 21 1 [some (newIE 2 0 [94, 0])]
theorem exNo_ok : parseMsg defaultGrouped exNo = ok (exMsg exNo) := exMsg_ok (by decide +kernel)
theorem exNo_schema : (exMsg exNo).schema = Tab.createSessionResponse := exSchema _ (by simp [Tab.all]) exNo_ok (by decide +kernel)
theorem exNo_cause : Says (exMsg exNo) "Cause" (IE.cause defaultGrouped) 94 :=
  ⟨newIE 2 0 [94, 0], [], has_of exNo_schema (k := 0) (by decide) (by decide +kernel), by decide +kernel⟩

example := C100_timeout_partial _ exUsual exG _ _ _ _ exOnV4 exStart exRuns0 (exE 0 20) exUnused 20 21 22 rfl (by decide) rfl rfl rfl "m" exReq _ exReq_ok
  exReq_schema (by decide +kernel) (.inl exReq_teid) exV exReq_asks (exE 1 30) rfl
example := C100_refused_partial _ exUsual exG _ _ _ _ exOnV4 exStart exRuns0 (exE 0 20) exUnused 20 21 22 rfl (by decide) rfl (by decide) rfl rfl "m" exReq _
  exReq_ok exReq_schema (by decide +kernel) (.inl exReq_teid) exV exReq_asks exNo _ exNo_ok exNo_schema (by decide +kernel) 94 exNo_cause (by decide)
  (exE 1 30) (exE 1 40) rfl
example := C100_modify_partial _ exUsual exG _ _ _ _ exOnV4 ex3.1 exRuns3 0 0 0 0 "m" exP exV 20 21 22 43 7 8 [10, 0, 0, 2] rfl exAttached exMod _ exMod_ok
  exMod_schema (by decide +kernel) 0 77 [10, 0, 3, 1] rfl exMod_moves (by decide) (exE 1 50) rfl (by decide +kernel) (by decide +kernel)
example := C100_detach_partial _ exUsual exG ex4.1 exRuns4 0 0 0 0 "m" exP exV 20 21 22 43 7 8 (by decide) (by decide) [10, 0, 0, 2] exAttached4
  (by decide +kernel) exDel _ exDel_ok exDel_schema (by decide +kernel) Pgw.exP _ _ Pgw.exOnV4 exPgw.1 exPgw_runs 0 "10.0.1.2:2123" (by decide +kernel)
  (by decide +kernel) 1 1 9 10 (exE 1 60) (exE 1 60) (exE 1 60) rfl rfl
example := C100_life_partial _ exUsual exG _ _ _ _ exOnV4 exStart exRuns0 rfl rfl Pgw.exP _ _ Pgw.exOnV4 _ Pgw.exRuns0 (exE 0 20) (exE 1 30) (exE 1 40)
  exUnused 20 21 22 43 rfl rfl rfl rfl (by decide) (by decide) rfl rfl "m" exReq _ exReq_ok exReq_schema (by decide +kernel) (.inl exReq_teid) exV exReq_asks
  _ exReq_paa 0 0 Pgw.exFresh0 7 8 (by decide) rfl "10.0.1.2:2123" (exE 1 50) rfl exMod _ exMod_ok exMod_schema (by decide +kernel) 0 77 [10, 0, 3, 1] rfl
  exMod_moves (by decide) (exE 1 60) (exE 1 60) (exE 1 60) rfl rfl exDel _ exDel_ok exDel_schema (by decide +kernel) 1 1 9 10
end Verif.V2.Sgw
