import Verif.Props.MmeNetwork
import Verif.Props.SgwRuns
/-
C102, C103: concrete runs of the MME, and what goes wrong.
-/
namespace Verif.V2.Mme
open Res Send Conn NetIP Spec IPSpec Utils
open Sgw (controlAddr userAddr exGroup)

/-! ### an attach through all three -/

/-- the MME at 10.0.2.1, the S-GW at 10.0.1.1, the P-GW at 10.0.0.1 -/
def exM : Cfg := ⟨[48, 48, 49], [48, 49], [97], ipString [10, 0, 2, 1], ipString [10, 0, 1, 1], ipString [10, 0, 0, 1]⟩
def exLoc : Location := ⟨[48, 48, 49], [48, 49], 1, 2⟩
/-- a call: the eNB takes user data at 10.0.3.1, port 2152, with TEID 77 -/
def exA : Attach := ⟨Pgw.exIMSI, [56, 49, 57, 48], [50, 49, 52, 51], ipString [10, 0, 3, 1] ++ colon :: [50, 49, 53, 50], ipString [10, 9, 0, 1], 77, some exLoc⟩
/-- session and bearer objects number `n`, TEID `k` -/
def exE (n : Nat) (k : UInt32) (w : Bool := true) : Env := ⟨n, n, some k, w⟩
abbrev exR := State × List Out × Res Unit
/-- the datagram it sends, if it is one -/
def exOut (r : exR) : Bytes :=
  match r.2.1 with
  | [.s11 (.sent _ d)] => d
  | _ => []
/-- what is sent, as it is read, the answers to calls, and the result -/
structure ExSeen where
  sent : List Pgw.ExSent
  calls : List (Nat × Option (String × UInt32))
  res : Res Unit
  deriving DecidableEq
def exSeen (r : exR) : ExSeen :=
  ⟨r.2.1.filterMap fun x => match x with
    | .s11 (.sent a d) => match parseMsg defaultGrouped d with
      | ok m => some ⟨a, m.hdr.typ, m.hdr.teidAcc, m.hdr.sequence, (List.range 66).flatMap fun j => (m.fields j).map fun i => (i.typ, i.instance', i.payload)⟩
      | _ => none
    | _ => none,
   r.2.1.filterMap fun x => match x with
    | .done i a t => some (i, some (Sgw.text a, t))
    | .failed i => some (i, none)
    | _ => none, r.2.2⟩
def exStart : State := start fun _ => Pgw.exS0
def exS : Addr := "10.0.1.1:2123"
def exMA : Addr := "10.0.2.1:2123"
/-- the MME's Create Session Request -/
def d1 : Bytes :=
  [72, 32, 0, 230, 0, 0, 0, 0, 0, 0, 1, 0, 1, 0, 8, 0, 0, 1, 17, 50, 84, 118, 152, 241, 76, 0, 2, 0, 24, 9, 75, 0, 2, 0, 18, 52, 86,
   0, 51, 0, 255, 0, 241, 16, 17, 17, 34, 34, 0, 241, 16, 17, 17, 51, 51, 0, 241, 16, 17, 17, 68, 68, 0, 241, 16, 85, 85, 0, 241, 16,
   6, 102, 102, 102, 0, 241, 16, 17, 17, 0, 241, 16, 17, 17, 17, 0, 241, 16, 34, 34, 34, 83, 0, 3, 0, 0, 241, 16, 82, 0, 1, 0, 6, 77,
   0, 7, 0, 0, 0, 0, 0, 0, 0, 0, 87, 0, 9, 0, 138, 0, 0, 0, 200, 10, 0, 2, 1, 87, 0, 9, 1, 135, 0, 0, 0, 0, 10, 0, 0, 1, 71, 0, 2,
   0, 1, 97, 128, 0, 1, 0, 0, 99, 0, 1, 0, 1, 79, 0, 5, 0, 1, 10, 9, 0, 1, 127, 0, 1, 0, 0, 72, 0, 8, 0, 0, 0, 0, 0, 0, 0, 0, 0, 93,
   0, 31, 0, 73, 0, 1, 0, 5, 80, 0, 22, 0, 8, 255, 0, 255, 255, 255, 255, 0, 255, 255, 255, 255, 0, 255, 255, 255, 255, 0, 255, 255,
   255, 255, 132, 0, 7, 0, 1, 10, 0, 2, 1, 0, 1, 114, 0, 2, 0, 99, 0]
/-- the S-GW's -/
def d2 : Bytes :=
  [72, 32, 0, 248, 0, 0, 0, 0, 0, 0, 1, 0, 1, 0, 8, 0, 0, 1, 17, 50, 84, 118, 152, 241, 76, 0, 2, 0, 24, 9, 75, 0, 2, 0, 18, 52, 86,
   0, 51, 0, 255, 0, 241, 16, 17, 17, 34, 34, 0, 241, 16, 17, 17, 51, 51, 0, 241, 16, 17, 17, 68, 68, 0, 241, 16, 85, 85, 0, 241, 16,
   6, 102, 102, 102, 0, 241, 16, 17, 17, 0, 241, 16, 17, 17, 17, 0, 241, 16, 34, 34, 34, 83, 0, 3, 0, 0, 241, 16, 82, 0, 1, 0, 6, 77,
   0, 7, 0, 0, 0, 0, 0, 0, 0, 0, 87, 0, 9, 0, 134, 0, 0, 0, 21, 10, 0, 1, 2, 87, 0, 9, 1, 135, 0, 0, 0, 0, 10, 0, 0, 1, 71, 0, 2, 0,
   1, 97, 128, 0, 1, 0, 0, 99, 0, 1, 0, 1, 79, 0, 5, 0, 1, 10, 9, 0, 1, 127, 0, 1, 0, 0, 72, 0, 8, 0, 0, 0, 0, 0, 0, 0, 0, 0, 93, 0,
   44, 0, 73, 0, 1, 0, 5, 87, 0, 9, 2, 132, 0, 0, 0, 22, 10, 0, 1, 4, 80, 0, 22, 0, 73, 255, 0, 0, 0, 0, 0, 0, 0, 0, 0, 0, 0, 0, 0,
   0, 0, 0, 0, 0, 0, 0, 132, 0, 7, 0, 1, 10, 0, 2, 1, 0, 1, 132, 0, 7, 1, 1, 10, 0, 1, 4, 0, 1]
/-- the P-GW's answer -/
def d3 : Bytes :=
  [72, 33, 0, 88, 0, 0, 0, 21, 0, 0, 1, 0, 2, 0, 2, 0, 16, 0, 87, 0, 9, 1, 135, 0, 0, 0, 7, 10, 0, 0, 1, 79, 0, 5, 0, 1, 10, 9, 0,
   1, 127, 0, 1, 0, 2, 93, 0, 32, 0, 2, 0, 2, 0, 16, 0, 73, 0, 1, 0, 5, 87, 0, 9, 2, 133, 0, 0, 0, 8, 10, 0, 0, 2, 94, 0, 4, 0, 0,
   0, 0, 0, 132, 0, 7, 0, 1, 10, 0, 0, 1, 0, 1]
/-- the S-GW's answer -/
def d4 : Bytes :=
  [72, 33, 0, 117, 0, 0, 0, 200, 0, 0, 1, 0, 2, 0, 2, 0, 16, 0, 87, 0, 9, 0, 139, 0, 0, 0, 20, 10, 0, 1, 1, 87, 0, 9, 1, 135, 0, 0,
   0, 7, 10, 0, 0, 1, 79, 0, 5, 0, 1, 10, 9, 0, 1, 127, 0, 1, 0, 2, 93, 0, 37, 0, 2, 0, 2, 0, 16, 0, 73, 0, 1, 0, 5, 87, 0, 9, 2, 133,
   0, 0, 0, 8, 10, 0, 0, 2, 87, 0, 9, 0, 129, 0, 0, 0, 43, 10, 0, 1, 3, 132, 0, 7, 0, 1, 10, 0, 0, 1, 0, 1, 132, 0, 7, 1, 1, 10, 0,
   1, 3, 0, 1]
/-- the MME's Modify Bearer Request -/
def d5 : Bytes :=
  [72, 34, 0, 47, 0, 0, 0, 20, 0, 0, 2, 0, 77, 0, 7, 0, 0, 0, 0, 0, 0, 0, 0, 93, 0, 24, 0, 73, 0, 1, 0, 5, 87, 0, 9, 0, 128, 0, 0,
   0, 77, 10, 0, 3, 1, 126, 0, 2, 0, 8, 77]
/-- the S-GW's answer -/
def d6 : Bytes :=
  [72, 35, 0, 42, 0, 0, 0, 200, 0, 0, 2, 0, 2, 0, 2, 0, 16, 0, 93, 0, 24, 0, 2, 0, 2, 0, 16, 0, 73, 0, 1, 0, 0, 87, 0, 9, 0, 129, 0,
   0, 0, 43, 10, 0, 1, 3]
def m1 : exR := step defaultGrouped exM exStart (exE 0 200) (.attach 5 exA)
def s1 : Sgw.State × List (Sgw.Port × Ev) × Res Unit := Sgw.step defaultGrouped Sgw.exG Sgw.exStart (Sgw.exE 0 20) (.s11 exMA d1)
def p1 : Conn × List Ev × Res Unit :=
  Pgw.serve defaultGrouped Pgw.exP (Pgw.start fun _ => Pgw.exS0) 0 0 (some 7) (some 8) "10.0.1.2:2123" d2 true
def s2 : Sgw.State × List (Sgw.Port × Ev) × Res Unit :=
  Sgw.step defaultGrouped Sgw.exG s1.1 (Sgw.exE 1 30) (.s5 Sgw.exP d3)
def s3 : Sgw.State × List (Sgw.Port × Ev) × Res Unit := Sgw.step defaultGrouped Sgw.exG s2.1 (Sgw.exE 1 40) (.wake 0)
def m2 : exR := step defaultGrouped exM m1.1 (exE 1 200) (.s11 exS d4)
def m3 : exR := step defaultGrouped exM m2.1 (exE 1 200) (.wake 0)
def s4 : Sgw.State × List (Sgw.Port × Ev) × Res Unit := Sgw.step defaultGrouped Sgw.exG s3.1 (Sgw.exE 1 50) (.s11 exMA d5)
def m4 : exR := step defaultGrouped exM m3.1 (exE 1 200) (.s11 exS d6)
def m5 : exR := step defaultGrouped exM m4.1 (exE 1 200) (.wake 0)

-- the hypotheses hold of it
theorem exUsual : Usual defaultGrouped := ⟨⟨⟨by decide, rfl⟩, rfl⟩, by decide⟩
theorem exProper : Proper exM exA [48, 48, 49] [48, 49] [10, 0, 2, 1] [10, 0, 1, 1] [10, 0, 0, 1] [10, 0, 3, 1] [10, 9, 0, 1] :=
  ⟨by decide, by decide, by decide, ⟨⟨exLoc, rfl, rfl, rfl⟩, by decide⟩, ⟨rfl, [50, 49, 53, 50], rfl, by decide⟩, ⟨rfl, rfl⟩, by decide, by decide,
    ⟨rfl, rfl⟩, ⟨rfl, rfl⟩, ⟨rfl, rfl⟩⟩
-- what one sends the next one gets
example : exOut m1 = d1 := by decide +kernel
example : Sgw.exOut s1 = d2 := by decide +kernel
example : p1.2.1.map (fun x => match x with | .sent a d => (a, d) | _ => ("", [])) = [("10.0.1.2:2123", d3)] := by decide +kernel
example : Sgw.exOut s3 = d4 ∧ Sgw.exOut s4 = d6 := by decide +kernel
example : exOut m3 = d5 := by decide +kernel
-- the Create Session Request
example : (exSeen m1).sent.map (fun x => (x.to', x.typ, x.teid, x.seq)) = [("10.0.1.1:2123", 32, 0, 1)] ∧ (exSeen m1).calls = [] ∧ (exSeen m1).res = ok () ∧
    ((exSeen m1).sent.flatMap (·.ies)).filter (fun x => x.1 ∈ [1, 83, 87, 79]) = [(1, 0, [0, 1, 17, 50, 84, 118, 152, 241]),
      (83, 0, [0, 0xf1, 0x10]), (87, 0, [0x8a, 0, 0, 0, 200, 10, 0, 2, 1]), (87, 1, [0x87, 0, 0, 0, 0, 10, 0, 0, 1]), (79, 0, [1, 10, 9, 0, 1])] := by
  decide +kernel
-- the Modify Bearer Request
example : exSeen m2 = ⟨[], [], ok ()⟩ ∧ exSeen m3 = ⟨[⟨"10.0.1.1:2123", 34, 20, 2, [(77, 0, [0, 0, 0, 0, 0, 0, 0]),
    (93, 0, [73, 0, 1, 0, 5, 87, 0, 9, 0, 0x80, 0, 0, 0, 77, 10, 0, 3, 1, 126, 0, 2, 0, 8, 77])]⟩], [], ok ()⟩ := by
  decide +kernel
-- the answer to the call
example : exSeen m4 = ⟨[], [], ok ()⟩ ∧ exSeen m5 = ⟨[], [(5, some ("10.0.1.3:2152", 43))], ok ()⟩ ∧ m5.1.waiting = [] ∧ m5.1.stuck = 0 ∧
    (m5.1.s11.heap 0).active = true ∧ getSessionByTEID m5.1.s11 200 exS = ok 0 := by
  decide +kernel
-- user data both ways
example : Sgw.exUser s4.1.s1u "10.0.3.1:2152" ([0x30, 255, 0, 3] ++ be32 43 ++ [1, 2, 3]) =
      [some (1, "10.0.0.2:2152", [0x30, 255, 0, 3] ++ be32 8 ++ [1, 2, 3])] ∧
    Sgw.exUser s4.1.s5u "10.0.0.2:2152" ([0x30, 255, 0, 3] ++ be32 22 ++ [4, 5, 6]) =
      [some (0, "10.0.3.1:2152", [0x30, 255, 0, 3] ++ be32 77 ++ [4, 5, 6])] := by
  decide +kernel

-- no answer; a refusal
def exRefused : exR := step defaultGrouped exM m1.1 (exE 1 200) (.s11 exS (Pgw.exDatagram Tab.createSessionResponse 200 1 [some (newIE 2 0 [94, 0])]))
example : exSeen (step defaultGrouped exM m1.1 (exE 1 200) (.expire 0)) = ⟨[], [(5, none)], ok ()⟩ ∧
    exSeen exRefused = ⟨[], [], err .other⟩ ∧ getSessionByTEID m1.1.s11 200 exS = ok 0 ∧ getSessionByTEID exRefused.1.s11 200 exS = err .notFound ∧
    exSeen (step defaultGrouped exM exRefused.1 (exE 1 200) (.expire 0)) = ⟨[], [(5, none)], ok ()⟩ := by
  decide +kernel
-- the answers of this history
example : ∃ st ids outs, History defaultGrouped exM st ids outs ∧ ids = [5] ∧ answers 5 outs = 1 ∧ answers 6 outs = 0 := by
  refine ⟨_, _, _, History.step _ _ _ (exE 1 200) (.expire 0) (History.step _ _ _ (exE 0 200) (.attach 5 exA) (History.start fun _ => Pgw.exS0) (.inl ?_)) (.inl ?_), rfl, ?_, ?_⟩ <;>
    decide +kernel

/-! ### what goes wrong -/

-- a Create Session Response with TEID 0 from anywhere; a call without a location
example : (step defaultGrouped exM m1.1 (exE 1 200) (.s11 "10.6.6.6:2123" (Pgw.exDatagram Tab.createSessionResponse 0 1 [some (newIE 2 0 [16, 0])]))).2.2 = .panic ∧
    (step defaultGrouped exM m1.1 (exE 1 200) (.attach 6 { exA with location := none })).2.2 = .panic := by
  decide +kernel

/-- a second subscriber, whose eNB takes user data at 10.0.4.1 with TEID 88 -/
def exB : Attach := ⟨[50, 48, 49], [56, 49, 57, 49], [50, 49, 52, 52], ipString [10, 0, 4, 1] ++ colon :: [50, 49, 53, 50], ipString [10, 9, 0, 2], 88, some exLoc⟩
/-- the S-GW accepts what was asked with TEID `t` -/
def exYes (t : UInt32) : Bytes := Pgw.exDatagram Tab.createSessionResponse t 1
  [some (newIE 2 0 [16, 0]), some (newIE 87 0 [0x8b, 0, 0, 0, 20, 10, 0, 1, 1]), some (newIE 79 0 [1, 10, 9, 0, 1]),
    exGroup [newIE 2 0 [16, 0], newIE 73 0 [5], newIE 87 0 [0x81, 0, 0, 0, 43, 10, 0, 1, 3]]]
def b1 : exR := step defaultGrouped exM m1.1 (exE 1 201) (.attach 6 exB)
/-- the first call is accepted -/
def b2 : exR := step defaultGrouped exM b1.1 (exE 2 202) (.s11 exS (exYes 200))
def b3 : exR := step defaultGrouped exM b2.1 (exE 2 202) (.wake 0)

theorem runs_b1 : Runs defaultGrouped exM b1.1 := Runs.step _ _ _ (Runs.step _ _ _ (Runs.start _))

theorem next_request {st : State} {p : Cfg} {e : Env} (hw : e.w = true) {id s b : Nat} {itei t : UInt32} {w : Bytes} (h4 : w.length = 4) (hc : st.created = 1)
    (hi : st.waiting[0]? = some ⟨.created, id, s, itei, 0⟩) (h11 : (st.s11.heap s).teids.load 11 = some t) (he : st.enbIP = ipString w)
    (hb : getDefaultBearer st.s11 s = some b) :
    ∃ out m, (step defaultGrouped p st e (.wake 0)).2 = ([.s11 (.sent (st.s11.heap s).peer out)], ok ()) ∧
      parseMsg defaultGrouped (asRead out) = ok m ∧ Sgw.Moves m 0 itei w := by
  obtain ⟨out, m, p1, p2, p3, p4, -, p6⟩ := modify_step (g := defaultGrouped) exUsual
    (st := { st with created := 0, waiting := st.waiting.eraseIdx 0 }) (itei := itei) h4 h11 he hb
  refine ⟨out, m, ?_, p2, moves_of p3 h4 p6⟩
  simp only [step]
  rw [hi]
  simp only
  rw [if_neg (by rw [hc]; decide), next_created rfl]
  unfold afterCreated
  simp only [hc, hw]
  exact congrArg Prod.snd (orFail_ok p1)

/-- **C102** departure: all calls share one place for the eNB's address.  Two subscribers attach through two eNBs, the S-GW accepts the first,
and the MME tells it the first one's TEID with the second one's address: the first subscriber's data goes to the wrong eNB -/
theorem C102_enb_wrong : ∃ (p : Cfg) (st : State) (e : Env) (r : Attach) (a : Addr) (out : Bytes), Runs defaultGrouped p st ∧
    st.waiting[0]? = some ⟨.created, 5, 0, r.itei, 0⟩ ∧ Proper p r [48, 48, 49] [48, 49] [10, 0, 2, 1] [10, 0, 1, 1] [10, 0, 0, 1] [10, 0, 3, 1] [10, 9, 0, 1] ∧
    (step defaultGrouped p st e (.wake 0)).2 = ([.s11 (.sent a out)], ok ()) ∧
    ∃ m, parseMsg defaultGrouped (asRead out) = ok m ∧ Sgw.Moves m 0 r.itei [10, 0, 4, 1] := by
  have h2 : Runs defaultGrouped exM b2.1 := Runs.step _ _ _ runs_b1
  have hw : b2.1.waiting[0]? = some ⟨.created, 5, 0, 77, 0⟩ := by decide +kernel
  have hc : b2.1.created = 1 := by decide +kernel
  have h11 : (b2.1.s11.heap 0).teids.load 11 = some 20 := by decide +kernel
  have he : b2.1.enbIP = ipString [10, 0, 4, 1] := by decide +kernel
  have hb : getDefaultBearer b2.1.s11 0 = some 0 := by decide +kernel
  generalize b2.1 = st at h2 hw hc h11 he hb
  obtain ⟨out, m, q1, q2, q3⟩ := next_request (p := exM) (e := exE 2 202) rfl rfl hc hw h11 he hb
  exact ⟨exM, st, exE 2 202, exA, _, out, h2, hw, exProper, q1, m, q2, q3⟩

/-- the second call is accepted -/
def c2 : exR := step defaultGrouped exM b1.1 (exE 2 202) (.s11 exS (exYes 201))
def c3 : exR := step defaultGrouped exM c2.1 (exE 2 202) (.wake 0)
def c4 : exR := step defaultGrouped exM c3.1 (exE 2 202) (.expire 0)
def c5 : exR := step defaultGrouped exM c4.1 (exE 2 202) (.s11 exS (Pgw.exDatagram Tab.modifyBearerResponse 201 2 [some (newIE 2 0 [16, 0]),
  exGroup [newIE 2 0 [16, 0], newIE 73 0 [0], newIE 87 0 [0x81, 0, 0, 0, 43, 10, 0, 1, 3]]]))
def c6 : exR := step defaultGrouped exM c5.1 (exE 2 202) (.wake 0)

-- both calls fail: the first one takes the token of the second, the second one's time is over
example : exSeen c2 = ⟨[], [], ok ()⟩ ∧ exSeen c3 = ⟨[], [(5, none)], ok ()⟩ ∧ (exSeen c4).calls = [(6, none)] := by decide +kernel

/-- **C102** departure: the S-GW accepts the second of two subscribers; the first one's call fails because of that answer, before the S-GW has
said anything about it, and the second one's call fails for lack of it -/
theorem C102_two_wrong : ∃ (p : Cfg) (st : State) (e : Env), Runs defaultGrouped p st ∧ st.waiting.map (fun x => (x.id, x.errs)) = [(5, 0), (6, 0)] ∧
    (st.s11.heap 1).active = true ∧ (st.s11.heap 0).active = false ∧
    (exSeen (step defaultGrouped p st e (.wake 0))).calls = [(5, none)] ∧
    (exSeen (step defaultGrouped p (step defaultGrouped p st e (.wake 0)).1 e (.expire 0))).calls = [(6, none)] :=
  ⟨exM, c2.1, exE 2 202, Runs.step _ _ _ runs_b1, by decide +kernel, by decide +kernel, by decide +kernel, by decide +kernel, by decide +kernel⟩

/-- **C102** departure: the goroutine of a call that has failed goes on, asks the S-GW to move the bearer, and then waits forever -/
theorem C102_stuck_wrong : ∃ (p : Cfg) (st : State) (e : Env), Runs defaultGrouped p st ∧ st.waiting.map (fun x => (x.id, x.errs)) = [(6, 1)] ∧
    exSeen (step defaultGrouped p st e (.wake 0)) = ⟨[], [], ok ()⟩ ∧ (step defaultGrouped p st e (.wake 0)).1.waiting = [] ∧
    (step defaultGrouped p st e (.wake 0)).1.stuck = st.stuck + 1 :=
  ⟨exM, c5.1, exE 2 202, Runs.step _ _ _ (Runs.step _ _ _ (Runs.step _ _ _ (Runs.step _ _ _ runs_b1))), by decide +kernel, by decide +kernel,
    by decide +kernel, by decide +kernel⟩
example : (exSeen c4).sent.map (fun x => (x.to', x.typ, x.teid)) = [(exS, 34, 20)] ∧ c6.1.stuck = 1 := by decide +kernel

end Verif.V2.Mme

/-! ### cases that meet the hypotheses -/

namespace Verif.V2.Mme
open Res Send Conn NetIP Spec IPSpec
open Pgw (Says says_get has_of exMsg exMsg_ok exSchema)

theorem exHistory : History defaultGrouped exM m1.1 ([] ++ begins (.attach 5 exA)) ([] ++ m1.2.1) := by
  unfold m1
  exact History.step exStart [] [] (exE 0 200) (.attach 5 exA) (History.start fun _ => Pgw.exS0) (.inl (by decide +kernel))
example := C102_answers _ _ _ _ _ exHistory 5
example := C102_once _ _ _ _ _ exHistory 5 (by decide)
example := C102_attach_partial _ exUsual exM exA _ _ _ _ _ _ _ exProper exStart (Runs.start _) (exE 0 200) 5 200 rfl rfl
example := C102_nowhere_wrong defaultGrouped exM exStart (exE 0 200) 5 { exA with location := none } _ _ rfl rfl
example := C102_no_address defaultGrouped exM exStart (exE 0 200) 5 { exA with s1uAddr := [49] } rfl
theorem exRuns1 : Runs defaultGrouped exM m1.1 := Runs.step _ _ _ (Runs.start _)
theorem exWaits : m1.1.waiting[0]? = some ⟨.created, 5, 0, 77, 0⟩ := by decide +kernel
example := C102_timeout defaultGrouped exM m1.1 (exE 1 200) 0 5 0 77 exWaits (by decide +kernel)
/-- after the S-GW's answer to the second subscriber the first one takes it (`c2`) -/
example := C102_token_wrong defaultGrouped exM c2.1 (exE 2 202) 0 5 0 77 (by decide +kernel) (by decide +kernel) (by decide +kernel)
def exNo : Bytes := Pgw.exDatagram Tab.createSessionResponse 200 1 [some (newIE 2 0 [94, 0])]
theorem exNo_ok : parseMsg defaultGrouped exNo = ok (exMsg exNo) := exMsg_ok (by decide +kernel)
theorem exNo_schema : (exMsg exNo).schema = Tab.createSessionResponse := exSchema _ (by simp [Tab.all]) exNo_ok (by decide +kernel)
theorem exNo_cause : Says (exMsg exNo) "Cause" (IE.cause defaultGrouped) 94 :=
  ⟨newIE 2 0 [94, 0], [], has_of exNo_schema (k := 0) (by decide) (by decide +kernel), by decide +kernel⟩
theorem exWaits1 : Waits m1.1 0 0 exS exM exA 200 := by
  constructor <;> decide +kernel
example := C102_refused defaultGrouped exM m1.1 exRuns1 0 5 0 0 77 exS exA 200 (by decide) exWaits1 exWaits exNo _ exNo_ok exNo_schema (by decide +kernel) 94
  exNo_cause (by decide) (exE 1 200) (exE 1 200)
def exForged : Bytes := Pgw.exDatagram Tab.createSessionResponse 0 1 [some (newIE 2 0 [16, 0])]
theorem exForged_ok : parseMsg defaultGrouped exForged = ok (exMsg exForged) := exMsg_ok (by decide +kernel)
example := C102_crash_wrong defaultGrouped exM m1.1 exRuns1 "10.6.6.6:2123" exForged _ exForged_ok (exSchema _ (by simp [Tab.all]) exForged_ok (by decide +kernel))
  (by decide +kernel) (by decide +kernel) (exE 1 200)
example := C103_attach_partial _ exUsual exM exA _ _ _ _ _ _ _ exProper exStart (Runs.start _) 5 (exE 0 200) (exE 1 200) (exE 1 200) (exE 1 200) (exE 1 200) 200 rfl
  rfl rfl Sgw.exG _ _ _ Sgw.exOnV4 Sgw.exStart Sgw.exRuns0 rfl rfl exMA (Sgw.exE 0 20) (Sgw.exE 1 30) (Sgw.exE 1 40) (Sgw.exE 1 50) Sgw.exUnused 20 21 22 43
  rfl rfl rfl rfl rfl rfl rfl Pgw.exP _ Pgw.exOnV4 _ Pgw.exRuns0 0 0 Pgw.exFresh0 7 8 (by decide) rfl "10.0.1.2:2123"
end Verif.V2.Mme
