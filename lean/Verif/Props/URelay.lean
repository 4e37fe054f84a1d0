import Verif.Model.URelay
import Verif.Props.UConn
/-
C64: the deprecated relay (gtpv1/relay.go).
-/
namespace Verif.V1.URelay
open Res URead UConn

/-- the T-PDUs the goroutine has dealt with: all it read but the one it is working on -/
def done (s : State) (d : Side) : List (Option TPDU) :=
  match s.pc d with
  | .got _ _ => (s.reads d).dropLast
  | .found _ _ _ => (s.reads d).dropLast
  | _ => s.reads d

structure Inv (s : State) (d : Side) : Prop where
  hist : ∃ l : List (Option TPDU × Addr × Bytes), (l.map Prod.fst).Sublist (done s d) ∧ l.map Prod.snd = s.sent d ∧
    ∀ e ∈ l, ∃ o2 h, ((view e.1).1, o2, e.2.1) ∈ s.added ∧ tpduMarshal (newTPDU o2 (view e.1).2) = ok (h, e.2.2)
  got : ∀ t p, s.pc d = .got t p → ∃ r o, s.reads d = r ++ [o] ∧ view o = (t, p)
  found : ∀ o2 a p, s.pc d = .found o2 a p → ∃ r o t, s.reads d = r ++ [o] ∧ view o = (t, p) ∧ (t, o2, a) ∈ s.added
  pairs : ∀ t o2 a, s.pairs.load t = some (o2, a) → (t, o2, a) ∈ s.added

theorem view_short (o : Option TPDU) : (view o).2.length ≤ 1600 := by
  cases o with
  | none => simp [view]
  | some x => simp [view, List.length_take]; omega

theorem inv_step (s : State) (d : Side) (h : Inv s d) (x : Step) : Inv (step s x) d := by
  have hh := h
  obtain ⟨h1, h2, h3, h4⟩ := h
  -- another goroutine moves
  have other : ∀ (s' : State), s'.pc d = s.pc d → s'.reads d = s.reads d → s'.sent d = s.sent d → s'.added = s.added →
      s'.pairs = s.pairs → Inv s' d := by
    intro s' e1 e2 e3 e4 e5
    have hd : done s' d = done s d := by unfold done; rw [e1, e2]
    exact ⟨by rw [hd, e3, e4]; exact h1, by rw [e1, e2]; exact h2, by rw [e1, e2, e4]; exact h3, by rw [e4, e5]; exact h4⟩
  -- this goroutine goes on o2 a place outside the work on a T-PDU
  have same : ∀ p, (∀ t q, p ≠ .got t q) → (∀ a b c, p ≠ .found a b c) → Inv (setPc s d p) d := by
    intro p hp1 hp2
    have hd : done (setPc s d p) d = s.reads d := by
      unfold done setPc
      cases p with
      | got t q => exact absurd rfl (hp1 t q)
      | found a b c => exact absurd rfl (hp2 a b c)
      | _ => simp
    have hsub : (done s d).Sublist (s.reads d) := by
      unfold done
      split <;> first | exact List.dropLast_sublist _ | exact List.Sublist.refl _
    refine ⟨?_, ?_, ?_, h4⟩
    · obtain ⟨l, e1, e2, e3⟩ := h1
      exact ⟨l, by rw [hd]; exact e1.trans hsub, e2, e3⟩
    · intro t q he; simp only [setPc, if_true] at he; exact absurd he (hp1 t q)
    · intro a b c he; simp only [setPc, if_true] at he; exact absurd he (hp2 a b c)
  cases x with
  | addPeer i o a =>
    refine ⟨?_, h2, ?_, ?_⟩
    · obtain ⟨l, e1, e2, e3⟩ := h1
      refine ⟨l, e1, e2, fun e he => ?_⟩
      obtain ⟨o2, h, q1, q2⟩ := e3 e he
      exact ⟨o2, h, List.mem_append_left _ q1, q2⟩
    · intro o2 b p he
      obtain ⟨r, o', t, q1, q2, q3⟩ := h3 o2 b p he
      exact ⟨r, o', t, q1, q2, List.mem_append_left _ q3⟩
    · intro t o2 b he
      show (t, o2, b) ∈ s.added ++ [(i, o, a)]
      simp only [step] at he
      rw [SyncMap.load_store] at he
      by_cases ht : t = i
      · subst ht
        simp only [if_true, Option.some.injEq, Prod.mk.injEq] at he
        simp [he.1, he.2]
      · rw [if_neg ht] at he
        exact List.mem_append_left _ (h4 t o2 b he)
  | close success =>
    simp only [step]
    split
    · split <;> exact other _ rfl rfl rfl rfl rfl
    · exact hh
  | check e =>
    by_cases hd : d = e
    · subst hd
      simp only [step]
      split
      · split <;> exact same _ (by simp) (by simp)
      · exact hh
    · simp only [step]
      split
      · split <;> exact other _ (by simp [setPc, hd]) rfl rfl rfl rfl
      · exact hh
  | read e o =>
    simp only [step]
    split
    · rename_i hp
      by_cases hd : d = e
      · subst hd
        have hdone : done s d = s.reads d := by unfold done; rw [hp]
        refine ⟨?_, ?_, ?_, h4⟩
        · obtain ⟨l, e1, e2, e3⟩ := h1
          refine ⟨l, ?_, e2, e3⟩
          rw [hdone] at e1
          simp only [done, setPc, if_true, List.dropLast_concat]
          exact e1
        · intro t p he
          simp only [setPc, if_true, Pc.got.injEq] at he
          exact ⟨s.reads d, o, by simp, by rw [← he.1, ← he.2]⟩
        · intro a b c he; simp [setPc] at he
      · exact other _ (by simp [setPc, hd]) (by simp [hd]) rfl rfl rfl
    · exact hh
  | lookup e =>
    simp only [step]
    split
    · rename_i t p hp
      by_cases hd : d = e
      · subst hd
        split
        · rename_i o2 a hl
          obtain ⟨r, o, q1, q2⟩ := h2 t p hp
          have hdone : done s d = (s.reads d).dropLast := by unfold done; rw [hp]
          refine ⟨?_, ?_, ?_, h4⟩
          · obtain ⟨l, e1, e2, e3⟩ := h1
            refine ⟨l, ?_, e2, e3⟩
            rw [hdone] at e1
            simpa only [done, setPc, if_true] using e1
          · intro t p he; simp [setPc] at he
          · intro o2' a' p' he
            simp only [setPc, if_true, Pc.found.injEq] at he
            obtain ⟨rfl, rfl, rfl⟩ := he
            exact ⟨r, o, t, q1, q2, h4 _ _ _ hl⟩
        · exact same _ (by simp) (by simp)
      · split <;> exact other _ (by simp [setPc, hd]) rfl rfl rfl rfl
    · exact hh
  | write e success =>
    simp only [step]
    split
    · rename_i o2 a p hp
      by_cases hd : d = e
      · subst hd
        split
        · rename_i hm b hmar
          split
          · obtain ⟨r, o, t, q1, q2, q3⟩ := h3 o2 a p hp
            have hdone : done s d = r := by unfold done; rw [hp, q1]; simp
            refine ⟨?_, ?_, ?_, h4⟩
            · obtain ⟨l, e1, e2, e3⟩ := h1
              refine ⟨l ++ [(o, a, b)], ?_, ?_, ?_⟩
              · simp only [done, setPc, if_true, List.map_append, List.map_cons, List.map_nil]
                rw [q1]
                rw [hdone] at e1
                exact e1.append (List.Sublist.refl _)
              · simp [e2]
              · intro x hx
                rcases List.mem_append.1 hx with hx | hx
                · exact e3 x hx
                · simp only [List.mem_singleton] at hx
                  subst hx
                  refine ⟨o2, hm, ?_, ?_⟩
                  · simp only [q2]; exact q3
                  · simp only [q2]; exact hmar
            · intro t p he; simp [setPc] at he
            · intro a b c he; simp [setPc] at he
          · exact same _ (by simp) (by simp)
        · exact same _ (by simp) (by simp)
        · exact other _ rfl rfl rfl rfl rfl
      · split
        · split
          · exact other _ (by simp [setPc, hd]) rfl (by simp [hd]) rfl rfl
          · exact other _ (by simp [setPc, hd]) rfl rfl rfl rfl
        · exact other _ (by simp [setPc, hd]) rfl rfl rfl rfl
        · exact other _ rfl rfl rfl rfl rfl
    · exact hh

theorem inv_run (l : List Step) (s : State) (d : Side) (h : Inv s d) : Inv (run s l) d := by
  induction l generalizing s with
  | nil => exact h
  | cons x l ih => exact ih _ (inv_step s d h x)

theorem inv_init (d : Side) : Inv init d :=
  ⟨⟨[], by simp [init]⟩, by simp [init], by simp [init], by simp [init, SyncMap.load_nil]⟩

/-- C64, for every interleaving of the two goroutines, AddPeer, Close and arriving T-PDUs: the datagrams written for one
direction belong, one to one and in the same order, to some of the T-PDUs read from that side; each is a T-PDU with the
payload read (its first 1600 octets), the outgoing TEID and the address of an AddPeer call for the TEID read. -/
theorem C64_only_read (l : List Step) (d : Side) :
    ∃ log : List (Option TPDU × Addr × Bytes), (log.map Prod.fst).Sublist ((run init l).reads d) ∧
      log.map Prod.snd = (run init l).sent d ∧
      ∀ e ∈ log, ∃ t o2 h, (t, o2, e.2.1) ∈ (run init l).added ∧ parseMsg e.2.2 = ok (.tpdu h) ∧ h.teid = o2 ∧
        ((∃ x, e.1 = some x ∧ t = x.teid ∧ h.payload = x.payload.take 1600) ∨ (e.1 = none ∧ t = 0 ∧ h.payload = [])) := by
  obtain ⟨⟨log, h1, h2, h3⟩, _⟩ := inv_run l init d (inv_init d)
  refine ⟨log, h1.trans ?_, h2, fun e he => ?_⟩
  · unfold done
    split <;> first | exact List.dropLast_sublist _ | exact List.Sublist.refl _
  · obtain ⟨o2, h, q1, q2⟩ := h3 e he
    have hv := view_short e.1
    obtain ⟨h', b, p1, _, _, p4, p5, p6⟩ := C25_partial o2 (view e.1).2 (by omega)
    rw [q2] at p1
    simp only [ok.injEq, Prod.mk.injEq] at p1
    obtain ⟨rfl, rfl⟩ := p1
    refine ⟨(view e.1).1, o2, h, q1, p4, p5, ?_⟩
    cases he : e.1 with
    | none => exact .inr ⟨rfl, rfl, by rw [p6, he]; rfl⟩
    | some x => exact .inl ⟨x, rfl, rfl, by rw [p6, he]; rfl⟩

theorem closed_step (s : State) (x : Step) (h : x ≠ .close true) : (step s x).closed = s.closed := by
  cases x with
  | close b => cases b with
    | false => rfl
    | true => exact absurd rfl h
  | addPeer i o a => rfl
  | check d => simp only [step]; (repeat' split) <;> rfl
  | read d o => simp only [step]; (repeat' split) <;> rfl
  | lookup d => simp only [step]; (repeat' split) <;> rfl
  | write d b => simp only [step]; (repeat' split) <;> rfl

/-- C64: the relay does not crash the program unless Close is called twice -/
theorem C64_no_crash (l : List Step) (h : l.count (.close true) ≤ 1) : (run init l).crashed = false := by
  have key : ∀ (l : List Step) (s : State), (∀ d, Inv s d) → s.crashed = false →
      l.count (.close true) + (if s.closed then 1 else 0) ≤ 1 → (run s l).crashed = false := by
    intro l
    induction l with
    | nil => exact fun s _ h _ => h
    | cons x l ih =>
      intro s hi hc hn
      have hi' : ∀ d, Inv (step s x) d := fun d => inv_step s d (hi d) x
      refine ih _ hi' ?_ ?_
      · cases x with
        | close b =>
          cases b with
          | false => exact hc
          | true =>
            rw [List.count_cons_self] at hn
            cases hcl : s.closed with
            | false => simp [step, hcl, hc]
            | true => rw [hcl] at hn; simp at hn
        | write d b =>
          simp only [step]
          split
          · rename_i o a p hp
            obtain ⟨_, o', t, _, q2, _⟩ := (hi d).found o a p hp
            have hv := view_short o'
            rw [q2] at hv
            obtain ⟨h', b', p1, _⟩ := C25_partial o p (by simp only at hv; omega)
            rw [p1]
            simp only
            split <;> exact hc
          · exact hc
        | addPeer i o a => exact hc
        | check d => simp only [step]; (repeat' split) <;> exact hc
        | read d o => simp only [step]; (repeat' split) <;> exact hc
        | lookup d => simp only [step]; (repeat' split) <;> exact hc
      · by_cases hx : x = .close true
        · subst hx
          rw [List.count_cons_self] at hn
          have : (if (step s (.close true)).closed = true then 1 else 0) ≤ 1 := by split <;> omega
          omega
        · rw [List.count_cons_of_ne hx] at hn
          rw [closed_step s x hx]
          exact hn
  exact key l init inv_init rfl (by simpa [init] using h)

/-- the datagram for what was read, with the peers `P` -/
def forward (P : SyncMap UInt32 (UInt32 × Addr)) (o : Option TPDU) : Option (Addr × Bytes) :=
  match P.load (view o).1 with
  | some (o2, a) => match tpduMarshal (newTPDU o2 (view o).2) with
    | ok (_, b) => some (a, b)
    | _ => none
  | none => none

/-- what the schedules of `C64_all_forwarded` leave out: changes of the peers and failing writes -/
def Quiet : Step → Prop
  | .addPeer _ _ _ => False
  | .write _ success => success = true
  | _ => True

structure All (P : SyncMap UInt32 (UInt32 × Addr)) (s : State) (d : Side) : Prop where
  pairs : s.pairs = P
  sent : s.sent d = (done s d).filterMap (forward P)
  got : ∀ t p, s.pc d = .got t p → ∃ r o, s.reads d = r ++ [o] ∧ view o = (t, p)
  found : ∀ o2 a p, s.pc d = .found o2 a p → ∃ r o t, s.reads d = r ++ [o] ∧ view o = (t, p) ∧ P.load t = some (o2, a)

theorem all_step (P : SyncMap UInt32 (UInt32 × Addr)) (s : State) (d : Side) (h : All P s d) (x : Step) (hq : Quiet x) :
    All P (step s x) d := by
  have hh := h
  obtain ⟨h1, h2, h3, h4⟩ := h
  have other : ∀ (s' : State), s'.pc d = s.pc d → s'.reads d = s.reads d → s'.sent d = s.sent d → s'.pairs = s.pairs →
      All P s' d := by
    intro s' e1 e2 e3 e5
    have hd : done s' d = done s d := by unfold done; rw [e1, e2]
    exact ⟨by rw [e5, h1], by rw [e3, hd, h2], by rw [e1, e2]; exact h3, by rw [e1, e2]; exact h4⟩
  cases x with
  | addPeer i o a => exact hq.elim
  | close success =>
    simp only [step]
    split
    · split <;> exact other _ rfl rfl rfl rfl
    · exact hh
  | check e =>
    by_cases hd : d = e
    · subst hd
      simp only [step]
      split
      · rename_i hp
        have hdone : done s d = s.reads d := by unfold done; rw [hp]
        rw [hdone] at h2
        split <;> exact ⟨h1, by simpa [done, setPc] using h2, by simp [setPc], by simp [setPc]⟩
      · exact hh
    · simp only [step]
      split
      · split <;> exact other _ (by simp [setPc, hd]) rfl rfl rfl
      · exact hh
  | read e o =>
    simp only [step]
    split
    · rename_i hp
      by_cases hd : d = e
      · subst hd
        have hdone : done s d = s.reads d := by unfold done; rw [hp]
        rw [hdone] at h2
        refine ⟨h1, ?_, ?_, ?_⟩
        · simpa only [done, setPc, if_true, List.dropLast_concat] using h2
        · intro t p he
          simp only [setPc, if_true, Pc.got.injEq] at he
          exact ⟨s.reads d, o, by simp, by rw [← he.1, ← he.2]⟩
        · intro a b c he; simp [setPc] at he
      · exact other _ (by simp [setPc, hd]) (by simp [hd]) rfl rfl
    · exact hh
  | lookup e =>
    simp only [step]
    split
    · rename_i t p hp
      by_cases hd : d = e
      · subst hd
        obtain ⟨r, o, q1, q2⟩ := h3 t p hp
        have hdone : done s d = r := by unfold done; rw [hp, q1]; simp
        rw [hdone] at h2
        split
        · rename_i o2 a hl
          rw [h1] at hl
          refine ⟨h1, ?_, by simp [setPc], ?_⟩
          · simp only [done, setPc, if_true, q1, List.dropLast_concat]; exact h2
          · intro o2' a' p' he
            simp only [setPc, if_true, Pc.found.injEq] at he
            obtain ⟨rfl, rfl, rfl⟩ := he
            exact ⟨r, o, t, q1, q2, hl⟩
        · rename_i hl
          rw [h1] at hl
          refine ⟨h1, ?_, by simp [setPc], by simp [setPc]⟩
          have : forward P o = none := by unfold forward; rw [q2]; simp only [hl]
          simp only [done, setPc, if_true, q1, List.filterMap_append, List.filterMap_cons, this, List.filterMap_nil,
            List.append_nil]
          exact h2
      · split <;> exact other _ (by simp [setPc, hd]) rfl rfl rfl
    · exact hh
  | write e success =>
    have hq : success = true := hq
    subst hq
    simp only [step]
    split
    · rename_i o2 a p hp
      by_cases hd : d = e
      · subst hd
        obtain ⟨r, o, t, q1, q2, q3⟩ := h4 o2 a p hp
        have hdone : done s d = r := by unfold done; rw [hp, q1]; simp
        rw [hdone] at h2
        have hv := view_short o
        rw [q2] at hv
        obtain ⟨h', b, p1, _⟩ := C25_partial o2 p (by simp only at hv; omega)
        rw [p1]
        simp only [if_true]
        refine ⟨h1, ?_, by simp [setPc], by simp [setPc]⟩
        have : forward P o = some (a, b) := by unfold forward; rw [q2]; simp only [q3, p1]
        simp only [done, setPc, if_true, q1, List.filterMap_append, List.filterMap_cons, this, List.filterMap_nil, h2]
      · split
        · split
          · exact other _ (by simp [setPc, hd]) rfl (by simp [hd]) rfl
          · exact other _ (by simp [setPc, hd]) rfl rfl rfl
        · exact other _ (by simp [setPc, hd]) rfl rfl rfl
        · exact other _ rfl rfl rfl rfl
    · exact hh

/-- C64: once the peers are set, and if no write fails, what is written for a direction is exactly: for every T-PDU read from
that side whose TEID has a peer, in order, one T-PDU to the peer (except for the one being worked on). -/
theorem C64_all_forwarded (peers : List (UInt32 × UInt32 × Addr)) (l : List Step) (hq : ∀ x ∈ l, Quiet x) (d : Side) :
    let s0 := run init (peers.map (fun e => .addPeer e.1 e.2.1 e.2.2))
    (run s0 l).sent d = (done (run s0 l) d).filterMap (forward s0.pairs) := by
  intro s0
  have key : ∀ (l : List Step) (s : State), All s0.pairs s d → (∀ x ∈ l, Quiet x) → All s0.pairs (run s l) d := by
    intro l
    induction l with
    | nil => exact fun s h _ => h
    | cons x l ih => exact fun s h hq => ih _ (all_step _ s d h x (hq x (by simp))) (fun y hy => hq y (by simp [hy]))
  have h0 : s0.pc d = .top ∧ s0.reads d = [] ∧ s0.sent d = [] := by
    have : ∀ (ps : List (UInt32 × UInt32 × Addr)) (s : State), s.pc d = .top ∧ s.reads d = [] ∧ s.sent d = [] →
        (run s (ps.map (fun e => .addPeer e.1 e.2.1 e.2.2))).pc d = .top ∧
        (run s (ps.map (fun e => .addPeer e.1 e.2.1 e.2.2))).reads d = [] ∧
        (run s (ps.map (fun e => .addPeer e.1 e.2.1 e.2.2))).sent d = [] := by
      intro ps
      induction ps with
      | nil => exact fun s h => h
      | cons p ps ih => exact fun s h => ih _ h
    exact this peers init ⟨rfl, rfl, rfl⟩
  have hd : done s0 d = [] := by unfold done; rw [h0.1]; exact h0.2.1
  exact (key l s0 ⟨rfl, by rw [h0.2.2, hd]; rfl, by simp [h0.1], by simp [h0.1]⟩ hq).sent

/-- the datagram of `forward`: nothing without a peer; a payload of at most 1600 octets is kept, a longer one is cut -/
theorem C64_forward (P : SyncMap UInt32 (UInt32 × Addr)) (x : TPDU) :
    (P.load x.teid = none → forward P (some x) = none) ∧
    (∀ o2 a, P.load x.teid = some (o2, a) → ∃ b h, forward P (some x) = some (a, b) ∧ parseMsg b = ok (.tpdu h) ∧
      h.teid = o2 ∧ h.payload = x.payload.take 1600 ∧ (x.payload.length ≤ 1600 → h.payload = x.payload)) := by
  constructor
  · intro h
    have h' : P.load (view (some x)).1 = none := h
    unfold forward; rw [h']
  · intro o2 a h
    have h0 : P.load (view (some x)).1 = some (o2, a) := h
    have hv := view_short (some x)
    obtain ⟨h', b, p1, _, _, p4, p5, p6⟩ := C25_partial o2 (view (some x)).2 (by omega)
    have hp : h'.payload = x.payload.take 1600 := p6
    exact ⟨b, h', by unfold forward; rw [h0]; simp only [p1], p4, p5, hp, fun hl => by rw [hp, List.take_of_length_le hl]⟩

/-- what is sent when the connection is closed: an empty T-PDU to the peer of TEID 0 -/
theorem C64_forward_closed (P : SyncMap UInt32 (UInt32 × Addr)) :
    (P.load 0 = none → forward P none = none) ∧
    (∀ o2 a, P.load 0 = some (o2, a) → ∃ b h, forward P none = some (a, b) ∧ parseMsg b = ok (.tpdu h) ∧
      h.teid = o2 ∧ h.payload = []) := by
  constructor
  · intro h
    have h' : P.load (view none).1 = none := h
    unfold forward; rw [h']
  · intro o2 a h
    have h0 : P.load (view none).1 = some (o2, a) := h
    obtain ⟨h', b, p1, _, _, p4, p5, p6⟩ := C25_partial o2 [] (by simp)
    exact ⟨b, h', by unfold forward; rw [h0]; show (match tpduMarshal (newTPDU o2 []) with | ok (_, b) => some (a, b) | _ => none) = _; rw [p1], p4, p5, p6⟩

/-- C64 fails for long T-PDUs: every payload of more than 1600 octets with a peer arrives shorter than it was sent -/
theorem C64_cut (P : SyncMap UInt32 (UInt32 × Addr)) (x : TPDU) (hl : 1600 < x.payload.length) (o2 : UInt32) (a : Addr)
    (hp : P.load x.teid = some (o2, a)) :
    ∃ b h, forward P (some x) = some (a, b) ∧ parseMsg b = ok (.tpdu h) ∧ h.payload.length = 1600 := by
  obtain ⟨b, h, h1, h2, _, h4, _⟩ := (C64_forward P x).2 o2 a hp
  exact ⟨b, h, h1, h2, by rw [h4, List.length_take]; omega⟩

/-- C64: the peer of a TEID is that of the last AddPeer call for it -/
theorem C64_peers (l : List (UInt32 × UInt32 × Addr)) (t : UInt32) :
    (run init (l.map (fun e => .addPeer e.1 e.2.1 e.2.2))).pairs.load t =
      (l.reverse.find? (fun e => e.1 == t)).map Prod.snd := by
  have key : ∀ (l : List (UInt32 × UInt32 × Addr)) (s : State),
      (run s (l.map (fun e => .addPeer e.1 e.2.1 e.2.2))).pairs.load t =
        ((l.reverse.find? (fun e => e.1 == t)).map Prod.snd).or (s.pairs.load t) := by
    intro l
    induction l with
    | nil => intro s; simp [run]
    | cons e l ih =>
      intro s
      have hr : run s ((e :: l).map (fun e => Step.addPeer e.1 e.2.1 e.2.2)) =
        run (step s (.addPeer e.1 e.2.1 e.2.2)) (l.map (fun e => Step.addPeer e.1 e.2.1 e.2.2)) := rfl
      rw [hr, ih]
      simp only [step, SyncMap.load_store, List.reverse_cons, List.find?_append]
      cases l.reverse.find? (fun e => e.1 == t) with
      | some x => simp
      | none =>
        by_cases he : t = e.1
        · simp [he]
        · have : (e.1 == t) = false := by simpa using fun h => he h.symm
          simp [he, this]
  rw [key]
  simp [init, SyncMap.load_nil]

/-- a T-PDU through the relay, from the left, while the right is idle -/
example : (run init [.addPeer 1 0x11 "R", .check .left, .read .left (some ⟨"x", 1, 0, [9, 8]⟩), .lookup .left,
    .write .left true]).sent .left = [("R", [0x30, 255, 0, 2, 0, 0, 0, 0x11, 9, 8])] := by decide +kernel

/-- C64 fails when the two connections hand out the same TEID: there is one table for both directions, so the T-PDU from the
left with TEID 1 goes to the peer meant for T-PDUs from the right with TEID 1 -/
theorem C64_one_table_wrong : (run init [.addPeer 1 0x11 "R", .addPeer 1 0x22 "L", .check .left,
    .read .left (some ⟨"x", 1, 0, [9, 8]⟩), .lookup .left, .write .left true]).sent .left =
    [("L", [0x30, 255, 0, 2, 0, 0, 0, 0x22, 9, 8])] := by decide +kernel

/-- C64 fails when a connection is closed and TEID 0 has a peer: any number of empty T-PDUs is sent, though none was received -/
theorem C64_closed_conn_floods (k : Nat) : ∃ l : List Step,
    (∀ o ∈ (run init (.addPeer 0 0x11 "R" :: l)).reads .left, o = none) ∧
    (run init (.addPeer 0 0x11 "R" :: l)).sent .left = List.replicate k ("R", [0x30, 255, 0, 0, 0, 0, 0, 0x11]) := by
  have key : ∀ k, ∃ l : List Step,
      (run init (.addPeer 0 0x11 "R" :: l)).pc .left = .top ∧ (run init (.addPeer 0 0x11 "R" :: l)).closed = false ∧
      (run init (.addPeer 0 0x11 "R" :: l)).pairs = [(0, 0x11, "R")] ∧
      (∀ o ∈ (run init (.addPeer 0 0x11 "R" :: l)).reads .left, o = none) ∧
      (run init (.addPeer 0 0x11 "R" :: l)).sent .left = List.replicate k ("R", [0x30, 255, 0, 0, 0, 0, 0, 0x11]) := by
    intro k
    induction k with
    | zero => exact ⟨[], by simp [run, step, init, SyncMap.store, SyncMap.delete]⟩
    | succ k ih =>
      obtain ⟨l, h1, h2, h3, h4, h5⟩ := ih
      refine ⟨l ++ [.check .left, .read .left none, .lookup .left, .write .left true], ?_⟩
      have e : ∀ t, run init (.addPeer 0 0x11 "R" :: (l ++ t)) = run (run init (.addPeer 0 0x11 "R" :: l)) t := by
        intro t; unfold run; rw [← List.cons_append, List.foldl_append]
      rw [e]
      generalize run init (.addPeer 0 0x11 "R" :: l) = s at h1 h2 h3 h4 h5
      have hm : ∃ h, tpduMarshal (newTPDU 0x11 []) = ok (h, [0x30, 255, 0, 0, 0, 0, 0, 0x11]) := ⟨_, rfl⟩
      obtain ⟨h, hm⟩ := hm
      have hl : SyncMap.load [((0 : UInt32), ((0x11 : UInt32), "R"))] 0 = some (0x11, "R") := rfl
      simp only [run, List.foldl_cons, List.foldl_nil, step, h1, h2, setPc, if_true, view, h3, hl, hm, Bool.false_eq_true,
        if_false]
      refine ⟨trivial, trivial, trivial, ?_, ?_⟩
      · intro o ho
        rcases List.mem_append.1 ho with ho | ho
        · exact h4 o ho
        · simpa using ho
      · rw [h5, List.replicate_succ']
  obtain ⟨l, _, _, _, h4, h5⟩ := key k
  exact ⟨l, h4, h5⟩

/-- C64 fails at Close: a goroutine that waits in ReadFromGTP still takes the next T-PDU and forwards it; a second Close
crashes the program -/
theorem C64_close_wrong :
    (run init [.addPeer 1 0x11 "R", .check .left, .close true, .read .left (some ⟨"x", 1, 0, [9, 8]⟩), .lookup .left,
      .write .left true]).sent .left = [("R", [0x30, 255, 0, 2, 0, 0, 0, 0x11, 9, 8])] ∧
    (run init [.close true, .close true]).crashed = true := by decide +kernel

/-- C64: after Close at most that one T-PDU is read per side: a goroutine at the top of its loop stops, and a stopped one does
nothing more -/
theorem C64_stops (s : State) (d : Side) (hc : s.closed = true) :
    (s.pc d = .top → (step s (.check d)).pc d = .stopped) ∧
    (∀ x, (step s x).closed = true) ∧
    (s.pc d = .stopped → ∀ l, (run s l).pc d = .stopped ∧ (run s l).reads d = s.reads d ∧ (run s l).sent d = s.sent d) := by
  refine ⟨fun h => by simp [step, h, hc, setPc], ?_, ?_⟩
  · intro x
    cases x <;> simp only [step, setPc] <;> (repeat' split) <;> simp_all
  · intro h l
    clear hc
    induction l generalizing s with
    | nil => exact ⟨h, rfl, rfl⟩
    | cons x l ih =>
      have hs : (step s x).pc d = .stopped ∧ (step s x).reads d = s.reads d ∧ (step s x).sent d = s.sent d := by
        cases x with
        | addPeer i o a => exact ⟨h, rfl, rfl⟩
        | close b => simp only [step]; (repeat' split) <;> exact ⟨h, rfl, rfl⟩
        | check e =>
          by_cases hd : d = e
          · subst hd; simp only [step, h]; exact ⟨trivial, trivial, trivial⟩
          · simp only [step, setPc]; (repeat' split) <;> simp_all
        | read e o =>
          by_cases hd : d = e
          · subst hd; simp only [step, h]; exact ⟨trivial, trivial, trivial⟩
          · simp only [step, setPc]; (repeat' split) <;> simp_all
        | lookup e =>
          by_cases hd : d = e
          · subst hd; simp only [step, h]; exact ⟨trivial, trivial, trivial⟩
          · simp only [step, setPc]; (repeat' split) <;> simp_all
        | write e b =>
          by_cases hd : d = e
          · subst hd; simp only [step, h]; exact ⟨trivial, trivial, trivial⟩
          · simp only [step, setPc]; (repeat' split) <;> simp_all
      obtain ⟨r1, r2, r3⟩ := ih _ hs.1
      exact ⟨r1, r2.trans hs.2.1, r3.trans hs.2.2⟩

/-- C64 fails by default: while Error Indications are enabled, as they are after NewUPlaneConn, no datagram whatsoever makes a
T-PDU available to ReadFromGTP, so nothing is relayed -/
theorem C64_not_by_default (u : UConn) (he : u.errInd = true) (seen : Bool) (a : Addr) (d : Bytes) (w : Bool) :
    ∀ e ∈ (serve u seen a d w).1, ∀ r t q p, e ≠ .offered r t q p := by
  have hsend : ∀ a b w, ∀ e ∈ (writeTo u a b w).1, ∀ r t q p, e ≠ .offered r t q p := by
    intro a b w e hm r t q p
    unfold writeTo at hm
    split at hm <;> simp at hm
    subst hm; simp
  have hresp : ∀ m x w, ∀ e ∈ (respondTo u a m x w).1, ∀ r t q p, e ≠ .offered r t q p := by
    intro m x w e hm r t q p
    unfold respondTo at hm
    split at hm
    · exact hsend _ _ _ e hm r t q p
    all_goals simp at hm
  have herr : ∀ h w, ∀ e ∈ (sendErrorIndication u a h w).1, ∀ r t q p, e ≠ .offered r t q p := by
    intro h w e hm r t q p
    unfold sendErrorIndication at hm
    split at hm
    · exact hsend _ _ _ e hm r t q p
    all_goals simp at hm
  have hh : ∀ m w, ∀ e ∈ (handleMessage u a m w).1, ∀ r t q p, e ≠ .offered r t q p := by
    intro m w e hm r t q p
    unfold handleMessage at hm
    split at hm
    · simp at hm
    · rename_i h _
      cases h with
      | tpdu =>
        simp only [handle, handleTPDU, he, if_true] at hm
        split at hm
        · simp at hm
        · rename_i hd _
          have hx := herr hd w
          split at hm <;> (rename_i q'; rw [q'] at hx; exact hx e hm r t q p)
      | echoRequest =>
        simp only [handle, handleEchoRequest] at hm
        split at hm
        · simp at hm
        · split at hm
          · simp at hm
          · exact hresp _ _ _ e hm r t q p
      | echoResponse => simp [handle] at hm
      | errorIndication => simp [handle] at hm
      | app id => simp only [handle, List.mem_singleton] at hm; subst hm; simp
  have hp : ∀ b w, ∀ e ∈ (parseAndHandle u a b w).1, ∀ r t q p, e ≠ .offered r t q p := by
    intro b w e hm r t q p
    unfold parseAndHandle at hm
    split at hm
    · exact hh _ _ e hm r t q p
    all_goals simp at hm
  have hro : ∀ x b w, ∀ e ∈ (relayOut u x b w).1, ∀ r t q p, e ≠ .offered r t q p := by
    intro x b w e hm r t q p
    unfold relayOut at hm
    (repeat' split at hm) <;> simp at hm
    subst hm; simp
  intro e hm r t q p
  unfold serve process at hm
  (repeat' split at hm) <;> first | exact hp _ _ e hm r t q p | exact hro _ _ _ e hm r t q p | simp at hm

/-- C64 fails for the header: the T-PDU offered for this datagram with sequence number 5 and extension header 0x85 is
forwarded without both -/
theorem C64_header_lost :
    let u := { newUConn 0 none (fun _ => true) with errInd := false }
    let r := serve u false "x" [0x36, 255, 0, 10, 0, 0, 0, 1, 0, 5, 0, 0x85, 1, 0x10, 9, 0, 9, 8] true
    (match r.1 with
     | [.offered a t q p] => (run init [.addPeer 1 0x11 "R", .check .left, .read .left (some ⟨a, t, q, p⟩), .lookup .left,
        .write .left true]).sent .left
     | _ => []) = [("R", [0x30, 255, 0, 2, 0, 0, 0, 0x11, 9, 8])] := by decide +kernel

end Verif.V1.URelay

namespace Verif.V1.URelay
open Res URead UConn
/-! ### cases that meet the hypotheses -/

/-- closed once, and once more in vain -/
example := C64_no_crash [.addPeer 1 0x11 "R", .check .left, .close false, .close true, .check .right] (by decide)
example := C64_all_forwarded [(1, 0x11, "R"), (2, 0x22, "L")] [.check .left, .read .left (some ⟨"x", 1, 0, [9, 8]⟩),
  .check .right, .lookup .left, .read .right (some ⟨"y", 7, 0, [9]⟩), .write .left true, .lookup .right]
  (by simp [Quiet]) .left
example := C64_cut [(1, (0x11, "R"))] ⟨"x", 1, 0, List.replicate 1601 7⟩ (by rw [List.length_replicate]; decide) 0x11 "R" (by decide)
example := C64_stops (run init [.addPeer 1 0x11 "R", .check .left, .close true]) .right (by decide)
example := C64_not_by_default exU (by decide) true "enb"
  [0x30, 255, 0, 4, 0x11, 0x11, 0x11, 0x12, 0xde, 0xad, 0xbe, 0xef] true

end Verif.V1.URelay
