import Verif.Model.V2Send
import Verif.Props.V2Msg2
import Mathlib.Data.List.Induction
/-
Helper lemmas on the sending machine.
-/
namespace Verif.V2
open Res Spec

theorem setAt_length {b b' : Bytes} {i : Nat} {x : UInt8} (h : setAt b i x = ok b') : b'.length = b.length := by
  unfold setAt at h
  split at h
  · simp only [ok.injEq] at h; subst h; simp
  · cases h

theorem copyAt_length {b b' src : Bytes} {lo hi : Nat} (h : copyAt b lo hi src = ok b') :
    b'.length = b.length ∧ hi ≤ b.length := by
  unfold copyAt at h
  split at h
  · rename_i hc
    simp only [ok.injEq] at h; subst h
    refine ⟨?_, hc.2⟩
    simp only [List.length_append, List.length_take, List.length_drop]
    omega
  · cases h

/-- a header can only be written into a buffer that is large enough -/
theorem Header.marshalTo_fits {h : Header} {b b' : Bytes} (hm : h.marshalTo b = ok b') : h.marshalLen ≤ b.length := by
  unfold Header.marshalTo at hm
  rw [bind_eq_ok] at hm; obtain ⟨b1, h1, hm⟩ := hm
  rw [bind_eq_ok] at hm; obtain ⟨b2, h2, hm⟩ := hm
  rw [bind_eq_ok] at hm; obtain ⟨b3, h3, hm⟩ := hm
  rw [bind_eq_ok] at hm; obtain ⟨⟨b4, off⟩, h4, hm⟩ := hm
  rw [bind_eq_ok] at hm; obtain ⟨b5, h5, hm⟩ := hm
  rw [bind_eq_ok] at hm; obtain ⟨b6, h6, hm⟩ := hm
  have e1 := setAt_length h1
  have e2 := setAt_length h2
  have e3 := copyAt_length h3
  have e4 : b4.length = b3.length := by
    split at h4
    · rw [bind_eq_ok] at h4; obtain ⟨b7, h7, h4⟩ := h4
      simp only [ok.injEq, Prod.mk.injEq] at h4
      rw [← h4.1]; exact (copyAt_length h7).1
    · simp only [ok.injEq, Prod.mk.injEq] at h4; rw [h4.1]
  have e5 := copyAt_length h5
  have e6 := setAt_length h6
  have e7 := copyAt_length hm
  omega

end Verif.V2

namespace Verif.V2.Send
open Res Spec

/-- the sequence number in a GTPv2-C datagram: octets 9-11, or 5-7 if the T flag (bit 4 of octet 1) is 0 -/
def seqField (b : Bytes) : Bytes :=
  if (b.headD 0).toNat / 8 % 2 = 1 then (b.drop 8).take 3 else (b.drop 4).take 3

theorem seqField_encH (h : Header) (r : Bytes) : seqField (encH h ++ r) = be24 h.seq := by
  obtain ⟨l0, l1, hl, _⟩ := be16_cases h.length
  obtain ⟨a0, a1, a2, a3, ha, _⟩ := be32_cases h.teid
  obtain ⟨s0, s1, s2, hs, _⟩ := be24_cases h.seq
  by_cases hT : h.flags.toNat / 8 % 2 = 1
  · simp [seqField, encH, hl, ha, hs, hT]
  · simp [seqField, encH, hl, ha, hs, hT]

/-- every serialised message carries its sequence number -/
theorem marshal_seqField (g : UInt8 → Bool) (m m' : Message) (b : Bytes) (h : marshalMsg g m = ok (m', b)) :
    seqField b = be24 m.hdr.seq := by
  unfold marshalMsg Msg.marshal at h
  simp only [] at h
  split at h
  · cases h
  unfold Msg.marshalTo at h
  split at h
  · cases h
  obtain ⟨m1, hm1⟩ : ∃ m1, m1 = (if m.schema.reset then { m with hdr := hdrOps.setPayload m.hdr [] } else m) := ⟨_, rfl⟩
  rw [← hm1] at h
  have hs : m1.hdr.seq = m.hdr.seq := by rw [hm1]; split <;> rfl
  simp only [] at h
  split at h
  · cases h
  rw [bind_eq_ok] at h; obtain ⟨p, hp, h⟩ := h
  rw [bind_eq_ok] at h; obtain ⟨b', hb, h⟩ := h
  simp only [ok.injEq, Prod.mk.injEq] at h
  rw [← h.2]
  have hf := Header.marshalTo_fits hb
  have e := Header.marshalTo_eq _ _ hf
  have e2 : hdrOps.mto = Header.marshalTo := rfl
  rw [e2, e] at hb
  simp only [ok.injEq] at hb
  rw [← hb, seqField_encH, ← hs]
  rfl

theorem run_append (g : UInt8 → Bool) (s : State) (a b : List Step) : run g s (a ++ b) = run g (run g s a) b := by
  unfold run; rw [List.foldl_append]

/-- induction over schedules from the right -/
theorem run_induct (g : UInt8 → Bool) (s : State) (P : List Step → State → Prop) (h0 : P [] s)
    (h1 : ∀ d t x, P d t → P (d ++ [x]) (step g t x)) (sched : List Step) : P sched (run g s sched) := by
  induction sched using List.reverseRecOn with
  | nil => exact h0
  | append_singleton d x ih =>
    rw [run_append]
    exact h1 d _ x ih

theorem inc_toNat (x : UInt32) (h : x.toNat < 2 ^ 23) : (inc x).toNat = (x.toNat + 1) % 2 ^ 23 := by
  unfold inc
  have e : (x + 1).toNat = x.toNat + 1 := by
    rw [UInt32.toNat_add]; simp only [Nat.reducePow] at *
    have : (1 : UInt32).toNat = 1 := rfl
    omega
  have e3 : (0x7fffff : UInt32).toNat = 0x7fffff := rfl
  simp only [Nat.reducePow] at *
  split
  · rename_i hc
    have hc' : (0x7fffff : UInt32).toNat < (x + 1).toNat := UInt32.lt_iff_toNat_lt.1 hc
    have e4 : (0 : UInt32).toNat = 0 := rfl
    omega
  · rename_i hc
    have hc' : ¬ (0x7fffff : UInt32).toNat < (x + 1).toNat := fun h => hc (UInt32.lt_iff_toNat_lt.2 h)
    omega

/-- the call returned a number and not an error -/
def Ret.good : Ret → Bool
  | .ok _ => true
  | .err _ => false

/-- no call failed so far -/
def allGood (s : State) : Prop := ∀ r ∈ s.rets, r.2.good = true

/-- while no send fails the k-th draw is the initial value plus k+1 -/
def Counts (n : Nat) (s : State) : Prop :=
  allGood s → s.seq.toNat = (n + s.draws.length) % 2 ^ 23 ∧
    ∀ i (h : i < s.draws.length), (s.draws[i]).toNat = (n + i + 1) % 2 ^ 23

theorem counts_draw (n : Nat) (s s' : State) (h : Counts n s) (hs : s'.seq = inc s.seq) (hd : s'.draws = s.draws ++ [inc s.seq])
    (hr : s'.rets = s.rets) : Counts n s' := by
  intro hg
  unfold allGood at hg
  rw [hr] at hg
  obtain ⟨a, b⟩ := h hg
  have hlt : s.seq.toNat < 2 ^ 23 := by rw [a]; exact Nat.mod_lt _ (by decide)
  have hi := inc_toNat _ hlt
  have key : (inc s.seq).toNat = (n + s.draws.length + 1) % 2 ^ 23 := by
    rw [hi, a]; simp only [Nat.reducePow]; omega
  refine ⟨?_, ?_⟩
  · rw [hs, hd, key, List.length_append]; rfl
  · intro i hi
    simp only [hd]
    rw [List.getElem_append]
    split
    · exact b i _
    · rename_i h1
      simp only [hd, List.length_append, List.length_singleton] at hi
      have : i = s.draws.length := by omega
      subst this
      simpa using key

theorem counts_same (n : Nat) (s s' : State) (h : Counts n s) (hs : s'.seq = s.seq) (hd : s'.draws = s.draws)
    (hr : ∀ r ∈ s.rets, r ∈ s'.rets) : Counts n s' := by
  intro hg
  obtain ⟨a, b⟩ := h (fun r hr' => hg r (hr r hr'))
  refine ⟨by rw [hs, hd]; exact a, ?_⟩
  intro i hi
  simp only [hd]
  exact b i (hd ▸ hi)

theorem counts_step (g : UInt8 → Bool) (n : Nat) (s : State) (x : Step) (h : Counts n s) : Counts n (step g s x) := by
  cases x with
  | draw => exact counts_draw n s _ h rfl rfl rfl
  | send t m a =>
    simp only [step]; split
    · exact counts_draw n s _ h rfl rfl rfl
    · exact h
  | marshal t =>
    simp only [step]; split
    · split <;> exact counts_same n s _ h rfl rfl (fun _ => id)
    · exact h
  | write t success =>
    simp only [step]; split
    · split
      · exact counts_same n s _ h rfl rfl (fun _ hr => List.mem_append_left _ hr)
      · exact counts_same n s _ h rfl rfl (fun _ => id)
    · exact h
  | rollback t =>
    simp only [step]; split
    · intro hg
      have := hg (t, .err (dec s.seq)) (List.mem_append_right _ (by simp))
      simp [Ret.good] at this
    · exact h
  | respond a r m success =>
    simp only [step]; split
    · split
      · exact counts_same n s _ h rfl rfl (fun _ => id)
      · exact h
    · exact h

theorem counts_run (g : UInt8 → Bool) (n : UInt32) (hn : n.toNat < 2 ^ 23) (sched : List Step) :
    Counts n.toNat (run g (init n) sched) := by
  refine run_induct g (init n) (fun _ s => Counts n.toNat s) ?_ (fun _ s x h => counts_step g _ s x h) sched
  intro _
  refine ⟨?_, ?_⟩
  · simp only [init, List.length_nil, Nat.add_zero]
    exact (Nat.mod_eq_of_lt hn).symm
  · intro i hi; simp [init] at hi

/-! ### what is on the wire -/

/-- the position of the draw a goroutine is working with -/
def Pc.pos : Pc → Option Nat
  | .drew i _ _ _ => some i
  | .ready i _ _ _ => some i
  | _ => none

/-- the numbers that successful calls returned -/
def okSeqs (rets : List (Nat × Ret)) : List UInt32 :=
  rets.filterMap fun r => match r.2 with | .ok n => some n | .err _ => none

/-- `b` is the serialisation of a message that was given to SendMessageTo for address `a`, with number `q` -/
def From (g : UInt8 → Bool) (done : List Step) (q : UInt32) (a : Addr) (b : Bytes) : Prop :=
  ∃ t m m', Step.send t m a ∈ done ∧ marshalMsg g (setSeq m q) = ok (m', b)

structure Wire (g : UInt8 → Bool) (done : List Step) (s : State) : Prop where
  drew : ∀ t i q m a, s.pc t = .drew i q m a → s.draws[i]? = some q ∧ ∃ u m0, Step.send u m0 a ∈ done ∧ m = setSeq m0 q
  ready : ∀ t i q b a, s.pc t = .ready i q b a → s.draws[i]? = some q ∧ From g done q a b
  sent : ∀ e ∈ s.sent, ∃ q, s.draws[e.1]? = some q ∧ From g done q e.2.1 e.2.2
  nodup : (s.sent.map Prod.fst).Nodup
  fresh : ∀ t i, (s.pc t).pos = some i → i ∉ s.sent.map Prod.fst
  own : ∀ t u i, (s.pc t).pos = some i → (s.pc u).pos = some i → t = u
  rets : s.sent.map (fun e => s.draws[e.1]?) = (okSeqs s.rets).map some

theorem From.mono {g : UInt8 → Bool} {d : List Step} {q : UInt32} {a : Addr} {b : Bytes} (h : From g d q a b) (x : Step) :
    From g (d ++ [x]) q a b := by
  obtain ⟨t, m, m', h1, h2⟩ := h
  exact ⟨t, m, m', List.mem_append_left _ h1, h2⟩

theorem From.seqField {g : UInt8 → Bool} {d : List Step} {q : UInt32} {a : Addr} {b : Bytes} (h : From g d q a b) :
    seqField b = be24 q := by
  obtain ⟨t, m, m', h1, h2⟩ := h
  exact marshal_seqField g _ _ _ h2

theorem get_append {α} {l : List α} {i : Nat} {q : α} (h : l[i]? = some q) (x : α) : (l ++ [x])[i]? = some q := by
  have hi : i < l.length := by
    rcases Nat.lt_or_ge i l.length with h1 | h1
    · exact h1
    · rw [List.getElem?_eq_none h1] at h; cases h
  rw [List.getElem?_append_left hi]; exact h

theorem Wire.later {g : UInt8 → Bool} {d : List Step} {s : State} (h : Wire g d s) (x : Step) : Wire g (d ++ [x]) s where
  drew t i q m a e := by
    obtain ⟨h1, u, m0, h2, h3⟩ := h.drew t i q m a e
    exact ⟨h1, u, m0, List.mem_append_left _ h2, h3⟩
  ready t i q b a e := ⟨(h.ready t i q b a e).1, (h.ready t i q b a e).2.mono x⟩
  sent e he := by
    obtain ⟨q, h1, h2⟩ := h.sent e he
    exact ⟨q, h1, h2.mono x⟩
  nodup := h.nodup
  fresh := h.fresh
  own := h.own
  rets := h.rets

/-- drawing a number without using it -/
theorem Wire.grow {g : UInt8 → Bool} {d : List Step} {s : State} (h : Wire g d s) (n q : UInt32) :
    Wire g d { s with seq := n, draws := s.draws ++ [q] } where
  drew t i q m a e := by
    obtain ⟨h1, h2⟩ := h.drew t i q m a e
    exact ⟨get_append h1 _, h2⟩
  ready t i q b a e := ⟨get_append (h.ready t i q b a e).1 _, (h.ready t i q b a e).2⟩
  sent e he := by
    obtain ⟨q, h1, h2⟩ := h.sent e he
    exact ⟨q, get_append h1 _, h2⟩
  nodup := h.nodup
  fresh := h.fresh
  own := h.own
  rets := by
    rw [← h.rets]
    apply List.map_congr_left
    intro e he
    obtain ⟨q, h1, h2⟩ := h.sent e he
    simp only [h1, get_append h1]

theorem setPc_eq (pc : Nat → Pc) (t u : Nat) (p : Pc) : setPc pc t p u = if u = t then p else pc u := rfl

/-- a goroutine gives up its draw -/
theorem Wire.drop {g : UInt8 → Bool} {d : List Step} {s : State} (h : Wire g d s) (t : Nat) (p : Pc) (hp : p.pos = none)
    (n : UInt32) : Wire g d { s with seq := n, pc := setPc s.pc t p } where
  drew u i q m a e := by
    simp only [setPc_eq] at e
    split at e
    · subst e; cases hp
    · exact h.drew u i q m a e
  ready u i q b a e := by
    simp only [setPc_eq] at e
    split at e
    · subst e; cases hp
    · exact h.ready u i q b a e
  sent := h.sent
  nodup := h.nodup
  fresh u i e := by
    simp only [setPc_eq] at e
    split at e
    · rw [hp] at e; cases e
    · exact h.fresh u i e
  own u v i e1 e2 := by
    simp only [setPc_eq] at e1 e2
    split at e1
    · rw [hp] at e1; cases e1
    · split at e2
      · rw [hp] at e2; cases e2
      · exact h.own u v i e1 e2
  rets := h.rets

theorem Wire.pos_lt {g : UInt8 → Bool} {d : List Step} {s : State} (h : Wire g d s) (t i : Nat) (e : (s.pc t).pos = some i) :
    i < s.draws.length := by
  cases hp : s.pc t with
  | drew i' q m a =>
    rw [hp] at e; simp only [Pc.pos, Option.some.injEq] at e; subst e
    have := (h.drew t i' q m a hp).1
    exact (List.getElem?_eq_some_iff.1 this).1
  | ready i' q b a =>
    rw [hp] at e; simp only [Pc.pos, Option.some.injEq] at e; subst e
    have := (h.ready t i' q b a hp).1
    exact (List.getElem?_eq_some_iff.1 this).1
  | idle => rw [hp] at e; cases e
  | failing => rw [hp] at e; cases e
  | crashed => rw [hp] at e; cases e

theorem Wire.sent_lt {g : UInt8 → Bool} {d : List Step} {s : State} (h : Wire g d s) (i : Nat) (e : i ∈ s.sent.map Prod.fst) :
    i < s.draws.length := by
  obtain ⟨x, hx, rfl⟩ := List.mem_map.1 e
  obtain ⟨q, h1, _⟩ := h.sent x hx
  exact (List.getElem?_eq_some_iff.1 h1).1

theorem wire_step (g : UInt8 → Bool) (d : List Step) (s : State) (x : Step) (h : Wire g d s) :
    Wire g (d ++ [x]) (step g s x) := by
  have hl := h.later x
  cases x with
  | draw => exact hl.grow _ _
  | send t m a =>
    simp only [step]; split
    · have hg := hl.grow (inc s.seq) (inc s.seq)
      refine ⟨?_, ?_, hg.sent, hg.nodup, ?_, ?_, hg.rets⟩
      · intro u i q m' a' e
        simp only [setPc_eq] at e
        split at e
        · simp only [Pc.drew.injEq] at e
          obtain ⟨rfl, rfl, rfl, rfl⟩ := e
          refine ⟨by simp, t, m, by simp, rfl⟩
        · exact hg.drew u i q m' a' e
      · intro u i q b a' e
        simp only [setPc_eq] at e
        split at e
        · cases e
        · exact hg.ready u i q b a' e
      · intro u i e
        simp only [setPc_eq] at e
        split at e
        · simp only [Pc.pos, Option.some.injEq] at e
          subst e
          intro hc
          exact Nat.lt_irrefl _ (h.sent_lt _ hc)
        · exact h.fresh u i e
      · intro u v i e1 e2
        simp only [setPc_eq] at e1 e2
        split at e1 <;> split at e2
        · rename_i h1 h2; rw [h1, h2]
        · simp only [Pc.pos, Option.some.injEq] at e1; subst e1
          exact absurd (h.pos_lt v _ e2) (Nat.lt_irrefl _)
        · simp only [Pc.pos, Option.some.injEq] at e2; subst e2
          exact absurd (h.pos_lt u _ e1) (Nat.lt_irrefl _)
        · exact h.own u v i e1 e2
    · exact hl
  | marshal t =>
    simp only [step]; split
    · rename_i i n m a hpc
      split
      · rename_i m' b hm
        obtain ⟨hd, u0, m0, hin, hmm⟩ := hl.drew t i n m a hpc
        have hpos : (s.pc t).pos = some i := by rw [hpc]; rfl
        refine ⟨?_, ?_, hl.sent, hl.nodup, ?_, ?_, hl.rets⟩
        · intro u i q m' a' e
          simp only [setPc_eq] at e
          split at e
          · cases e
          · exact hl.drew u i q m' a' e
        · intro u i' q b a' e
          simp only [setPc_eq] at e
          split at e
          · simp only [Pc.ready.injEq] at e
            obtain ⟨rfl, rfl, rfl, rfl⟩ := e
            exact ⟨hd, u0, m0, m', hin, by rw [← hmm]; exact hm⟩
          · exact hl.ready u i' q b a' e
        · intro u i' e
          simp only [setPc_eq] at e
          split at e
          · simp only [Pc.pos, Option.some.injEq] at e
            subst e
            exact h.fresh t i hpos
          · exact h.fresh u i' e
        · intro u v i' e1 e2
          simp only [setPc_eq] at e1 e2
          split at e1 <;> split at e2
          · rename_i h1 h2; rw [h1, h2]
          · rename_i h1 h2
            simp only [Pc.pos, Option.some.injEq] at e1; subst e1 h1
            exact h.own _ _ _ hpos e2
          · rename_i h1 h2
            simp only [Pc.pos, Option.some.injEq] at e2; subst e2 h2
            exact h.own _ _ _ e1 hpos
          · exact h.own u v i' e1 e2
      · exact hl.drop t _ rfl s.seq
      · exact hl.drop t _ rfl s.seq
    · exact hl
  | write t success =>
    simp only [step]; split
    · rename_i i n b a hpc
      split
      · have hw := hl.drop t .idle rfl s.seq
        obtain ⟨hd, hf⟩ := hl.ready t i n b a hpc
        have hpos : (s.pc t).pos = some i := by rw [hpc]; rfl
        have hnew := h.fresh t i hpos
        refine ⟨hw.drew, hw.ready, ?_, ?_, ?_, hw.own, ?_⟩
        · intro e he
          rcases List.mem_append.1 he with he | he
          · exact hl.sent e he
          · simp only [List.mem_singleton] at he; subst he
            exact ⟨n, hd, hf⟩
        · rw [List.map_append, List.nodup_append]
          refine ⟨h.nodup, by simp, ?_⟩
          intro x hx y hy
          simp only [List.map_cons, List.map_nil, List.mem_singleton] at hy
          subst hy
          intro hxy
          exact hnew (hxy ▸ hx)
        · intro u j e
          have e' := e
          simp only [setPc_eq] at e
          split at e
          · cases e
          · rename_i hut
            rw [List.map_append, List.mem_append]
            rintro (hc | hc)
            · exact h.fresh u j e hc
            · simp only [List.map_cons, List.map_nil, List.mem_singleton] at hc
              subst hc
              exact hut (h.own u t _ e hpos)
        · simp only [okSeqs, List.map_append, List.filterMap_append]
          congr 1
          · exact h.rets
          · simp [hd]
      · exact hl.drop t _ rfl s.seq
    · exact hl
  | rollback t =>
    simp only [step]; split
    · have hw := hl.drop t .idle rfl (dec s.seq)
      refine ⟨hw.drew, hw.ready, hw.sent, hw.nodup, hw.fresh, hw.own, ?_⟩
      simp only [okSeqs, List.filterMap_append]
      have := hw.rets
      simpa [okSeqs] using this
    · exact hl
  | respond a r m success =>
    simp only [step]; split
    · split
      · exact ⟨hl.drew, hl.ready, hl.sent, hl.nodup, hl.fresh, hl.own, hl.rets⟩
      · exact hl
    · exact hl

theorem wire_run (g : UInt8 → Bool) (n : UInt32) (sched : List Step) : Wire g sched (run g (init n) sched) := by
  refine run_induct g (init n) (Wire g) ?_ (fun d s x h => wire_step g d s x h) sched
  exact ⟨by simp [init], by simp [init], by simp [init], by simp [init], by simp [init, Pc.pos], by simp [init, Pc.pos],
    by simp [init, okSeqs]⟩

theorem be24_inj {a b : UInt32} (ha : a.toNat < 2 ^ 24) (hb : b.toNat < 2 ^ 24) (h : be24 a = be24 b) : a = b := by
  unfold be24 at h
  simp only [List.cons.injEq, and_true] at h
  obtain ⟨h1, h2, h3⟩ := h
  have e1 := congrArg UInt8.toNat h1
  have e2 := congrArg UInt8.toNat h2
  have e3 := congrArg UInt8.toNat h3
  simp only [UInt8.toNat_ofNat', Nat.reducePow] at *
  apply UInt32.toNat_inj.1
  omega

/-! ### one call after the other -/

/-- the counter, with the value 0xffffffff left by a roll-back from 0 read as "before 0" -/
def norm (x : UInt32) : Nat := if x = 0xffffffff then 0x7fffff else x.toNat

theorem norm_spec (x : UInt32) (h : x = 0xffffffff ∨ x.toNat < 2 ^ 23) :
    (inc x).toNat = (norm x + 1) % 2 ^ 23 ∧ norm (dec (inc x)) = norm x ∧
    (dec (inc x) = 0xffffffff ∨ (dec (inc x)).toNat < 2 ^ 23) ∧ norm (inc x) = (norm x + 1) % 2 ^ 23 := by
  have key : (inc x).toNat = (norm x + 1) % 2 ^ 23 := by
    rcases h with rfl | h
    · decide
    · rw [inc_toNat x h]
      have hx : x ≠ 0xffffffff := by
        rintro rfl; revert h; decide
      unfold norm; rw [if_neg hx]
  have hlt : (inc x).toNat < 2 ^ 23 := by rw [key]; exact Nat.mod_lt _ (by decide)
  have hn : norm x < 2 ^ 23 := by
    unfold norm; split
    · decide
    · rename_i hx; exact h.resolve_left hx
  have hni : norm (inc x) = (inc x).toNat := by
    unfold norm; rw [if_neg]
    intro hx; rw [hx] at hlt; revert hlt; decide
  refine ⟨key, ?_, ?_, hni.trans key⟩
  · unfold dec
    by_cases h0 : inc x = 0
    · have e0 : (inc x).toNat = 0 := by rw [h0]; rfl
      rw [h0]
      have : norm (0 - 1 : UInt32) = 0x7fffff := by decide
      rw [this]
      simp only [Nat.reducePow] at *; omega
    · have hpos : 1 ≤ (inc x).toNat := by
        rcases Nat.eq_zero_or_pos (inc x).toNat with h1 | h1
        · exact absurd (UInt32.toNat_inj.1 (by rw [h1]; rfl)) h0
        · exact h1
      have e1 : (inc x - 1).toNat = (inc x).toNat - 1 := by
        rw [UInt32.toNat_sub_of_le (inc x) 1 (UInt32.le_iff_toNat_le.2 hpos)]; rfl
      have e2 : norm (inc x - 1) = (inc x).toNat - 1 := by
        unfold norm; rw [if_neg, e1]
        intro hx
        have := congrArg UInt32.toNat hx
        rw [e1] at this
        have e3 : (0xffffffff : UInt32).toNat = 0xffffffff := rfl
        simp only [Nat.reducePow] at *
        omega
      rw [e2]
      simp only [Nat.reducePow] at *; omega
  · unfold dec
    by_cases h0 : inc x = 0
    · left; rw [h0]; decide
    · right
      have hpos : 1 ≤ (inc x).toNat := by
        rcases Nat.eq_zero_or_pos (inc x).toNat with h1 | h1
        · exact absurd (UInt32.toNat_inj.1 (by rw [h1]; rfl)) h0
        · exact h1
      have e1 : (inc x - 1).toNat = (inc x).toNat - 1 := by
        rw [UInt32.toNat_sub_of_le (inc x) 1 (UInt32.le_iff_toNat_le.2 hpos)]; rfl
      omega

/-- what a completed series of calls leaves behind, unless a goroutine panicked -/
structure Between (n : Nat) (s : State) : Prop where
  idle : ∀ t, s.pc t = .idle
  range : s.seq = 0xffffffff ∨ s.seq.toNat < 2 ^ 23
  count : norm s.seq = (n + s.sent.length) % 2 ^ 23
  wire : s.sent.map (fun e => seqField e.2.2) =
    (List.range s.sent.length).map (fun k => be24 (UInt32.ofNat ((n + k + 1) % 2 ^ 23)))

theorem crash_step (g : UInt8 → Bool) (s : State) (x : Step) (t : Nat) (h : s.pc t = .crashed) : (step g s x).pc t = .crashed := by
  cases x with
  | draw => exact h
  | respond a r m success => simp only [step]; split; · split <;> exact h
                             · exact h
  | send u m a | marshal u | write u success | rollback u =>
    simp only [step]
    by_cases hu : t = u
    · subst hu; rw [h]; exact h
    · repeat' (first | exact h | (simp only [setPc_eq, hu, if_false]; exact h) | split)

theorem crash_run (g : UInt8 → Bool) (s : State) (xs : List Step) (t : Nat) (h : s.pc t = .crashed) : (run g s xs).pc t = .crashed := by
  induction xs generalizing s with
  | nil => exact h
  | cons x xs ih => exact ih (step g s x) (crash_step g s x t h)

theorem setPc_same (pc : Nat → Pc) (t : Nat) (p : Pc) : setPc pc t p t = p := by simp [setPc]

theorem call_spec (g : UInt8 → Bool) (n : Nat) (s : State) (t : Nat) (m : Message) (a : Addr) (success : Bool)
    (h : Between n s) : (run g s (call t m a success)).pc t = .crashed ∨ Between n (run g s (call t m a success)) := by
  obtain ⟨n1, n2, n3, n4⟩ := norm_spec s.seq h.range
  have hidle := h.idle
  have hrun : run g s (call t m a success) =
      step g (step g (step g (step g s (.send t m a)) (.marshal t)) (.write t success)) (.rollback t) := rfl
  rw [hrun]
  have s1 : step g s (.send t m a) =
      (⟨inc s.seq, setPc s.pc t (.drew s.draws.length (inc s.seq) (setSeq m (inc s.seq)) a), s.draws ++ [inc s.seq],
        s.sent, s.answered, s.rets⟩ : State) := by
    simp only [step, h.idle t]
  rw [s1]
  have failed : ∀ s' : State, s'.seq = inc s.seq → s'.pc t = .failing → (∀ u, u ≠ t → s'.pc u = .idle) → s'.sent = s.sent →
      Between n (step g s' (.rollback t)) := by
    intro s' h1 h2 h3 h4
    simp only [step, h2]
    refine ⟨?_, ?_, ?_, ?_⟩
    · intro u; simp only [setPc_eq]; split
      · rfl
      · rename_i hu; exact h3 u hu
    · rw [h1]; exact n3
    · simp only [h1, h4, n2]; exact h.count
    · simp only [h4]; exact h.wire
  have other : ∀ (p q : Pc) u, u ≠ t → setPc (setPc s.pc t p) t q u = .idle := by
    intro p q u hu; simp [setPc, hu, hidle u]
  cases hm : marshalMsg g (setSeq m (inc s.seq)) with
  | ok r =>
    obtain ⟨m', b⟩ := r
    cases success with
    | true =>
      right
      simp only [step, setPc_same, hm, if_true]
      have hs := marshal_seqField g _ _ _ hm
      refine ⟨?_, ?_, ?_, ?_⟩
      · intro u
        by_cases hu : u = t
        · subst hu; simp [setPc]
        · simp [setPc, hu, hidle u]
      · right; show (inc s.seq).toNat < _; rw [n1]; exact Nat.mod_lt _ (by decide)
      · simp only [n4, h.count, List.length_append, List.length_singleton, Nat.reducePow]; omega
      · simp only [List.map_append, List.length_append, List.length_singleton, List.range_succ, h.wire]
        congr 1
        simp only [List.map_cons, List.map_nil, List.cons.injEq, and_true]
        rw [hs]
        congr 1
        apply UInt32.toNat_inj.1
        show (inc s.seq).toNat = _
        rw [n1, h.count, UInt32.toNat_ofNat']
        simp only [Nat.reducePow]; omega
    | false =>
      right
      apply failed
      · simp [step, hm, setPc_same]
      · simp [step, hm, setPc_same]
      · intro u hu; simp [step, hm, setPc_same]; simp [setPc, hu, hidle u]
      · simp [step, hm, setPc_same]
  | err e =>
    right
    apply failed
    · simp [step, hm, setPc_same]
    · simp [step, hm, setPc_same]
    · intro u hu; simp [step, hm, setPc_same]; simp [setPc, hu, hidle u]
    · simp [step, hm, setPc_same]
  | panic => left; simp [step, hm, setPc_same]
  | diverge => left; simp [step, hm, setPc_same]

end Verif.V2.Send
