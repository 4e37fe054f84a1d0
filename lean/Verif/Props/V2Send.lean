import Verif.Proofs.V2Send
/-
C29-C31: sequence numbers of requests and responses (gtpv2/conn.go).
-/
namespace Verif.V2.Send
open Res Spec

/-- an Echo Request with a Recovery IE -/
def exEcho : Message := newMessage defaultGrouped Tab.echoRequest 0 0 [some (.mk 3 1 0 [7] [])]

/-- C29.  Whatever the schedule (any number of goroutines calling SendMessageTo, IncSequence and RespondTo, any
interleaving of their steps), as long as no SendMessageTo has returned an error: all numbers drawn lie in 0..0x7fffff
and two draws fewer than 2^23 apart are different. -/
theorem C29_distinct (g : UInt8 → Bool) (n : UInt32) (hn : n ≤ 0x7fffff) (sched : List Step)
    (hok : ∀ t q, (t, Ret.err q) ∉ (run g (init n) sched).rets) :
    (∀ x ∈ (run g (init n) sched).draws, x ≤ 0x7fffff) ∧
    ∀ i j x y, (run g (init n) sched).draws[i]? = some x → (run g (init n) sched).draws[j]? = some y →
      i < j → j < i + 2 ^ 23 → x ≠ y := by
  have hn' : n.toNat < 2 ^ 23 := by
    have := UInt32.le_iff_toNat_le.1 hn
    have e : (0x7fffff : UInt32).toNat = 0x7fffff := rfl
    simp only [Nat.reducePow]; omega
  have hg : allGood (run g (init n) sched) := by
    rintro ⟨t, r⟩ hr
    cases r with
    | ok q => rfl
    | err q => exact absurd hr (hok t q)
  obtain ⟨_, hd⟩ := counts_run g n hn' sched hg
  generalize (run g (init n) sched).draws = l at hd
  constructor
  · intro x hx
    obtain ⟨i, hi, rfl⟩ := List.getElem_of_mem hx
    apply UInt32.le_iff_toNat_le.2
    rw [hd i hi]
    have e : (0x7fffff : UInt32).toNat = 0x7fffff := rfl
    simp only [Nat.reducePow]; omega
  · intro i j x y hx hy hij hji hxy
    obtain ⟨hi, hx⟩ := List.getElem?_eq_some_iff.1 hx
    obtain ⟨hj, hy⟩ := List.getElem?_eq_some_iff.1 hy
    have e1 := hd i hi
    have e2 := hd j hj
    rw [hx] at e1; rw [hy, ← hxy] at e2
    rw [e1] at e2
    simp only [Nat.reducePow] at *
    omega

/-- C29 on the wire.  Every datagram written by SendMessageTo is the serialisation of a message given to it for that
address, its sequence number octets (located by the T flag) are the number drawn for it, no two datagrams use the same
draw, and successful calls return the number that is in the datagram.  (All of this whether or not sends fail.) -/
theorem C29_wire (g : UInt8 → Bool) (n : UInt32) (sched : List Step) :
    (∀ e ∈ (run g (init n) sched).sent, ∃ q, (run g (init n) sched).draws[e.1]? = some q ∧ seqField e.2.2 = be24 q ∧
      ∃ t m m', Step.send t m e.2.1 ∈ sched ∧ marshalMsg g (setSeq m q) = ok (m', e.2.2)) ∧
    ((run g (init n) sched).sent.map Prod.fst).Nodup ∧
    (run g (init n) sched).sent.map (fun e => seqField e.2.2) =
      ((run g (init n) sched).rets.filterMap fun r => match r.2 with | .ok q => some (be24 q) | .err _ => none) := by
  have h := wire_run g n sched
  refine ⟨?_, h.nodup, ?_⟩
  · intro e he
    obtain ⟨q, h1, h2⟩ := h.sent e he
    exact ⟨q, h1, h2.seqField, h2⟩
  · have h1 : (run g (init n) sched).sent.map (fun e => some (seqField e.2.2)) =
        ((run g (init n) sched).sent.map (fun e => (run g (init n) sched).draws[e.1]?)).map (Option.map be24) := by
      rw [List.map_map]
      apply List.map_congr_left
      intro e he
      obtain ⟨q, h1, h2⟩ := h.sent e he
      simp only [Function.comp, h1, Option.map_some, h2.seqField]
    rw [h.rets] at h1
    have h2 := congrArg (List.filterMap id) h1
    simp only [List.filterMap_map, List.map_map, okSeqs] at h2
    have h3 : (List.filterMap (id ∘ fun e => some (seqField e.2.2)) (run g (init n) sched).sent) =
        (run g (init n) sched).sent.map (fun e => seqField e.2.2) := by
      rw [← List.filterMap_eq_map]; rfl
    rw [h3] at h2
    rw [h2, List.filterMap_filterMap]
    congr 1
    funext r
    cases r.2 <;> rfl

/-- C29 for datagrams: while no send has failed and at most 2^23 numbers have been drawn, no two requests on the wire
have the same sequence number. -/
theorem C29_datagrams_distinct (g : UInt8 → Bool) (n : UInt32) (hn : n ≤ 0x7fffff) (sched : List Step)
    (hok : ∀ t q, (t, Ret.err q) ∉ (run g (init n) sched).rets)
    (hfew : (run g (init n) sched).draws.length ≤ 2 ^ 23) :
    ((run g (init n) sched).sent.map (fun e => seqField e.2.2)).Nodup := by
  obtain ⟨hr, hd⟩ := C29_distinct g n hn sched hok
  obtain ⟨hw, hnd, _⟩ := C29_wire g n sched
  have hle : ∀ x ∈ (run g (init n) sched).draws, x.toNat < 2 ^ 24 := by
    intro x hx
    have := UInt32.le_iff_toNat_le.1 (hr x hx)
    have e : (0x7fffff : UInt32).toNat = 0x7fffff := rfl
    simp only [Nat.reducePow]; omega
  generalize (run g (init n) sched).draws = l at *
  generalize (run g (init n) sched).sent = snt at *
  rw [List.Nodup, List.pairwise_map] at hnd ⊢
  refine hnd.imp_of_mem ?_
  intro a b ha hb hab hs
  obtain ⟨q, hq, hsq, _⟩ := hw a ha
  obtain ⟨q', hq', hsq', _⟩ := hw b hb
  rw [hsq, hsq'] at hs
  have hqq : q = q' := be24_inj (hle q (List.mem_of_getElem? hq)) (hle q' (List.mem_of_getElem? hq')) hs
  have l1 := (List.getElem?_eq_some_iff.1 hq).1
  have l2 := (List.getElem?_eq_some_iff.1 hq').1
  rcases Nat.lt_or_ge a.1 b.1 with h | h
  · exact hd _ _ _ _ hq hq' h (by omega) hqq
  · exact hd _ _ _ _ hq' hq (by omega) (by omega) hqq.symm

/-- two goroutines with a wrap-around in between -/
example : (run defaultGrouped (init 0x7ffffe) [.send 0 exEcho "a", .send 1 exEcho "b", .marshal 1, .marshal 0,
      .write 1 true, .draw, .write 0 true]).sent.map (fun e => (e.2.1, seqField e.2.2)) =
    [("b", [0, 0, 0]), ("a", [0x7f, 0xff, 0xff])] := by decide +kernel

/-- C30, the part that holds: if the calls of SendMessageTo do not overlap, then whichever of them fail (in Marshal or
in the write), the k-th datagram that reaches the wire carries initial value + k + 1 mod 2^23; so failed sends neither
leave gaps nor cause collisions.  Missing: overlapping calls, for which the claim is false (`C30_collision`). -/
theorem C30_sequential_partial (g : UInt8 → Bool) (n : UInt32) (hn : n ≤ 0x7fffff)
    (calls : List (Nat × Message × Addr × Bool)) (s : State)
    (hs : s = run g (init n) (calls.flatMap fun c => call c.1 c.2.1 c.2.2.1 c.2.2.2))
    (hnc : ∀ t, s.pc t ≠ .crashed) :
    s.sent.map (fun e => seqField e.2.2) =
      (List.range s.sent.length).map (fun k => be24 (UInt32.ofNat ((n.toNat + k + 1) % 2 ^ 23))) := by
  have hn' : n.toNat < 2 ^ 23 := by
    have := UInt32.le_iff_toNat_le.1 hn
    have e : (0x7fffff : UInt32).toNat = 0x7fffff := rfl
    simp only [Nat.reducePow]; omega
  have key : (∃ t, s.pc t = .crashed) ∨ Between n.toNat s := by
    rw [hs]; clear hs hnc
    induction calls using List.reverseRecOn with
    | nil =>
      right
      refine ⟨fun _ => rfl, Or.inr hn', ?_, rfl⟩
      show norm n = _
      unfold norm; rw [if_neg]
      · exact (Nat.mod_eq_of_lt hn').symm
      · rintro rfl; revert hn'; decide
    | append_singleton d c ih =>
      rw [List.flatMap_append, run_append]
      simp only [List.flatMap_cons, List.flatMap_nil, List.append_nil]
      rcases ih with ⟨t, ht⟩ | ih
      · exact Or.inl ⟨t, crash_run g _ _ t ht⟩
      · rcases call_spec g n.toNat _ c.1 c.2.1 c.2.2.1 c.2.2.2 ih with h | h
        · exact Or.inl ⟨_, h⟩
        · exact Or.inr h
  rcases key with ⟨t, ht⟩ | key
  · exact absurd ht (hnc t)
  · exact key.wire

example : (run defaultGrouped (init 0x7fffff) ([(0, exEcho, "a", false), (1, exEcho, "b", true), (0, exEcho, "a", false),
      (2, exEcho, "a", true)].flatMap fun c => call c.1 c.2.1 c.2.2.1 c.2.2.2)).sent.map
        (fun e => (e.2.1, seqField e.2.2)) = [("b", [0, 0, 0]), ("a", [0, 0, 1])] := by decide +kernel

/-- C30 is false for overlapping calls: goroutine 0 draws 1, goroutine 1 draws 2 and its request is sent, then
goroutine 0's write fails and rolls the counter back, so goroutine 2 draws 2 again.  Two outstanding requests to the
same peer carry sequence number 2. -/
theorem C30_collision :
    ∃ sched, (run defaultGrouped (init 0) sched).sent.map (fun e => (e.1, e.2.1, seqField e.2.2)) =
      [(1, "peer", [0, 0, 2]), (2, "peer", [0, 0, 2])] :=
  ⟨[.send 0 exEcho "peer", .send 1 exEcho "peer", .marshal 1, .write 1 true, .marshal 0, .write 0 false, .rollback 0,
    .send 2 exEcho "peer", .marshal 2, .write 2 true], by decide +kernel⟩

/-- C31.  RespondTo writes at most one datagram, to the given address; its sequence number octets are those of the
request; nothing else changes, in particular no sequence number is drawn and the counter stays. -/
theorem C31_respond (g : UInt8 → Bool) (s : State) (a : Addr) (received reply : Message) (success : Bool) :
    (∃ l, (step g s (.respond a received reply success)).answered = s.answered ++ l ∧
      (l = [] ∨ ∃ b, l = [(a, b)] ∧ seqField b = be24 received.hdr.sequence)) ∧
    (step g s (.respond a received reply success)).seq = s.seq ∧
    (step g s (.respond a received reply success)).draws = s.draws ∧
    (step g s (.respond a received reply success)).sent = s.sent ∧
    (step g s (.respond a received reply success)).rets = s.rets ∧
    (step g s (.respond a received reply success)).pc = s.pc := by
  simp only [step]
  split
  · rename_i m' b hb
    split
    · refine ⟨⟨[(a, b)], rfl, Or.inr ⟨b, rfl, ?_⟩⟩, rfl, rfl, rfl, rfl, rfl⟩
      exact marshal_seqField g (setSeq reply received.hdr.sequence) _ _ hb
    · exact ⟨⟨[], by simp, Or.inl rfl⟩, rfl, rfl, rfl, rfl, rfl⟩
  · exact ⟨⟨[], by simp, Or.inl rfl⟩, rfl, rfl, rfl, rfl, rfl⟩

/-- C31 from datagram to datagram: if the request was parsed from octets `req`, the octets of the reply carry the same
sequence number field as `req`, whatever the reply message is; and whenever the reply is serialisable and the write
succeeds, it is sent. -/
theorem C31_octets (g : UInt8 → Bool) (s : State) (a : Addr) (req : Bytes) (received reply m' : Message) (b : Bytes)
    (hp : parseMsg g req = ok received) (hm : response g received reply = ok (m', b)) :
    (step g s (.respond a received reply true)).answered = s.answered ++ [(a, b)] ∧ seqField b = seqField req := by
  refine ⟨by simp only [step, hm, if_true], ?_⟩
  rw [marshal_seqField g (setSeq reply received.hdr.sequence) _ _ hm]
  obtain ⟨_, ⟨tail, ht⟩, _⟩ := C12_dispatch_faithful g req received hp
  rw [ht, seqField_encH]
  rfl

/-- C31, the response is otherwise the message given: the same header fields and information elements. -/
theorem C31_only_sequence (m : Message) (n : UInt32) :
    (setSeq m n).schema = m.schema ∧ (setSeq m n).fields = m.fields ∧
    (setSeq m n).hdr = { m.hdr with seq := n } := ⟨rfl, rfl, rfl⟩

example : (match parseMsg defaultGrouped [0x48, 1, 0, 13, 0, 0, 0, 9, 0xab, 0xcd, 0xef, 0, 3, 0, 1, 0, 5] with
    | ok r => (step defaultGrouped (init 3) (.respond "peer" r exEcho true)).answered
    | _ => []) = [("peer", [0x40, 1, 0, 9, 0xab, 0xcd, 0xef, 0, 3, 0, 1, 0, 7])] := by decide +kernel

end Verif.V2.Send

namespace Verif.V2.Send
open Res Spec
/-! ### cases that meet the hypotheses -/

def exSteps : List Step := [.send 0 exEcho "a", .send 1 exEcho "b", .marshal 1, .marshal 0, .write 1 true, .draw, .write 0 true]
theorem exSteps_rets (t : Nat) (q : UInt32) : (t, Ret.err q) ∉ (run defaultGrouped (init 0x7ffffe) exSteps).rets := by
  have h : (run defaultGrouped (init 0x7ffffe) exSteps).rets.all (fun r => match r.2 with | .err _ => false | _ => true) = true := by
    decide +kernel
  intro hm
  exact absurd (List.all_eq_true.1 h _ hm) (by simp)
example := C29_distinct defaultGrouped 0x7ffffe (by decide) exSteps exSteps_rets
example := C29_datagrams_distinct defaultGrouped 0x7ffffe (by decide) exSteps exSteps_rets
  (by have h : (run defaultGrouped (init 0x7ffffe) exSteps).draws.length = 3 := by decide +kernel
      rw [h]; decide)
def exThree : List (Nat × Message × Addr × Bool) := [(0, exEcho, "a", true), (1, exEcho, "b", true), (0, exEcho, "c", true)]
theorem exThree_fine (t : Nat) :
    (run defaultGrouped (init 0x7ffffe) (exThree.flatMap fun c => call c.1 c.2.1 c.2.2.1 c.2.2.2)).pc t ≠ .crashed := by
  have h : ∀ p : Pc, (match p with | .crashed => false | _ => true) = true → p ≠ .crashed := by intro p hp e; subst e; exact absurd hp (by decide)
  match t with
  | 0 => exact h _ (by decide +kernel)
  | 1 => exact h _ (by decide +kernel)
  | t + 2 => exact h _ rfl
example := C30_sequential_partial defaultGrouped 0x7ffffe (by decide) exThree _ rfl exThree_fine
example := C31_octets defaultGrouped (init 3) "peer" [0x48, 1, 0, 13, 0, 0, 0, 9, 0xab, 0xcd, 0xef, 0, 3, 0, 1, 0, 5] _ exEcho _ _ rfl rfl
end Verif.V2.Send
