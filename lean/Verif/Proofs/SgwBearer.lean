import Verif.Props.SgwLater
/-
Helper lemmas for Props/SgwBearer.lean: Delete Bearer.
-/
namespace Verif.V2.Sgw
open Res Send Conn NetIP Spec IPSpec
open Pgw (H lift set read need drop respond getTEID respond_delivered has_of typ_of getByTEID_ok)

/-! ### the messages -/

/-- the element that names the bearer goes where it came from -/
theorem named_place {g : UInt8 → Bool} {d : Bytes} {m : Message} (h : parseMsg g d = ok m) (hs : m.schema = Tab.deleteBearerRequest) {i : IE} :
    (i ∈ m.fields 0 → Msg.newAct (ieOps g) Tab.deleteBearerRequest i = .set 0) ∧ (i ∈ m.fields 1 → Msg.newAct (ieOps g) Tab.deleteBearerRequest i = .app 1) := by
  have key : Msg.tableRel (fun a b => (a == .set 0 || !(b.targets.contains 0 || b.frozen.contains 0)) && (a == .app 1 || !(b.targets.contains 1 || b.frozen.contains 1)))
      Tab.deleteBearerRequest.newRules Tab.deleteBearerRequest.newDefault Tab.deleteBearerRequest.unRules Tab.deleteBearerRequest.unDefault = true := by
    decide +kernel
  have key := Msg.tableRel_sound key ((ieOps g).typ i).toNat ((ieOps g).inst i).toNat
  simp only [Bool.and_eq_true, Bool.or_eq_true, beq_iff_eq, Bool.not_eq_true', Bool.or_eq_false_iff] at key
  have T : ∀ {f : Nat}, i ∈ m.fields f → f ∈ (Msg.unAct (ieOps g) Tab.deleteBearerRequest i).targets ∨ f ∈ (Msg.unAct (ieOps g) Tab.deleteBearerRequest i).frozen := by
    intro f hi
    have hf := (C77_v2_start g d m h).home f i hi
    unfold Msg.Home at hf
    rw [← hs]
    exact Msg.apply_target hf
  refine ⟨fun hi => ?_, fun hi => ?_⟩
  · rcases key.1 with e | ⟨h1, h2⟩
    · exact e
    · rcases T hi with e | e <;> unfold Msg.unAct at e
      · simp [e] at h1
      · simp [e] at h2
  · rcases key.2 with e | ⟨h1, h2⟩
    · exact e
    · rcases T hi with e | e <;> unfold Msg.unAct at e
      · simp [e] at h1
      · simp [e] at h2

theorem le_sum {l : List Nat} {n : Nat} (h : n ∈ l) : n ≤ l.sum := by
  induction l with
  | nil => cases h
  | cons x l ih =>
    rw [List.sum_cons]
    rcases List.mem_cons.1 h with rfl | h
    · omega
    · have := ih h; omega

theorem member_size {g : UInt8 → Bool} {d : Bytes} {m : Message} (h : parseMsg g d = ok m) (hs : m.schema = Tab.deleteBearerRequest) {i : IE} {f : Nat}
    (hf : f = 0 ∨ f = 1) (hi : i ∈ m.fields f) : 8 + i.marshalLen g ≤ d.length := by
  have := parsed_size h
  have hm : i ∈ m.schema.orderF.flatMap m.fields := by
    rw [hs]
    exact List.mem_flatMap.2 ⟨f, by rcases hf with rfl | rfl <;> decide, hi⟩
  have := le_sum (List.mem_map_of_mem (f := IE.marshalLen g) hm)
  omega

theorem named_sendable {g : UInt8 → Bool} {d : Bytes} {m : Message} (h : parseMsg g d = ok m) (hs : m.schema = Tab.deleteBearerRequest)
    (hd : d.length ≤ 1496) {i : IE} {f : Nat} (hf : f = 0 ∨ f = 1) (hi : i ∈ m.fields f) :
    Sendable g Tab.deleteBearerRequest [some i] ∧
    ∀ j, Msg.newFields (ieOps g) Tab.deleteBearerRequest [some i] j = if j = f then [i] else [] := by
  refine ⟨⟨by simp [Tab.all], ⟨?_, ?_⟩, ⟨?_, ?_, ?_⟩, ?_⟩, ?_⟩
  · intro x hx
    simp only [List.mem_singleton, Option.some.injEq] at hx
    subst hx
    exact received_wf g d m h _ _ hi
  · have := member_size h hs hf hi
    simp only [List.filterMap_cons, id, List.filterMap_nil, List.map_cons, List.map_nil, List.sum_cons, List.sum_nil]
    omega
  · exact fun e => absurd (congrArg Msg.Schema.typ e) (by decide)
  · exact fun e => absurd (congrArg Msg.Schema.typ e) (by decide)
  · exact fun e => absurd (congrArg Msg.Schema.typ e) (by decide)
  · rintro (e | e) <;> exact absurd (congrArg Msg.Schema.typ e) (by decide)
  · intro j
    have hp := named_place h hs (i := i)
    unfold Msg.newAct at hp
    simp only [Msg.newFields, List.filterMap_cons, id, List.filterMap_nil, Msg.classify, List.foldl_cons, List.foldl_nil]
    rcases hf with rfl | rfl
    · rw [hp.1 hi]
      simp [Msg.Act.apply, Msg.upd, Msg.Fields.empty]
    · rw [hp.2 hi]
      simp [Msg.Act.apply, Msg.upd, Msg.Fields.empty]

theorem bearer_answer (g : UInt8 → Bool) (hg : g 2 = false) (cause : UInt8) (o : Option IE) :
    Sendable g Tab.deleteBearerResponse [some (newCause cause 0 0 0 o)] ∧
    ∃ x, Msg.newFields (ieOps g) Tab.deleteBearerResponse [some (newCause cause 0 0 0 o)] 0 = [x] ∧ x.cause g = ok cause := by
  obtain ⟨p, hp, hl⟩ : ∃ p, newCause cause 0 0 0 o = newIE 2 0 (cause :: p) ∧ p.length ≤ 5 := by
    cases o with
    | none => exact ⟨[0], by simp [newCause], by simp⟩
    | some o => exact ⟨[0, o.typ, 0, 0, 0], by simp [newCause], by simp⟩
  rw [hp]
  have e1 : Msg.sel Tab.deleteBearerResponse.newRules Tab.deleteBearerResponse.newDefault (2 : UInt8).toNat (0 : UInt8).toNat = .set 0 := by decide
  refine ⟨⟨by simp [Tab.all], ⟨?_, ?_⟩, ⟨?_, ?_, ?_⟩, ?_⟩, newIE 2 0 (cause :: p), ?_, ?_⟩
  · intro x hx
    simp only [List.mem_singleton, Option.some.injEq] at hx
    subst hx
    exact C05_new_wf g _ _ _ (by simp; omega) hg
  · simp [newIE, IE.setLength, IE.marshalLen, hg]; omega
  · exact fun e => absurd (congrArg Msg.Schema.typ e) (by decide)
  · exact fun e => absurd (congrArg Msg.Schema.typ e) (by decide)
  · exact fun e => absurd (congrArg Msg.Schema.typ e) (by decide)
  · rintro (e | e) <;> exact absurd (congrArg Msg.Schema.typ e) (by decide)
  · have ht : ∀ p, (ieOps g).typ (newIE 2 0 p) = 2 := fun _ => rfl
    have hi : ∀ p, (ieOps g).inst (newIE 2 0 p) = 0 := fun _ => (by decide : (0 : UInt8) &&& 0x0f = 0)
    simp only [Msg.newFields, List.filterMap_cons, id, List.filterMap_nil, Msg.classify, List.foldl_cons, List.foldl_nil, ht, hi, e1,
      Msg.Act.apply, Msg.upd, Msg.Fields.empty]
    simp
  · simp [IE.cause, IE.valueAsUint8, hg]

/-! ### the table of bearers -/

theorem find_one {c : Conn} {s b : Nat} (h : (c.heap s).bearers = [("default", some b)]) (o : Order) (v : UInt8) :
    lookupBearerByEBI c s o v = (if v = (c.brs b).ebi then ok b else err .notFound) ∧
    removeBearerByEBI c s o v = ok (if v = (c.brs b).ebi then removeBearer c s "default" else c) := by
  have ho : o.1 (c.heap s).bearers = [("default", some b)] := by
    rw [h]; exact List.perm_singleton.1 (o.2 _)
  have hf : findEBI c v (o.1 (c.heap s).bearers) = ok (if v = (c.brs b).ebi then some ("default", b) else none) := by
    rw [ho]
    simp only [findEBI]
    split <;> rfl
  unfold removeBearerByEBI lookupBearerNameByEBI lookupBearerByEBI
  rw [hf]
  split
  · exact ⟨rfl, rfl⟩
  · exact ⟨rfl, rfl⟩

theorem find_none {c : Conn} {s : Nat} (h : (c.heap s).bearers = []) (o : Order) (v : UInt8) : lookupBearerByEBI c s o v = err .notFound := by
  have ho : o.1 (c.heap s).bearers = [] := by
    rw [h]; exact List.perm_nil.1 (o.2 _)
  unfold lookupBearerByEBI
  rw [ho]
  rfl

/-- the connection S5 without the bearer -/
def bare (c : Conn) (s : Nat) : Conn := removeBearer c s "default"

theorem bare_heap (c : Conn) (s b : Nat) (h : (c.heap s).bearers = [("default", some b)]) : (bare c s).heap s = { c.heap s with bearers := [] } := by
  unfold bare removeBearer update
  simp only [if_pos]
  rw [h]
  rfl

theorem drop_bearers {st : State} {e : Env} {s5 s b b5 : Nat} (h11 : (st.s11.heap s).bearers = [("default", some b)])
    (h5 : (st.s5.heap s5).bearers = [("default", some b5)]) {v : UInt8} (hv : v = (st.s5.brs b5).ebi) (hn : v ≠ (st.s11.brs b).ebi) :
    dropBearers e s5 s v st = (with5 st (bare st.s5 s5), [], ok ()) := by
  unfold dropBearers
  refine (on5_go (st := st) (a := ()) (c := bare st.s5 s5) rfl ?_ _).trans ?_
  · rw [(find_one h5 e.o5 v).2, if_pos hv]; rfl
  · refine (on11_eq (st := with5 st (bare st.s5 s5)) (c := st.s11) (ev := []) (r := ok ()) ?_).trans rfl
    show (match removeBearerByEBI st.s11 s e.o11 v with
      | ok c' => (c', [], ok ())
      | err x => (st.s11, [], err x)
      | .panic => (st.s11, [], .panic)
      | .diverge => (st.s11, [], .diverge)) = _
    rw [(find_one h11 e.o11 v).2, if_neg hn]

/-! ### the steps -/

/-- the S-GW's answer without the MME -/
theorem refuse {g : UInt8 → Bool} (hg : g 2 = false) {d : Bytes} {m : Message} (hm : parseMsg g d = ok m) (c₀ : Conn) (a : Addr) (kP : UInt32) (cause : UInt8) (o : Option IE) :
    ∃ out m', (∀ c, respond g a m (newMessage g Tab.deleteBearerResponse kP 0 [some (newCause cause 0 0 0 o)]) true c = (c, [.sent a out], ok ())) ∧
      (∀ A n aP, A.handlers.load 100 = some (.app n) → Reaches A kP aP → ∀ w, serveDatagram g A aP (asRead out) w = ([.call n aP m'], ok ())) ∧
      m'.schema = Tab.deleteBearerResponse ∧ m'.hdr.teidAcc = kP ∧ m'.hdr.sequence = m.hdr.sequence ∧ ∃ x, m'.fields 0 = [x] ∧ x.cause g = ok cause := by
  obtain ⟨hS, x, hx, hc⟩ := bearer_answer g hg cause o
  obtain ⟨out, m', r1, _, _, r3⟩ := respond_delivered hm hS kP rfl (newMessage g Tab.deleteBearerResponse kP 0 [some (newCause cause 0 0 0 o)])
    (fun n => by rw [setSeq_new]) a
  obtain ⟨A, n, aP, hA1, hA2⟩ := someone c₀ 100 kP
  obtain ⟨_, q1, q2, q3, q4⟩ := r3 A n aP hA1 hA2
  refine ⟨out, m', fun c => ?_, fun A n aP h1 h2 => (r3 A n aP h1 h2).1, q1, q2, q3, x, by rw [q4]; exact hx, hc⟩
  unfold respond
  rw [r1]

/-- what the handler reads first -/
structure Found (g : UInt8 → Bool) (st : State) (a : Addr) (m : Message) (s5 s : Nat) (kP mme : UInt32) : Prop where
  on5 : getSessionByTEID st.s5 m.hdr.teidAcc a = ok s5
  on11 : getSessionByIMSI st.s11 (st.s5.heap s5).imsi = ok s
  pgw : (st.s5.heap s5).teids.load 7 = some kP
  mme : (st.s11.heap s).teids.load 10 = some mme
  schema : m.schema = Tab.deleteBearerRequest

theorem handle_bearer {g : UInt8 → Bool} {e : Env} {st : State} {a : Addr} {m : Message} {s5 s : Nat} {kP mme : UInt32} (h : Found g st a m s5 s kP mme) :
    handleDeleteBearer g e a m st = (match (m.fields 0).head?, (m.fields 1).head? with
      | some _, some x => (do
        on5 (respond g a m (newMessage g Tab.deleteBearerResponse kP 0 [some (newCause 64 0 0 0 (some x))]) e.w)
        val (err .other) : G Unit)
      | none, none =>
        on5 (respond g a m (newMessage g Tab.deleteBearerResponse kP 0 [some (newCause 70 0 0 0 (some (newEBI 0)))]) e.w)
      | some x, none => handleDeleteBearer.go g e a m s5 s kP mme x
      | none, some x => handleDeleteBearer.go g e a m s5 s kP mme x) st := by
  unfold handleDeleteBearer
  refine (ask_go h.on5 _).trans ?_
  refine (val_bind rfl _ _).trans ?_
  refine (ask_bind _ _ _).trans ?_
  refine (ask_go h.on11 _).trans ?_
  refine (val_bind rfl _ _).trans ?_
  refine (on5_go (st := st) rfl (getTEID_some h.pgw) _).trans ?_
  refine (on11_go (st := st) rfl (getTEID_some h.mme) _).trans ?_
  rw [if_neg (by rw [h.schema]; decide)]
  rfl

/-- the state after the request was sent on to the MME -/
def afterBearer (st : State) (s5 s : Nat) (a : Addr) (m : Message) (kP : UInt32) (x : IE) : State :=
  { st with n11 := inc st.n11, waiting := st.waiting ++ [.bearer s5 s (inc st.n11) a m kP x] }

theorem go_ok {g : UInt8 → Bool} {e : Env} (hw : e.w = true) {st : State} {a : Addr} {m : Message} {s5 s b5 : Nat} {kP mme : UInt32} {x : IE}
    (hS : Sendable g Tab.deleteBearerRequest [some x]) (hb : (st.s5.heap s5).bearers = [("default", some b5)]) (hv : mustEBI g x = (st.s5.brs b5).ebi) :
    ∃ out m', handleDeleteBearer.go g e a m s5 s kP mme x st = (afterBearer st s5 s a m kP x, [(.s11, .sent (st.s11.heap s).peer out)], ok ()) ∧
      parseMsg g (asRead out) = ok m' ∧ m'.schema = Tab.deleteBearerRequest ∧ m'.hdr.teidAcc = mme ∧ m'.hdr.sequence = inc st.n11 ∧
      m'.fields = Msg.newFields (ieOps g) Tab.deleteBearerRequest [some x] := by
  obtain ⟨out, m', h1, h2, h3, h4, h6, h7⟩ := Pgw.posted hS mme st.n11 (st.s11.heap s).peer rfl
  refine ⟨out, m', ?_, h2, h3, h4, h6, h7⟩
  unfold handleDeleteBearer.go
  refine (ask_go (a := ok b5) (by rw [(find_one hb e.o5 _).1, if_pos hv]) _).trans ?_
  simp only
  refine bind_sent (st' := { st with n11 := inc st.n11 }) (a := inc st.n11) (ev := [(.s11, .sent (st.s11.heap s).peer out)]) ?_ rfl
  show (match deleteBearer st.s11 s g st.n11 mme [some x] e.w with
    | (n, ev, r) => (({ st with n11 := n } : State), ev.map (fun x => (Port.s11, x)), r)) = _
  unfold deleteBearer
  rw [hw, h1]
  rfl

theorem go_unknown {g : UInt8 → Bool} {e : Env} {st : State} {a : Addr} {m : Message} {s5 s b5 : Nat} {kP mme : UInt32} {x : IE} {out : Bytes}
    (hr : ∀ c, respond g a m (newMessage g Tab.deleteBearerResponse kP 0 [some (newCause 64 0 0 0 none)]) e.w c = (c, [.sent a out], ok ()))
    (hb : (st.s5.heap s5).bearers = [("default", some b5)]) (hv : mustEBI g x ≠ (st.s5.brs b5).ebi) :
    handleDeleteBearer.go g e a m s5 s kP mme x st = (st, [(.s5, .sent a out)], err .notFound) := by
  unfold handleDeleteBearer.go
  refine (ask_go (a := err .notFound) (by rw [(find_one hb e.o5 _).1, if_neg hv]) _).trans ?_
  simp only
  exact (bind_sent (on5_eq (hr _)) (st'' := st) (r := err .notFound) rfl)

theorem fail_bearer {g : UInt8 → Bool} {e : Env} {st : State} {a : Addr} {m : Message} {s5 s b b5 : Nat} {kP : UInt32} {x : IE} {out : Bytes}
    (hr : ∀ c, respond g a m (newMessage g Tab.deleteBearerResponse kP 0 [some (newCause 73 0 0 0 none)]) e.w c = (c, [.sent a out], ok ()))
    (h11 : (st.s11.heap s).bearers = [("default", some b)]) (h5 : (st.s5.heap s5).bearers = [("default", some b5)])
    (hv : mustEBI g x = (st.s5.brs b5).ebi) (hn : mustEBI g x ≠ (st.s11.brs b).ebi) :
    failBearer g e s5 s a m kP x st = (with5 st (bare st.s5 s5), [(.s5, .sent a out)], err .other) := by
  unfold failBearer
  refine bind_sent (on5_eq (hr _)) ?_
  exact (bind_eq' (drop_bearers (st := st) h11 h5 hv hn)).trans rfl

theorem finish_bearer {g : UInt8 → Bool} {d : Bytes} {m : Message} (hp : parseMsg g d = ok m) (hs : m.schema = Tab.deleteBearerResponse)
    (hd : d.length ≤ 1496) {st : State} {e : Env} (hw : e.w = true) (a : Addr) {s5 s b b5 : Nat} (req : Message) (hq : req.hdr.sequence.toNat < 2 ^ 24)
    (kP : UInt32) {x : IE} (h11 : (st.s11.heap s).bearers = [("default", some b)]) (h5 : (st.s5.heap s5).bearers = [("default", some b5)])
    (hv : mustEBI g x = (st.s5.brs b5).ebi) (hn : mustEBI g x ≠ (st.s11.brs b).ebi) :
    ∃ out m', finishBearer g e s5 s a req kP x m st = (with5 st (bare st.s5 s5), [(.s5, .sent a out)], ok ()) ∧
      out.length ≤ 1500 ∧ parseMsg g out = ok m' ∧ m'.schema = Tab.deleteBearerResponse ∧ m'.hdr.teidAcc = kP ∧
      m'.hdr.sequence = req.hdr.sequence ∧ m'.fields = m.fields := by
  obtain ⟨m₁, out, m', h1, h2, h3, h4, h5', h6, h7⟩ := resent hp (by rw [hs]; exact fun e => absurd (congrArg Msg.Schema.typ e) (by decide)) hd kP _ hq
  refine ⟨out, m', ?_, h2, h3, h4.trans hs, h5', h6, h7⟩
  unfold finishBearer
  rw [if_neg (by rw [hs]; decide), hw]
  have hr : ∀ c, respond g a req { m with hdr := m.hdr.setTEID kP } true c = (c, [.sent a out], ok ()) := by
    intro c
    unfold respond respondTo response
    rw [h1]
    rfl
  refine bind_sent (st' := st) (on5_eq (hr _)) ?_
  exact drop_bearers h11 h5 hv hn

theorem bearer_deleted {st : State} {a : Addr} {m : Message} {s s5 : Nat} (hs : getSessionByTEID st.s11 m.hdr.teidAcc a = ok s)
    (h5 : getSessionByIMSI st.s5 (st.s11.heap s).imsi = ok s5) (hq : (st.q5 s5).length < 1000) :
    handleBearerDeleted a m st = ({ st with q5 := fun i => if i = s5 then st.q5 i ++ [m] else st.q5 i }, [], ok ()) := by
  unfold handleBearerDeleted
  refine (ask_go hs _).trans ?_
  refine (val_bind rfl _ _).trans ?_
  refine (ask_bind _ _ _).trans ?_
  refine (ask_go h5 _).trans ?_
  refine (val_bind rfl _ _).trans ?_
  unfold pass5
  rw [if_pos hq]

end Verif.V2.Sgw
