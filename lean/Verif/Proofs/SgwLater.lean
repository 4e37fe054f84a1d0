import Verif.Proofs.SgwInv
import Verif.Props.Pgw
/-
Helper lemmas for Props/SgwLater.lean: refusals, time-outs, Modify Bearer and Delete Session.
-/
namespace Verif.V2.Sgw
open Res Send Conn NetIP Spec IPSpec
open Pgw (H lift set read need dropIMSI drop respond getTEID deref mustTEID activateH forget Droppable fteidOf fteidOf_reads fteid_text
  mustTEID_of v4_text lift_bind set_to need_bind read_bind put_new put_update put_updateBearer put_addTEID put_reserve put_register put_drop
  put_heap put_brs put_localIf length_encFTEID' respond_delivered)

/-! ### a received message is sent on with another TEID and number -/

theorem resent {g : UInt8 → Bool} {d : Bytes} {m : Message} (hp : parseMsg g d = ok m) (hne : m.schema ≠ Tab.createSessionRequest)
    (hd : d.length ≤ 1496) (teid q : UInt32) (hq : q.toNat < 2 ^ 24) :
    ∃ m₁ out m', marshalMsg g (setSeq { m with hdr := m.hdr.setTEID teid } q) = ok (m₁, out) ∧
      out.length ≤ 1500 ∧ parseMsg g out = ok m' ∧ m'.schema = m.schema ∧ m'.hdr.teidAcc = teid ∧ m'.hdr.sequence = q ∧
      m'.fields = m.fields := by
  have hm0 := Made.received (g := g) d m hp
  have hfit := C77_v2_start g d m hp
  have hwf := received_wf g d m hp
  have size := parsed_size hp
  have hl := (made_inv g hm0).1.1
  have hM : Made g (setSeq { m with hdr := m.hdr.setTEID teid } q) := .numbered _ (.addressed _ hm0 teid) q hq
  have hbody : (Msg.body (rawEnc g) m.schema m.fields).length = ((m.schema.orderF.flatMap m.fields).map (IE.marshalLen g)).sum := by
    rw [Msg.length_body (ieLaws g) _ hl m.fields (fun _ _ _ => trivial), ← Msg.sum_emit _ hl, Msg.emit_eq]
    rfl
  have hml : Msg.marshalLen hdrOps (ieOps g) (setSeq { m with hdr := m.hdr.setTEID teid } q) =
      12 + (((m.schema.orderF.flatMap m.fields).map (IE.marshalLen g)).sum : Nat) := by
    rw [marshalLen_done g _ (by show m.schema.lensOK = true; exact hl), marshalLen_done_hdr]
    have e1 : (setSeq { m with hdr := m.hdr.setTEID teid } q).schema = m.schema := rfl
    have e2 : (setSeq { m with hdr := m.hdr.setTEID teid } q).fields = m.fields := rfl
    have e3 : (setSeq { m with hdr := m.hdr.setTEID teid } q).hdr.flags.toNat / 8 % 2 = 1 := by
      show (m.hdr.flags ||| ((1 : UInt8) <<< 3)).toNat / 8 % 2 = 1
      exact forall_byte (p := fun f => (f ||| ((1 : UInt8) <<< 3)).toNat / 8 % 2 = 1) (by decide +kernel) _
    rw [e1, e2, if_pos e3, hbody]
    omega
  obtain ⟨m₁, out, m', h1, h2, h3, h4, h5, h6, h7, h8, h9, _⟩ := C77_v2_partial g _ hM hwf hfit (by rw [hml]; omega) (by rw [hml]; omega)
    (fun e => absurd e hne)
  refine ⟨m₁, out, m', h1, ?_, h3, h4, ?_, h9, h5⟩
  · rw [hml] at h2; omega
  · have e3 : m'.hdr.flags = m.hdr.flags ||| ((1 : UInt8) <<< 3) := h6
    have e4 : m'.hdr.teid = teid := h8
    have : m'.hdr.hasTEID = true := by
      unfold Header.hasTEID
      rw [e3]
      exact forall_byte (p := fun f => (((f ||| ((1 : UInt8) <<< 3)) >>> 3) &&& 1 == 1) = true) (by decide +kernel) _
    rw [Header.teidAcc, this, if_pos rfl, e4]

/-! ### a Create Session Response with nothing but a cause -/

theorem create_answer (g : UInt8 → Bool) (hg : g 2 = false) (cause : UInt8) :
    Sendable g Tab.createSessionResponse [some (newCause cause 0 0 0 none)] ∧
    ∃ x, Msg.newFields (ieOps g) Tab.createSessionResponse [some (newCause cause 0 0 0 none)] 0 = [x] ∧ x.cause g = ok cause := by
  have hcz : ∀ c, newCause c 0 0 0 none = newIE 2 0 [c, 0] := by
    intro c; simp [newCause]
  rw [hcz]
  have e1 : Msg.sel Tab.createSessionResponse.newRules Tab.createSessionResponse.newDefault (2 : UInt8).toNat (0 : UInt8).toNat = .set 0 := by decide
  refine ⟨⟨by simp [Tab.all], ⟨?_, ?_⟩, ⟨?_, ?_, ?_⟩, ?_⟩, newIE 2 0 [cause, 0], ?_, ?_⟩
  · intro x hx
    simp only [List.mem_singleton, Option.some.injEq] at hx
    subst hx
    exact C05_new_wf g _ _ _ (by simp) hg
  · simp [newIE, IE.setLength, IE.marshalLen, hg]
  · exact fun e => absurd (congrArg Msg.Schema.typ e) (by decide)
  · exact fun e => absurd (congrArg Msg.Schema.typ e) (by decide)
  · exact fun e => absurd (congrArg Msg.Schema.typ e) (by decide)
  · rintro (e | e) <;> exact absurd (congrArg Msg.Schema.typ e) (by decide)
  · have ht : ∀ p, (ieOps g).typ (newIE 2 0 p) = 2 := fun _ => rfl
    have hi : ∀ p, (ieOps g).inst (newIE 2 0 p) = 0 := fun _ => (by decide : (0 : UInt8) &&& 0x0f = 0)
    simp only [Msg.newFields, List.filterMap_cons, id, List.filterMap_nil, Msg.classify, List.foldl_cons, List.foldl_nil, ht, hi, e1,
      Msg.Act.apply, Msg.upd, Msg.Fields.empty]
    simp
  · simp [IE.cause, IE.valueAsUint8, hg]

/-! ### sessions are removed -/

/-- the connection without the session `s`, whose local TEID is `k` -/
def without (c : Conn) (s : Nat) (k : UInt32) : Conn :=
  { c with byImsi := c.byImsi.delete (c.heap s).imsi, byTeid := c.byTeid.delete k }

theorem drop_eq {c : Conn} {s : Nat} {k : UInt32} (h : (c.heap s).teids.load c.localIf = some k) : drop s c = (without c s k, [], ok ()) := by
  unfold drop removeSession
  simp only [h]
  rfl

theorem without_gone {c : Conn} {s : Nat} (k : UInt32) (a : Addr) : getSessionByTEID (without c s k) k a = err .notFound ∧
    getSessionByIMSI (without c s k) (c.heap s).imsi = err .notFound := by
  constructor
  · unfold getSessionByTEID
    rw [show (without c s k).byTeid.load k = none from by unfold without; simp [SyncMap.load_delete]]
  · unfold getSessionByIMSI
    rw [show (without c s k).byImsi.load (c.heap s).imsi = none from by unfold without; simp [SyncMap.load_delete]]

/-! ### the P-GW does not answer, or refuses -/

theorem fail_step {g : UInt8 → Bool} (hg : g 2 = false) {d : Bytes} {req : Message} (hp : parseMsg g d = ok req) (st : State) (e : Env) (hw : e.w = true)
    (a : Addr) {s : Nat} {k : UInt32} (mme : UInt32) (hk : (st.s11.heap s).teids.load st.s11.localIf = some k) :
    ∃ out m', failCreate g e s a req mme st = (with11 st (without st.s11 s k), [(.s11, .sent a out)], err .other) ∧
      (∀ A n aS, A.handlers.load 33 = some (.app n) → Reaches A mme aS →
        Delivered g A n aS out Tab.createSessionResponse mme req.hdr.sequence [some (newCause 73 0 0 0 none)] m') := by
  obtain ⟨out, m', r1, _, _, r3⟩ := respond_delivered hp (create_answer g hg 73).1 mme rfl
    (newMessage g Tab.createSessionResponse mme 0 [some (newCause 73 0 0 0 none)]) (fun n => by rw [setSeq_new]) a
  refine ⟨out, m', ?_, r3⟩
  unfold failCreate
  rw [hw, r1]
  simp only
  have e1 : on11 (fun c => (c, [Ev.sent a out], ok ())) st = (st, [(.s11, .sent a out)], ok ()) := rfl
  rw [bind_eq e1]
  rw [bind_eq' (on11_eq (drop_eq hk))]
  rfl

theorem refused_step {g : UInt8 → Bool} {st : State} {a : Addr} {m : Message} {s : Nat} (hs : getSessionByTEID st.s5 m.hdr.teidAcc a = ok s)
    (hsc : m.schema = Tab.createSessionResponse) {v : UInt8} (hc : ∃ i r, m.fields 0 = i :: r ∧ i.cause g = ok v) (hv : v ≠ 16) {k5 : UInt32}
    (hk : (st.s5.heap s).teids.load st.s5.localIf = some k5) :
    handleCreated g a m st = (with5 st (without st.s5 s k5), [], err .other) := by
  obtain ⟨i, r, h0, hi⟩ := hc
  unfold handleCreated
  refine (ask_go hs _).trans ?_
  refine (val_bind rfl _ _).trans ?_
  rw [if_neg (by rw [hsc]; decide)]
  refine (need5_bind h0 _ _).trans ?_
  refine (val_bind hi _ _).trans ?_
  rw [if_pos hv]
  refine (on5_eq (c := without st.s5 s k5) (ev := []) (r := err .other) ?_).trans rfl
  show Pgw.H.bind (drop s) _ st.s5 = _
  unfold Pgw.H.bind
  rw [drop_eq hk]
  rfl

/-! ### Delete Session -/

theorem ebi_request (g : UInt8 → Bool) (hg : g 73 = false) (e : UInt8) :
    Sendable g Tab.deleteSessionRequest [some (newEBI e)] ∧
    Msg.newFields (ieOps g) Tab.deleteSessionRequest [some (newEBI e)] 1 = [newEBI e] ∧ (newEBI e).ebi g = ok (e &&& 15) := by
  have hn : newEBI e = newIE 73 0 [e &&& 15] := rfl
  have e1 : Msg.sel Tab.deleteSessionRequest.newRules Tab.deleteSessionRequest.newDefault (73 : UInt8).toNat (0 : UInt8).toNat = .set 1 := by decide
  rw [hn]
  refine ⟨⟨by simp [Tab.all], ⟨?_, ?_⟩, ⟨?_, ?_, ?_⟩, ?_⟩, ?_, ?_⟩
  · intro x hx
    simp only [List.mem_singleton, Option.some.injEq] at hx
    subst hx
    exact C05_new_wf g _ _ _ (by simp) hg
  · simp [newIE, IE.setLength, IE.marshalLen, hg]
  · exact fun e => absurd (congrArg Msg.Schema.typ e) (by decide)
  · exact fun e => absurd (congrArg Msg.Schema.typ e) (by decide)
  · exact fun e => absurd (congrArg Msg.Schema.typ e) (by decide)
  · rintro (e | e) <;> exact absurd (congrArg Msg.Schema.typ e) (by decide)
  · have ht : ∀ p, (ieOps g).typ (newIE 73 0 p) = 73 := fun _ => rfl
    have hi : ∀ p, (ieOps g).inst (newIE 73 0 p) = 0 := fun _ => (by decide : (0 : UInt8) &&& 0x0f = 0)
    simp only [Msg.newFields, List.filterMap_cons, id, List.filterMap_nil, Msg.classify, List.foldl_cons, List.foldl_nil, ht, hi, e1,
      Msg.Act.apply, Msg.upd, Msg.Fields.empty]
    simp
  · simp [IE.ebi, IE.valueAsUint8, hg]

/-- the state after the S-GW sent the Delete Session Request on -/
def afterDelete (st : State) (s : Nat) (a : Addr) (m : Message) (mme : UInt32) : State :=
  { st with n5 := inc st.n5, waiting := st.waiting ++ [.delete s (inc st.n5) a m mme] }

theorem delete_step {g : UInt8 → Bool} (hg : g 73 = false) {st : State} {e : Env} (hw : e.w = true) {a : Addr} {m : Message}
    (hsc : m.schema = Tab.deleteSessionRequest) {s s5 b5 : Nat} (hs : getSessionByTEID st.s11 m.hdr.teidAcc a = ok s)
    (h5 : getSessionByIMSI st.s5 (st.s11.heap s).imsi = ok s5) {kP mme : UInt32} (hP : (st.s5.heap s5).teids.load 7 = some kP)
    (hb : getDefaultBearer st.s5 s5 = some b5) (hm : (st.s11.heap s).teids.load 10 = some mme) :
    ∃ out m', handleDelete g e a m st = (afterDelete st s a m mme, [(.s5, .sent (st.s5.heap s5).peer out)], ok ()) ∧
      parseMsg g (asRead out) = ok m' ∧ m'.schema = Tab.deleteSessionRequest ∧ m'.hdr.teidAcc = kP ∧ m'.hdr.sequence = inc st.n5 ∧
      m'.fields 1 = [newEBI (st.s5.brs b5).ebi] := by
  obtain ⟨hS, hF, _⟩ := ebi_request g hg (st.s5.brs b5).ebi
  obtain ⟨out, m', h1, h2, h3, h4, h6, h7⟩ := Pgw.posted hS kP st.n5 (st.s5.heap s5).peer rfl
  refine ⟨out, m', ?_, h2, h3, h4, h6, by rw [h7]; exact hF⟩
  unfold handleDelete
  rw [if_neg (by rw [hsc]; decide), hw]
  refine (ask_go hs _).trans ?_
  refine (val_bind rfl _ _).trans ?_
  refine (ask_bind _ _ _).trans ?_
  refine (ask_go h5 _).trans ?_
  refine (val_bind rfl _ _).trans ?_
  refine (on5_go (st := st) rfl (getTEID_some hP) _).trans ?_
  refine (ask_go (st := st) hb _).trans ?_
  refine (val_bind (a := b5) rfl _ _).trans ?_
  refine (ask_bind _ _ _).trans ?_
  refine bind_sent (st' := { st with n5 := inc st.n5 }) (a := inc st.n5) (ev := [(.s5, .sent (st.s5.heap s5).peer out)]) ?_ ?_
  · show (match deleteSession st.s5 s5 g st.n5 kP [some (newEBI (st.s5.brs b5).ebi)] true with
      | (n, ev, r) => (({ st with n5 := n } : State), ev.map (fun x => (Port.s5, x)), r)) = _
    unfold deleteSession
    rw [h1]
    rfl
  · refine (on11_go (st := { st with n5 := inc st.n5 }) rfl (getTEID_some hm) _).trans ?_
    rfl

/-- the state after the P-GW's answer to it -/
def afterDeleted (st : State) (s s5 : Nat) (k5 : UInt32) (m : Message) : State :=
  with5 { st with q11 := fun i => if i = s then st.q11 i ++ [m] else st.q11 i } (without st.s5 s5 k5)

theorem deleted_step {st : State} {a : Addr} {m : Message} {s s5 : Nat} (hs : getSessionByTEID st.s5 m.hdr.teidAcc a = ok s5)
    (h11 : getSessionByIMSI st.s11 (st.s5.heap s5).imsi = ok s) (hq : (st.q11 s).length < 1000) {k5 : UInt32}
    (hk : (st.s5.heap s5).teids.load st.s5.localIf = some k5) :
    handleDeleted a m st = (afterDeleted st s s5 k5 m, [], ok ()) := by
  unfold handleDeleted
  refine (ask_go hs _).trans ?_
  refine (val_bind rfl _ _).trans ?_
  refine (ask_bind _ _ _).trans ?_
  refine (ask_go h11 _).trans ?_
  refine (val_bind rfl _ _).trans ?_
  have hp : pass11 s m st = ({ st with q11 := fun i => if i = s then st.q11 i ++ [m] else st.q11 i }, [], ok ()) := by
    unfold pass11; rw [if_pos hq]
  refine (bind_eq' hp).trans ?_
  exact on5_eq (st := { st with q11 := fun i => if i = s then st.q11 i ++ [m] else st.q11 i }) (drop_eq hk)

theorem finishDelete_step {g : UInt8 → Bool} {d : Bytes} {m : Message} (hp : parseMsg g d = ok m) (hs : m.schema = Tab.deleteSessionResponse)
    (hd : d.length ≤ 1496) (st : State) {e : Env} (hw : e.w = true) (a : Addr) {s : Nat} (req : Message) (hq : req.hdr.sequence.toNat < 2 ^ 24)
    (mme : UInt32) {k : UInt32} (hk : (st.s11.heap s).teids.load st.s11.localIf = some k) :
    ∃ out m', finishDelete g e s a req mme m st = (with11 st (without st.s11 s k), [(.s11, .sent a out)], ok ()) ∧
      out.length ≤ 1500 ∧ parseMsg g out = ok m' ∧ m'.schema = Tab.deleteSessionResponse ∧ m'.hdr.teidAcc = mme ∧
      m'.hdr.sequence = req.hdr.sequence ∧ m'.fields = m.fields := by
  obtain ⟨m₁, out, m', h1, h2, h3, h4, h5, h6, h7⟩ := resent hp (by rw [hs]; exact fun e => absurd (congrArg Msg.Schema.typ e) (by decide)) hd mme _ hq
  refine ⟨out, m', ?_, h2, h3, h4.trans hs, h5, h6, h7⟩
  unfold finishDelete
  rw [if_neg (by rw [hs]; decide), hw]
  have hr : ∀ c, respond g a req { m with hdr := m.hdr.setTEID mme } true c = (c, [.sent a out], ok ()) := by
    intro c
    unfold respond respondTo response
    rw [h1]
    rfl
  refine bind_sent (st' := st) (on11_eq (hr _)) ?_
  exact on11_eq (drop_eq hk)

/-! ### Modify Bearer -/

/-- `st` with the S11 session `s`, its bearer `b` and the bearer's remote address replaced -/
def state11 (st : State) (s b : Nat) (x : Sess) (y : Bearer) (r : Option Bytes) : State :=
  { st with s11 := Pgw.put st.s11 s b x y, r11 := fun i => if i = b then r else st.r11 i }

theorem state11_self (st : State) (s b : Nat) : state11 st s b (st.s11.heap s) (st.s11.brs b) (st.r11 b) = st := by
  have h1 : (fun i => if i = b then st.r11 b else st.r11 i) = st.r11 := by funext i; split <;> simp_all
  unfold state11
  rw [put_self, h1]

theorem children11_eq (g : UInt8 → Bool) (st : State) (s b : Nat) (l : List IE)
    (hl : ∀ i ∈ l, i.typ = 87 → ∃ w t f, w.length = 4 ∧ i.ipAddress = ok (ipString w) ∧ i.teid = ok t ∧ i.interfaceType = ok f)
    (z : Sess × Bearer × Option Bytes) :
    children11 s (some b) l (state11 st s b z.1 z.2.1 z.2.2) =
      (state11 st s b ((l.filter (·.typ = 87)).foldl (kid g) z).1 ((l.filter (·.typ = 87)).foldl (kid g) z).2.1
        ((l.filter (·.typ = 87)).foldl (kid g) z).2.2, [], ok ()) := by
  induction l generalizing z with
  | nil => rfl
  | cons i l ih =>
    unfold children11
    have ih := ih (fun j hj => hl j (by simp [hj]))
    by_cases e87 : i.typ = 87
    · obtain ⟨w, t, f, hw, h1, h2, h3⟩ := hl i (by simp) e87
      have hk : child11 s (some b) i (state11 st s b z.1 z.2.1 z.2.2) =
          (state11 st s b (kid g z i).1 (kid g z i).2.1 (kid g z i).2.2, [], ok ()) := by
        unfold child11 kid
        rw [if_pos e87, if_neg (by rw [e87]; decide), if_pos e87, mustIf_of h3, mustTEID_of h2, uAddr_of h1]
        have hf : fteidU s (some b) i setAddr11 on11 (state11 st s b z.1 z.2.1 z.2.2) =
            (state11 st s b { z.1 with teids := z.1.teids.store f t } { z.2.1 with teidOut := t } (some (ipString w ++ colon :: portU)), [], ok ()) := by
          unfold fteidU
          rw [if_neg (by simp [e87])]
          refine (val_bind h1 _ _).trans ?_
          refine (val_bind (resolve_v4 hw portU_plain) _ _).trans ?_
          refine (put_bind _ _ _ _).trans ?_
          refine (val_bind h2 _ _).trans ?_
          refine (on11_go (c₀ := Pgw.put st.s11 s b z.1 z.2.1) (by rfl) (set_eq (put_updateBearer _ _ _ _ _ _)) _).trans ?_
          refine (val_bind h3 _ _).trans ?_
          refine (on11_eq (set_eq (put_addTEID _ _ _ _ _ _ _))).trans ?_
          refine Prod.ext ?_ rfl
          unfold state11 with11 setAddr11
          simp only [State.mk.injEq, true_and, and_true]
          funext j
          split <;> rfl
        refine (bind_eq' hf).trans ?_
        exact (val_bind h1 _ _).trans rfl
      refine (bind_eq' hk).trans ?_
      rw [List.filter_cons, if_pos (by simp [e87]), List.foldl_cons]
      exact ih _
    · have hk : child11 s (some b) i (state11 st s b z.1 z.2.1 z.2.2) = (state11 st s b z.1 z.2.1 z.2.2, [], ok ()) := by
        unfold child11; rw [if_neg e87]; rfl
      refine (bind_eq' hk).trans ?_
      rw [List.filter_cons, if_neg (by simp [e87])]
      exact ih _

theorem host_v4 {w : Bytes} (h : w.length = 4) : hostOf (some (ipString w ++ colon :: portU)) = ok (ipString w) := by
  obtain ⟨hc, h4, hi, _⟩ := v4_text h
  have e : ipString w ++ colon :: portU = joinHostPort (ipString w) portU := by
    unfold joinHostPort; rw [if_neg hc]; simp
  have hl : ∀ c ∈ ipString w, c ≠ lbr ∧ c ≠ rbr := fun c hc' => ⟨(addrChar_ne ((isIP_chars hi).2 c hc')).2.1, (addrChar_ne ((isIP_chars hi).2 c hc')).2.2⟩
  unfold hostOf
  rw [e]
  simp only
  rw [split_join hl portU_plain]

/-- the Bearer Context of the answer -/
def modifiedIE (g : UInt8 → Bool) (ebi : UInt8) (uf : IE) : IE :=
  .mk 93 (UInt16.ofNat (rawEncs g [newCause 16 0 0 0 none, newEBI ebi, uf]).length) 0 (rawEncs g [newCause 16 0 0 0 none, newEBI ebi, uf])
    [newCause 16 0 0 0 none, newEBI ebi, uf]

theorem modified_eq (g : UInt8 → Bool) (ebi : UInt8) (uf : IE) :
    newBearerContext g [some (newCause 16 0 0 0 none), some (newEBI ebi), some uf] = ok (some (modifiedIE g ebi uf)) := by
  rw [newBearerContext, newGrouped_eq]
  rfl

theorem modify_answer {g : UInt8 → Bool} (hg : Usual g) (ebi : UInt8) (k1 : UInt32) {w : Bytes} (hw : w.length = 4) :
    let ies := [some (newCause 16 0 0 0 none), some (modifiedIE g ebi (fteidOf 1 0 k1 (ipString w)))]
    Sendable g Tab.modifyBearerResponse ies ∧ 
    Msg.newFields (ieOps g) Tab.modifyBearerResponse ies 0 = [newCause 16 0 0 0 none] ∧
    Msg.newFields (ieOps g) Tab.modifyBearerResponse ies 5 = [modifiedIE g ebi (fteidOf 1 0 k1 (ipString w))] ∧
    (newCause 16 0 0 0 none).cause g = ok 16 ∧ (newEBI ebi).ebi g = ok (ebi &&& 15) := by
  have g2 : g 2 = false := hg.others.1 2 (by simp)
  have hcz : newCause 16 0 0 0 none = newIE 2 0 [16, 0] := by simp [newCause]
  have s1 : (newCause 16 0 0 0 none).marshalLen g = 6 := by rw [hcz]; simp [newIE, IE.setLength, IE.marshalLen, g2]
  have s2 : (newEBI ebi).marshalLen g = 5 := by simp [newEBI, newUint8IE, newIE, IE.setLength, IE.marshalLen, hg.g73]
  have s3 := fteid_size g hg.g87 1 0 k1 hw
  have w1 : wf g (newCause 16 0 0 0 none) = true := by rw [hcz]; exact new_wf g2 _ (by simp)
  have w2 : wf g (newEBI ebi) = true := new_wf hg.g73 _ (by simp)
  have w3 : wf g (fteidOf 1 0 k1 (ipString w)) = true := new_wf hg.g87 _ (Nat.lt_of_le_of_lt (length_encFTEID' _ _ _) (by decide))
  have s4 : (modifiedIE g ebi (fteidOf 1 0 k1 (ipString w))).marshalLen g = 28 := by
    rw [modifiedIE, IE.marshalLen]
    simp only [hg.g93, if_true, marshalLens, s1, s2, s3]
  have wk : wfs g [newCause 16 0 0 0 none, newEBI ebi, fteidOf 1 0 k1 (ipString w)] = true := by
    rw [wfs_iff]
    intro z hz
    simp only [List.mem_cons, List.not_mem_nil, or_false] at hz
    rcases hz with rfl | rfl | rfl <;> assumption
  have w4 : wf g (modifiedIE g ebi (fteidOf 1 0 k1 (ipString w))) = true := by
    rw [modifiedIE, wf_grouped g hg.g93]
    have l := s4
    rw [modifiedIE, IE.marshalLen, if_pos hg.g93, ← length_rawEncs] at l
    exact ⟨toNat_ofNat16 (by omega), rawEncs_wf g _ wk, wk⟩
  have e1 : Msg.sel Tab.modifyBearerResponse.newRules Tab.modifyBearerResponse.newDefault (2 : UInt8).toNat (0 : UInt8).toNat = .set 0 := by decide
  have e2 : Msg.sel Tab.modifyBearerResponse.newRules Tab.modifyBearerResponse.newDefault (93 : UInt8).toNat (0 : UInt8).toNat = .app 5 := by decide
  have t1 : (ieOps g).typ (newCause 16 0 0 0 none) = 2 := rfl
  have t2 : (ieOps g).typ (modifiedIE g ebi (fteidOf 1 0 k1 (ipString w))) = 93 := rfl
  have i1 : (ieOps g).inst (newCause 16 0 0 0 none) = 0 := (by decide : (0 : UInt8) &&& 0x0f = 0)
  have i2 : (ieOps g).inst (modifiedIE g ebi (fteidOf 1 0 k1 (ipString w))) = 0 := (by decide : (0 : UInt8) &&& 0x0f = 0)
  have F : Msg.newFields (ieOps g) Tab.modifyBearerResponse [some (newCause 16 0 0 0 none), some (modifiedIE g ebi (fteidOf 1 0 k1 (ipString w)))] =
      Msg.upd (Msg.upd Msg.Fields.empty 0 [newCause 16 0 0 0 none]) 5 [modifiedIE g ebi (fteidOf 1 0 k1 (ipString w))] := by
    simp only [Msg.newFields, List.filterMap_cons, id, List.filterMap_nil, Msg.classify, List.foldl_cons, List.foldl_nil, t1, t2, i1, i2, e1, e2,
      Msg.Act.apply]
    rfl
  intro ies
  refine ⟨⟨by simp [Tab.all], ⟨?_, ?_⟩, ⟨?_, ?_, ?_⟩, ?_⟩, by rw [F]; rfl, by rw [F]; rfl, ?_, ?_⟩
  · intro x hx
    simp only [ies, List.mem_cons, List.not_mem_nil, or_false, Option.some.injEq] at hx
    rcases hx with rfl | rfl <;> assumption
  · show 12 + ([newCause 16 0 0 0 none, modifiedIE g ebi (fteidOf 1 0 k1 (ipString w))].map (IE.marshalLen g)).sum ≤ 1500
    simp only [List.map_cons, List.map_nil, List.sum_cons, List.sum_nil, s1, s4]
    decide
  · exact fun e => absurd (congrArg Msg.Schema.typ e) (by decide)
  · exact fun e => absurd (congrArg Msg.Schema.typ e) (by decide)
  · exact fun e => absurd (congrArg Msg.Schema.typ e) (by decide)
  · rintro (e | e) <;> exact absurd (congrArg Msg.Schema.typ e) (by decide)
  · rw [hcz]; simp [IE.cause, IE.valueAsUint8, g2]
  · simp [newEBI, newUint8IE, IE.ebi, IE.valueAsUint8, hg.g73]

/-- the two relay entries of the user plane -/
def relays (st : State) (t1 t5 out5 out : UInt32) (addr5 addr : Bytes) : State :=
  { st with
    s1u := V1.UConn.apply st.s1u (.relayTo t1 ⟨out5, text addr5, st.s5u.self⟩)
    s5u := V1.UConn.apply st.s5u (.relayTo t5 ⟨out, text addr, st.s1u.self⟩) }

theorem modify_step {g : UInt8 → Bool} (hg : Usual g) {p : Cfg} {w1u : Bytes} (hw1 : w1u.length = 4 ∧ p.s1uIP = ipString w1u) {d : Bytes} {m : Message}
    (hp : parseMsg g d = ok m) (hsc : m.schema = Tab.modifyBearerRequest) {st : State} {e : Env} (hw : e.w = true) {a : Addr} {s s5 b b5 : Nat}
    (hs : getSessionByTEID st.s11 m.hdr.teidAcc a = ok s) (h5 : getSessionByIMSI st.s5 (st.s11.heap s).imsi = ok s5)
    (hb : getDefaultBearer st.s11 s = some b) (hb5 : getDefaultBearer st.s5 s5 = some b5) {i : IE} {r : List IE} (h8 : m.fields 8 = i :: r)
    {f : UInt8} {tE : UInt32} {wE : Bytes} (hwE : wE.length = 4)
    (hk : ∀ j ∈ i.children, j.typ = 87 → j.interfaceType = ok f ∧ j.teid = ok tE ∧ j.ipAddress = ok (ipString wE))
    (hx : ∃ j ∈ i.children, j.typ = 87) (hf : f ≠ 10 ∧ f ≠ 1) {mme t1 t5 : UInt32} (ht10 : (st.s11.heap s).teids.load 10 = some mme)
    (ht1 : (st.s11.heap s).teids.load 1 = some t1) (ht5 : (st.s5.heap s5).teids.load 4 = some t5) {wP : Bytes} (hwP : wP.length = 4)
    (hr5 : st.r5 b5 = some (ipString wP ++ colon :: portU)) :
    ∃ x out m', x.teids.load f = some tE ∧ (∀ f', f' ≠ f → x.teids.load f' = (st.s11.heap s).teids.load f') ∧ x = { st.s11.heap s with teids := x.teids } ∧
      handleModify g p e a m st = (relays (state11 st s b x { st.s11.brs b with teidOut := tE } (some (ipString wE ++ colon :: portU))) t1 t5
        (st.s5.brs b5).teidOut tE (ipString wP ++ colon :: portU) (ipString wE ++ colon :: portU), [(.s11, .sent a out)], ok ()) ∧
      (∀ A n aS, A.handlers.load 35 = some (.app n) → Reaches A mme aS →
        Delivered g A n aS out Tab.modifyBearerResponse mme m.hdr.sequence
          [some (newCause 16 0 0 0 none), some (modifiedIE g (st.s11.brs b).ebi (fteidOf 1 0 t1 p.s1uIP))] m') := by
  obtain ⟨out, m', r1, _, _, r3⟩ := respond_delivered hp (modify_answer hg (st.s11.brs b).ebi t1 hw1.1).1 mme rfl
    (newMessage g Tab.modifyBearerResponse mme 0 [some (newCause 16 0 0 0 none), some (modifiedIE g (st.s11.brs b).ebi (fteidOf 1 0 t1 (ipString w1u)))])
    (fun n => by rw [setSeq_new]) a
  rw [← hw1.2] at r1 r3
  let l := i.children.filter (·.typ = 87)
  have hl : ∀ j ∈ l, j.typ = 87 := fun j hj => by simpa using (List.mem_filter.1 hj).2
  have hl' : ∀ j ∈ l, j.typ = 87 → j.interfaceType = ok f ∧ j.teid = ok tE ∧ j.ipAddress = ok (ipString wE) :=
    fun j hj h => hk j (List.mem_filter.1 hj).1 h
  let z₀ : Sess × Bearer × Option Bytes := (st.s11.heap s, st.s11.brs b, st.r11 b)
  obtain ⟨⟨z2, z3, z4⟩, z5⟩ := kids_fteid g l z₀ f tE (ipString wE) hl' (Or.inr (by
    obtain ⟨j, hj, h⟩ := hx
    exact ⟨j, List.mem_filter.2 ⟨hj, by simp [h]⟩, h⟩))
  obtain ⟨z6, z7⟩ := kids_fixed g l z₀
  have z8 : (l.foldl (kid g) z₀).2.1.ebi = (st.s11.brs b).ebi :=
    kids_ebi g l z₀ (st.s11.brs b).ebi (fun j hj h => by rw [hl j hj] at h; cases h) (Or.inl rfl)
  have hch := children11_eq g st s b i.children (fun j hj h => ⟨wE, tE, f, hwE, (hk j hj h).2.2, (hk j hj h).2.1, (hk j hj h).1⟩) z₀
  change children11 s (some b) i.children (state11 st s b (st.s11.heap s) (st.s11.brs b) (st.r11 b)) = (state11 st s b (l.foldl (kid g) z₀).1
    (l.foldl (kid g) z₀).2.1 (l.foldl (kid g) z₀).2.2, [], ok ()) at hch
  rw [state11_self] at hch
  generalize l.foldl (kid g) z₀ = z at hch z2 z3 z4 z5 z6 z7 z8
  obtain ⟨x, y, ra⟩ := z
  simp only at hch z2 z3 z4 z5 z6 z7 z8
  subst z4
  rw [z8, z3] at z7
  have z7 : y = { st.s11.brs b with teidOut := tE } := z7
  refine ⟨x, out, m', z2, z5, z6, ?_, r3⟩
  rw [← z7]
  have H : (state11 st s b x y (some (ipString wE ++ colon :: portU))).s11.heap s = x := put_heap _ _ _ _ _
  have B : (state11 st s b x y (some (ipString wE ++ colon :: portU))).s11.brs b = y := put_brs _ _ _ _ _
  have R : (state11 st s b x y (some (ipString wE ++ colon :: portU))).r11 b = some (ipString wE ++ colon :: portU) := if_pos rfl
  have E5 : (state11 st s b x y (some (ipString wE ++ colon :: portU))).s5 = st.s5 := rfl
  have R5 : (state11 st s b x y (some (ipString wE ++ colon :: portU))).r5 = st.r5 := rfl
  generalize state11 st s b x y (some (ipString wE ++ colon :: portU)) = st' at hch H B R E5 R5
  unfold handleModify
  refine (ask_go hs _).trans ?_
  refine (val_bind rfl _ _).trans ?_
  refine (ask_bind _ _ _).trans ?_
  refine (ask_go h5 _).trans ?_
  refine (val_bind rfl _ _).trans ?_
  refine (ask_go hb _).trans ?_
  refine (ask_go hb5 _).trans ?_
  rw [if_neg (by rw [hsc]; decide), h8]
  refine (bind_eq' hch).trans ?_
  have l10 : (st'.s11.heap s).teids.load 10 = some mme := by rw [H, z5 10 (Ne.symm hf.1)]; exact ht10
  have l1 : (st'.s11.heap s).teids.load 1 = some t1 := by rw [H, z5 1 (Ne.symm hf.2)]; exact ht1
  have l5 : (st'.s5.heap s5).teids.load 4 = some t5 := by rw [E5]; exact ht5
  refine (bind_eq' (st' := st') (on11_eq (getTEID_some l10))).trans ?_
  refine (bind_eq' (st' := st') (on11_eq (getTEID_some l1))).trans ?_
  refine (bind_eq' (st' := st') (on5_eq (getTEID_some l5))).trans ?_
  refine (val_bind (a := b5) rfl _ _).trans ?_
  refine (ask_go (a := some (ipString wP ++ colon :: portU)) (by rw [R5]; exact hr5) _).trans ?_
  refine (val_bind (host_v4 hwP) _ _).trans ?_
  refine (ask_go (a := (st.s5.brs b5).teidOut) (by rw [E5]) _).trans ?_
  refine (put_bind _ _ _ _).trans ?_
  refine (val_bind (a := b) rfl _ _).trans ?_
  refine (ask_go (a := some (ipString wE ++ colon :: portU)) R _).trans ?_
  refine (ask_go (a := tE) (by show (st'.s11.brs b).teidOut = tE; rw [B]; exact z3) _).trans ?_
  refine (put_bind _ _ _ _).trans ?_
  refine (ask_go (a := (st.s11.brs b).ebi) (by show (st'.s11.brs b).ebi = _; rw [B]; exact z8) _).trans ?_
  refine (val_bind (fteid_text 1 t1 p.s1uIP (by decide)) _ _).trans ?_
  refine (val_bind (modified_eq g (st.s11.brs b).ebi (fteidOf 1 0 t1 p.s1uIP)) _ _).trans ?_
  rw [hw]
  refine (on11_eq (c := st'.s11) (ev := [.sent a out]) (r := ok ()) ?_).trans ?_
  · exact congrArg (Prod.mk st'.s11) r1
  · rfl

end Verif.V2.Sgw
