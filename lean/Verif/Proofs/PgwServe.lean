import Verif.Proofs.PgwInv
/-
Helper lemmas for Props/Pgw.lean: what the two handlers do between two datagrams.
-/
namespace Verif.V2.Pgw
open Res Send Conn NetIP Spec IPSpec

/-! ### a complete request -/

theorem kids6 (v : Vals) (a : Addr) (b : Nat) : ∃ u, (v.sess a b).teids.load 6 = some u :=
  kidTeids_some v.kids _ 6 ⟨v.teid, by rw [SyncMap.load_store]; rfl⟩

theorem seq_small {g : UInt8 → Bool} {d : Bytes} {m : Message} (h : parseMsg g d = ok m) : m.hdr.sequence.toNat < 2 ^ 24 := by
  obtain ⟨_, _, hp, _⟩ := parseMsg_ok g h
  obtain ⟨_, _, _, h, _⟩ := (C10_parse_total_faithful d).2 _ hp
  exact h

/-- an answer made by a constructor is sent and reaches its receiver -/
theorem respond_delivered {g : UInt8 → Bool} {d : Bytes} {m : Message} (h : parseMsg g d = ok m) {sc : Msg.Schema} {rs : List (Option IE)}
    (hs : Sendable g sc rs) (u : UInt32) (ha : sc.hasTEIDArg = true) (r : Message)
    (hr : ∀ n, marshalMsg g (setSeq r n) = marshalMsg g (newMessage g sc u n rs)) (a : Addr) :
    ∃ out m', respondTo g a m r true = ([.sent a out], ok ()) ∧ respondTo g a m r false = ([], err .other) ∧
      out.length ≤ 12 + ((rs.filterMap id).map (IE.marshalLen g)).sum ∧
      ∀ A h aP, A.handlers.load sc.typ = some (.app h) → Reaches A u aP → Delivered g A h aP out sc u m.hdr.sequence rs m' := by
  obtain ⟨m', out, k1, k2, k3, k4, k5, k6, k7, k8⟩ := sendable_round hs u m.hdr.sequence (seq_small h)
  refine ⟨out, m', ?_, ?_, roundTrips_length hs.1 k2, fun A h aP hA hR => delivered_of hs (by rw [ha]; exact fun h => by cases h) k2 k3 k4 k5 k6 k7 k8 hA hR⟩
  all_goals
    unfold respondTo response
    rw [hr, k1]
    rfl

theorem asked_ip {g : UInt8 → Bool} {d : Bytes} {m : Message} (hp : parseMsg g d = ok m) (hm : m.schema = Tab.createSessionRequest)
    {v : Vals} (hv : v.In g m) : ∃ ia, IsIP v.ip ia ∧ ipString ia = v.ip := by
  obtain ⟨i, r, e, hi⟩ := hv.ip
  obtain ⟨x, hx, ht⟩ := paa_ip (paa_typ hp hm (by rw [e]; simp)) hi
  obtain ⟨ia, h1, h2⟩ := isIP_ipString hx
  exact ⟨ia, ht ▸ h2, by rw [ht]; exact ipString_to16 h1⟩

/-- the answer to a complete request is made and sent -/
theorem answer_sent (g : UInt8 → Bool) (hg : ∀ t ∈ [2, 87, 79, 127, 73, 94, 132], g t = false) (hgb : g 93 = true) (p : Cfg)
    (k ku : UInt32) (a : Addr) {d : Bytes} {m : Message}
    (hp : parseMsg g d = ok m) (hm : m.schema = Tab.createSessionRequest) {v : Vals} (hv : v.In g m) (u : UInt32)
    (va : Bytes) (hq : m.fields 23 ≠ [] → IsIP (host p.laddr.string) va) :
    ∃ r rs out m', answer g u (fteidOf 7 1 k (host p.laddr.string)) (fteidOf 5 2 ku (host p.s5u)) v.ip (v.bearer g).ebi
        (! (m.fields 23).isEmpty) (host p.laddr.string) = ok r ∧
      respondTo g a m r true = ([.sent a out], ok ()) ∧ respondTo g a m r false = ([], err .other) ∧ out.length ≤ 200 ∧
      (∀ A h aP, A.handlers.load 33 = some (.app h) → Reaches A u aP →
        Delivered g A h aP out Tab.createSessionResponse u m.hdr.sequence rs m') ∧
      let F := Msg.newFields (ieOps g) Tab.createSessionResponse rs
      (∃ x, F 0 = [x] ∧ x.cause g = ok 16) ∧ F 5 = [fteidOf 7 1 k (host p.laddr.string)] ∧
      (∃ x, F 6 = [x] ∧ x.ipAddress = ok v.ip) ∧
      (∃ x c e d, F 11 = [x] ∧ x.children = [c, e, fteidOf 5 2 ku (host p.s5u), d] ∧ c.cause g = ok 16 ∧
        e.ebi g = ok ((v.bearer g).ebi &&& 15) ∧ d.chargingID g = ok 0 ∧ c.typ = 2 ∧ e.typ = 73 ∧ d.typ = 94 ∧ d.instance' = 0) ∧
      (m.fields 23 ≠ [] → ∃ x, F 16 = [x] ∧ x.nodeID = ok ((to4 va).getD va) ∧ x.csids = ok [1]) ∧ (m.fields 23 = [] → F 16 = []) := by
  obtain ⟨ip, hip, het⟩ := asked_ip hp hm hv
  have hq' : (! (m.fields 23).isEmpty) = true ↔ m.fields 23 ≠ [] := by simp
  obtain ⟨r, rs, hr, hsend, hsz, hmar, F0, F5, F6, F11, F16, F16'⟩ := answer_ok g hg hgb u _ _ (length_encFTEID' 7 k (host p.laddr.string))
    (length_encFTEID' 5 ku (host p.s5u)) v.ip ip hip (v.bearer g).ebi (! (m.fields 23).isEmpty) (host p.laddr.string) va
    (fun e => hq (hq'.1 e))
  obtain ⟨out, m', r1, r2, rl, r3⟩ := respond_delivered hp hsend u rfl r hmar a
  exact ⟨r, rs, out, m', hr, r1, r2, by omega, r3, F0, F5, by rw [het] at F6; exact F6, F11, fun e => F16 (hq'.2 e), fun e => F16' (by simp [e])⟩

theorem create_ok (g : UInt8 → Bool) (hg : ∀ t ∈ [2, 87, 79, 127, 73, 94, 132], g t = false) (hgb : g 93 = true) (p : Cfg)
    {c : Conn} (h : Inv c) {s : Nat} (hs : Fresh c s) (b : Nat) (k ku : UInt32) (a : Addr) {d : Bytes} {m : Message}
    (hp : parseMsg g d = ok m) (hm : m.schema = Tab.createSessionRequest) {v : Vals} (hv : v.In g m) {u : UInt32}
    (h6 : (v.sess a b).teids.load 6 = some u) (va : Bytes) (hq : m.fields 23 ≠ [] → IsIP (host p.laddr.string) va) :
    ∃ rs out m', handleCreate g p s b (some k) (some ku) a m true c = (admitted g c s b k ku a v, [.sent a out], ok ()) ∧
      handleCreate g p s b (some k) (some ku) a m false c = (held g c s b k ku a v, [], err .other) ∧
      (readRequest g s b a m >>= fun ip => accept g p s b (some k) (some ku) a m ip true) c = (held g c s b k ku a v, [.sent a out], ok ()) ∧ out.length ≤ 200 ∧
      (∀ A h aP, A.handlers.load 33 = some (.app h) → Reaches A u aP →
        Delivered g A h aP out Tab.createSessionResponse u m.hdr.sequence rs m') ∧
      let F := Msg.newFields (ieOps g) Tab.createSessionResponse rs
      (∃ x, F 0 = [x] ∧ x.cause g = ok 16) ∧ F 5 = [fteidOf 7 1 k (host p.laddr.string)] ∧
      (∃ x, F 6 = [x] ∧ x.ipAddress = ok v.ip) ∧
      (∃ x c e d, F 11 = [x] ∧ x.children = [c, e, fteidOf 5 2 ku (host p.s5u), d] ∧ c.cause g = ok 16 ∧
        e.ebi g = ok ((v.bearer g).ebi &&& 15) ∧ d.chargingID g = ok 0 ∧ c.typ = 2 ∧ e.typ = 73 ∧ d.typ = 94 ∧ d.instance' = 0) ∧
      (m.fields 23 ≠ [] → ∃ x, F 16 = [x] ∧ x.nodeID = ok ((to4 va).getD va) ∧ x.csids = ok [1]) ∧ (m.fields 23 = [] → F 16 = []) := by
  obtain ⟨r, rs, out, m', hr, r1, r2, rl, r3, F⟩ := answer_sent g hg hgb p k ku a hp hm hv u va hq
  have hcp := create_put g p c s b k ku u a m v (by rw [hm]; rfl) hv (h.droppable hs _) h.localIf h6 r hr
  have hu : (readRequest g s b a m >>= fun ip => accept g p s b (some k) (some ku) a m ip true) c =
      (held g c s b k ku a v, [.sent a out], ok ()) := by
    refine (bind_eq' (read_put g c s b a m v hv (h.droppable hs _))).trans ?_
    rw [accept_put g p (forget c v.imsi) s b (v.sess a b) (v.bearer g) k ku u a m v.ip true
      ((forget_fixed c v.imsi).2.2.1.trans h.localIf) h6 r hr, r1]
    rfl
  refine ⟨rs, out, m', by rw [hcp true, r1], by rw [hcp false, r2], hu, rl, r3, F⟩

/-! ### the Delete Session Request -/

theorem delete_answer (g : UInt8 → Bool) (hg : g 2 = false) (cause : UInt8) :
    Sendable g Tab.deleteSessionResponse [some (newCause cause 0 0 0 none)] ∧
    ∃ x, Msg.newFields (ieOps g) Tab.deleteSessionResponse [some (newCause cause 0 0 0 none)] 0 = [x] ∧ x.cause g = ok cause := by
  have hcz : ∀ c, newCause c 0 0 0 none = newIE 2 0 [c, 0] := by
    intro c; simp [newCause]
  rw [hcz]
  have e1 : Msg.sel Tab.deleteSessionResponse.newRules Tab.deleteSessionResponse.newDefault (2 : UInt8).toNat (0 : UInt8).toNat = .set 0 := by decide
  refine ⟨⟨by simp [Tab.all], ⟨?_, ?_⟩, ⟨?_, ?_, ?_⟩, ?_⟩, newIE 2 0 [cause, 0], ?_, ?_⟩
  · intro x hx
    simp only [List.mem_singleton, Option.some.injEq] at hx
    subst hx
    exact C05_new_wf g _ _ _ (by simp) hg
  · simp [newIE, IE.setLength, IE.marshalLen, hg]
  · exact fun e => absurd (congrArg Msg.Schema.typ e) (by decide)
  · exact fun e => absurd (congrArg Msg.Schema.typ e) (by decide)
  · exact fun e => absurd (congrArg Msg.Schema.typ e) (by decide)
  · rintro (e | e) <;> exact absurd (congrArg Msg.Schema.typ e) (by decide)
  · have ht : ∀ p, (ieOps g).typ (newIE 2 0 p) = 2 := fun _ => rfl
    have hi : ∀ p, (ieOps g).inst (newIE 2 0 p) = 0 := fun _ => (by decide : (0 : UInt8) &&& 0x0f = 0)
    simp only [Msg.newFields, List.filterMap_cons, id, List.filterMap_nil, Msg.classify, List.foldl_cons, List.foldl_nil, ht, hi, e1,
      Msg.Act.apply, Msg.upd, Msg.Fields.empty]
    simp
  · simp [IE.cause, IE.valueAsUint8, hg]

theorem delete_ok (g : UInt8 → Bool) (hg : g 2 = false) {c : Conn} (h : Inv c) (a : Addr) {d : Bytes} {m : Message}
    (hp : parseMsg g d = ok m) {s : Nat} (hs : getSessionByTEID c m.hdr.teidAcc a = ok s) :
    ∃ u out m', (c.heap s).teids.load 6 = some u ∧ 
      handleDelete g a m true c = ({ c with byImsi := c.byImsi.delete (c.heap s).imsi, byTeid := c.byTeid.delete m.hdr.teidAcc }, [.sent a out], ok ()) ∧
      handleDelete g a m false c = (c, [], err .other) ∧ out.length ≤ 18 ∧
      ∀ A h aP, A.handlers.load 37 = some (.app h) → Reaches A u aP →
        Delivered g A h aP out Tab.deleteSessionResponse u m.hdr.sequence [some (newCause 16 0 0 0 none)] m' := by
  have ht : c.byTeid.load m.hdr.teidAcc = some (some s) := by
    unfold getSessionByTEID at hs
    split at hs
    · cases hs
    · cases hs
    · split at hs
      · cases hs
      · rename_i e _; obtain rfl := ok.inj hs; exact e
  obtain ⟨_, s', e, h7, ⟨u, h6⟩, _⟩ := h.teid _ _ ht
  obtain rfl := Option.some.inj e
  obtain ⟨out, m', r1, r2, rl, r3⟩ := respond_delivered hp (delete_answer g hg 16).1 u rfl
    (newMessage g Tab.deleteSessionResponse u 0 [some (newCause 16 0 0 0 none)]) (fun n => by rw [setSeq_new]) a
  have rl : out.length ≤ 18 := by
    have e : (newCause 16 0 0 0 none).marshalLen g = 6 := by simp [newCause, newIE, IE.setLength, IE.marshalLen, hg]
    simp only [List.filterMap_cons, id, List.filterMap_nil, List.map_cons, List.map_nil, List.sum_cons, List.sum_nil, e] at rl
    exact rl
  refine ⟨u, out, m', h6, ?_, ?_, rl, r3⟩
  · unfold handleDelete
    rw [hs]
    simp only [h6]
    refine (bind_eq (show respond g a m _ true c = _ from congrArg (Prod.mk c) r1)).trans ?_
    simp only [drop, removeSession, h.localIf, h7]
    rfl
  · unfold handleDelete
    rw [hs]
    simp only [h6]
    rw [bind_def]
    unfold H.bind
    rw [show respond g a m _ false c = _ from congrArg (Prod.mk c) r2]

theorem delete_none (g : UInt8 → Bool) (hg : g 2 = false) {c : Conn} (h : Inv c) (a : Addr) {d : Bytes} {m : Message}
    (hp : parseMsg g d = ok m) (h0 : m.hdr.teidAcc = 0) :
    ∃ out m', handleDelete g a m true c = (c, [.sent a out], err .notFound) ∧
      handleDelete g a m false c = (c, [], err .other) ∧
      ∀ A h aP, A.handlers.load 37 = some (.app h) →
        Delivered g A h aP out Tab.deleteSessionResponse 0 m.hdr.sequence [some (newCause 96 0 0 0 none)] m' := by
  have hs : getSessionByTEID c m.hdr.teidAcc a = err .notFound := by
    unfold getSessionByTEID
    cases hl : c.byTeid.load m.hdr.teidAcc with
    | none => rfl
    | some x => exact absurd h0 (h.teid _ _ hl).1
  obtain ⟨out, m', r1, r2, _, r3⟩ := respond_delivered hp (delete_answer g hg 96).1 0 rfl
    (newMessage g Tab.deleteSessionResponse 0 0 [some (newCause 96 0 0 0 none)]) (fun n => by rw [setSeq_new]) a
  refine ⟨out, m', ?_, ?_, fun A h aP hA => r3 A h aP hA (Or.inl rfl)⟩
  · unfold handleDelete
    rw [hs]
    refine (bind_eq (show respond g a m _ true c = _ from congrArg (Prod.mk c) r1)).trans ?_
    rfl
  · unfold handleDelete
    rw [hs]
    simp only
    rw [bind_def]
    unfold H.bind
    rw [show respond g a m _ false c = _ from congrArg (Prod.mk c) r2]

/-! ### incomplete requests -/

theorem kidTeids_eq (cs : List IE) (T : SyncMap UInt8 UInt32) (f : UInt8) (t : UInt32)
    (h : ∀ i ∈ cs, i.typ = 87 → i.interfaceType = ok f → i.teid = ok t)
    (hx : T.load f = some t ∨ ∃ i ∈ cs, i.typ = 87 ∧ i.interfaceType = ok f) : (kidTeids cs T).load f = some t := by
  induction cs generalizing T with
  | nil => simpa [kidTeids] using hx
  | cons i l ih =>
    show (kidTeids l _).load f = _
    refine ih _ (fun j hj => h j (by simp [hj])) ?_
    by_cases h1 : i.typ = 87 ∧ i.interfaceType = ok f
    · left
      simp [h1.1, h1.2, h i (by simp) h1.1 h1.2, SyncMap.load_store]
    · rcases hx with hx | ⟨j, hj, hj2⟩
      · left
        beta_reduce
        split
        · rename_i f' t' hty hi _
          rw [SyncMap.load_store, if_neg, hx]
          rintro rfl
          exact h1 ⟨by simpa using hty, hi⟩
        · exact hx
      · right
        rcases List.mem_cons.1 hj with rfl | hj
        · exact absurd hj2 h1
        · exact ⟨j, hj, hj2⟩

theorem incomplete_put (g : UInt8 → Bool) (p : Cfg) {c : Conn} (h : Inv c) {s : Nat} (hs : Fresh c s) (b : Nat) (k ku : Option UInt32) (a : Addr)
    {m : Message} (hm : m.schema = Tab.createSessionRequest) (hn : ¬ ∃ v : Vals, v.In g m) (w : Bool) :
    ∃ c' e, handleCreate g p s b k ku a m w c = (c', [], err e) ∧
      ((∃ i r imsi, m.fields 0 = i :: r ∧ i.imsi = ok imsi ∧ Over (forget c imsi) s b c') ∨
       ((∀ i r imsi, m.fields 0 = i :: r → i.imsi ≠ ok imsi) ∧ Over c s b c')) := by
  have hne : ∀ c' ev ip, readRequest g s b a m c ≠ (c', ev, ok ip) := by
    intro c' ev ip e
    obtain ⟨v, hv, _⟩ := read_inv g s b a m c c' ev ip e
    exact hn ⟨v, hv⟩
  have key : (readRequest g s b a m c).2.1 = [] ∧ Returns (readRequest g s b a m c).2.2 ∧
      ((∃ i r imsi, m.fields 0 = i :: r ∧ i.imsi = ok imsi ∧ Over (forget c imsi) s b (readRequest g s b a m c).1) ∨
       ((∀ i r imsi, m.fields 0 = i :: r → i.imsi ≠ ok imsi) ∧ Over c s b (readRequest g s b a m c).1)) := by
    obtain ⟨q1, q2⟩ := read_quiet g c s b a m
    by_cases hi : ∃ i r imsi, m.fields 0 = i :: r ∧ i.imsi = ok imsi
    · obtain ⟨i, r, imsi, h1, h2⟩ := hi
      obtain ⟨e1, e2, e3⟩ := q1 i r imsi h1 h2 (h.droppable hs imsi)
      exact ⟨e1, e2, Or.inl ⟨i, r, imsi, h1, h2, e3⟩⟩
    · have hi' : ∀ i r imsi, m.fields 0 = i :: r → i.imsi ≠ ok imsi := fun i r imsi h1 h2 => hi ⟨i, r, imsi, h1, h2⟩
      obtain ⟨e1, ⟨e, e2⟩, e3⟩ := q2 hi'
      exact ⟨e1, by rw [e2]; simp, Or.inr ⟨hi', e3⟩⟩
  unfold handleCreate
  rw [if_neg (by rw [hm]; decide), bind_def]
  unfold H.bind
  generalize readRequest g s b a m c = R at hne key
  obtain ⟨c', ev, r⟩ := R
  obtain ⟨rfl, k2, k3⟩ := key
  cases r with
  | ok ip => exact absurd rfl (hne c' [] ip)
  | err e => exact ⟨c', e, rfl, k3⟩
  | panic => exact absurd rfl k2.1
  | diverge => exact absurd rfl k2.2

/-! ### no address for the FQ-CSID -/

theorem answer_panic (g : UInt8 → Bool) (t : UInt32) (cf uf : IE) {ip a : Bytes} (hip : IsIP ip a) (ebi : UInt8) (cIP : Bytes)
    (hc : newCSIDText cIP [1] = .panic) : answer g t cf uf ip ebi true cIP = .panic := by
  have hpaa : ∃ i, newPAAText ip = ok i := by
    obtain ⟨e1, e2⟩ := text_of hip
    rw [newPAAText, e1]
    cases h4 : to4 a with
    | some w =>
      obtain ⟨i, h1, _⟩ := C50_paa_v4 (fun _ => false) a w 0 h4 rfl
      exact ⟨_, h1⟩
    | none =>
      obtain ⟨i, h1, _⟩ := C50_paa_v6 (fun _ => false) a a 0 h4 (to16_16 e2) rfl
      exact ⟨_, h1⟩
  obtain ⟨i, hpaa⟩ := hpaa
  unfold answer
  rw [hpaa, bind_ok, newBearerContext, newGrouped_eq, bind_ok]
  simp only [if_true]
  rw [hc]
  rfl

theorem accept_panic (g : UInt8 → Bool) (p : Cfg) (c : Conn) (s b : Nat) (x : Sess) (y : Bearer) (k ku t : UInt32) (a : Addr)
    (m : Message) (ip : Bytes) (w : Bool) (hif : c.localIf = 7) (ht : x.teids.load 6 = some t)
    (hr : answer g t (fteidOf 7 1 k (host p.laddr.string)) (fteidOf 5 2 ku (host p.s5u)) ip y.ebi (! (m.fields 23).isEmpty)
      (host p.laddr.string) = .panic) :
    accept g p s b (some k) (some ku) a m ip w (put c s b x y) = (put (reserve c k) s b x y, [], .panic) := by
  have h1 : ∀ cIP, senderFTEID (some k) cIP (put c s b x y) = (put (reserve c k) s b x y, [], ok (fteidOf 7 1 k cIP)) := by
    intro cIP
    unfold senderFTEID
    refine (set_to (h := fun c => reserve c k) (put_reserve _ _ _ _ _ _) _).trans ?_
    refine (read_bind _ _ _).trans ?_
    have e : (put (reserve c k) s b x y).localIf = 7 := by
      rw [put_localIf]; unfold reserve; split <;> exact hif
    rw [e]
    refine (lift_bind (fteid_text 7 k cIP (by decide)) _ _).trans ?_
    refine (lift_bind rfl _ _).trans ?_
    rw [withInstance_new]; rfl
  have h2 : ∀ uIP c, userFTEID (some ku) uIP c = (c, [], ok (fteidOf 5 2 ku uIP)) := by
    intro uIP c
    unfold userFTEID
    refine (lift_bind (fteid_text 5 ku uIP (by decide)) _ _).trans ?_
    refine (lift_bind rfl _ _).trans ?_
    rw [withInstance_new]; rfl
  have h3 : getTEID s 6 (put (reserve c k) s b x y) = (put (reserve c k) s b x y, [], ok t) := by
    unfold getTEID; rw [put_heap, ht]
  unfold accept
  refine (bind_eq' (h1 _)).trans ?_
  refine (bind_eq' (h2 _ _)).trans ?_
  refine (bind_eq' h3).trans ?_
  refine (read_bind _ _ _).trans ?_
  rw [put_brs, hr]
  rfl

theorem create_panic (g : UInt8 → Bool) (p : Cfg) {c : Conn} (h : Inv c) {s : Nat} (hs : Fresh c s) (b : Nat) (k ku : UInt32) (a : Addr)
    {d : Bytes} {m : Message} (hp : parseMsg g d = ok m) (hm : m.schema = Tab.createSessionRequest) {v : Vals} (hv : v.In g m)
    (hq : m.fields 23 ≠ []) (hc : newCSIDText (host p.laddr.string) [1] = .panic) (w : Bool) :
    (handleCreate g p s b (some k) (some ku) a m w c).2 = ([], .panic) := by
  obtain ⟨u, h6⟩ := kids6 v a b
  obtain ⟨ip, hip, _⟩ := asked_ip hp hm hv
  have hq' : (! (m.fields 23).isEmpty) = true := by simpa using hq
  have hr := answer_panic g u (fteidOf 7 1 k (host p.laddr.string)) (fteidOf 5 2 ku (host p.s5u)) hip (v.bearer g).ebi (host p.laddr.string) hc
  rw [← hq'] at hr
  have ha := accept_panic g p (forget c v.imsi) s b (v.sess a b) (v.bearer g) k ku u a m v.ip w
    ((forget_fixed c v.imsi).2.2.1.trans h.localIf) h6 hr
  unfold handleCreate
  rw [if_neg (by rw [hm]; decide)]
  rw [bind_eq' (read_put g c s b a m v hv (h.droppable hs _)), bind_def]
  unfold H.bind
  rw [ha]

theorem put_self (c : Conn) (s b : Nat) : put c s b (c.heap s) (c.brs b) = c := by
  unfold put
  congr 1 <;> funext i <;> split <;> simp_all

end Verif.V2.Pgw
