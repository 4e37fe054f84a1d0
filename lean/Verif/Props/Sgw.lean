import Verif.Proofs.SgwInv
/-
C99: the S-GW of examples/gw-tester (examples/gw-tester/sgw/sgw.go:103-133, s11_handlers.go, s5_handlers.go) between the MME and the
P-GW.  Model: Model/Sgw.lean.
-/
namespace Verif.V2.Sgw
open Res Send Conn NetIP Spec IPSpec
open Pgw (H lift set read need dropIMSI drop respond getTEID deref mustTEID activateH forget Droppable fteidOf fteidOf_reads fteid_text
  mustTEID_of v4_text Says has_get has_of says_get typ_of getByTEID_ok seq_small)

/-- what a Create Session Request of the MME asks for -/
structure Request where
  imsi : Bytes
  msisdn : Bytes
  mei : Bytes
  apn : Bytes
  mcc : Bytes
  mnc : Bytes
  rat : UInt8
  /-- the MME's TEID for the answer -/
  teid : UInt32
  /-- the P-GW: the TEID and the four octets of its address -/
  pgw : UInt32
  pgwAddr : Bytes

/-- the request is complete and asks for `v`: the eight elements are there and have these values, and the P-GW has an IPv4 address -/
structure Asks (g : UInt8 → Bool) (m : Message) (v : Request) : Prop where
  imsi : Says m "IMSI" IE.imsi v.imsi
  msisdn : Says m "MSISDN" IE.msisdn v.msisdn
  mei : Says m "MEI" IE.mei v.mei
  apn : Says m "APN" (apnOf g) v.apn
  network : Says m "ServingNetwork" IE.plmn (v.mcc, v.mnc)
  rat : Says m "RATType" (ratOf g) v.rat
  teid : Says m "SenderFTEIDC" IE.teid v.teid
  pgw : ∃ i r, Has m "PGWS5S8FTEIDC" (i :: r) ∧ i.ipAddress = ok (ipString v.pgwAddr) ∧ i.teid = ok v.pgw ∧ i.interfaceType = ok 7
  v4 : v.pgwAddr.length = 4

/-- the states of the S-GW after any number of events: datagrams of any octets from anyone on both sides, waiting handlers that go on or
give up; writes may fail.  `e.s` is a session object that is not in use. -/
inductive Runs (g : UInt8 → Bool) (p : Cfg) : State → Prop
  | start (heap11 heap5 : Nat → Sess) (s1u s5u : V1.UConn.UConn) : Runs g p (start heap11 heap5 s1u s5u)
  | step (st : State) (e : Env) (i : Input) : Runs g p st → (∀ imsi, st.s11.byImsi.load imsi ≠ some e.s) → Runs g p (step g p st e i).1

theorem runs_inv {g : UInt8 → Bool} {p : Cfg} {st : State} (h : Runs g p st) : Inv none st := by
  induction h with
  | start => exact inv_start _ _ _ _
  | step st e i _ hf ih =>
    exact inv_step g p e st ⟨⟨ih.s11.localIf, ih.s11.validation, ih.s11.handlers, ih.s11.own, fun s h => by cases h; exact hf⟩, ih.s5⟩ i

theorem unused (c : Conn) : ∃ n, ∀ imsi, c.byImsi.load imsi ≠ some n := by
  refine ⟨(c.byImsi.map Prod.snd).sum + 1, fun imsi h => ?_⟩
  simp only [SyncMap.load, Option.map_eq_some_iff] at h
  obtain ⟨x, hx, e⟩ := h
  have le : ∀ (l : List Nat) n, n ∈ l → n ≤ l.sum := by
    intro l
    induction l with
    | nil => intro n h; cases h
    | cons y l ih =>
      intro n h
      rw [List.sum_cons]
      rcases List.mem_cons.1 h with rfl | h
      · omega
      · have := ih n h; omega
  have := le (c.byImsi.map Prod.snd) x.2 (List.mem_map_of_mem (List.mem_of_find?_eq_some hx))
  omega

/-- only a Create Session Request takes a new session object -/
theorem runs_other {g : UInt8 → Bool} {p : Cfg} {st : State} (h : Runs g p st) (e : Env) (i : Input)
    (hi : ∀ n, step g p st { e with s := n } i = step g p st e i) : Runs g p (step g p st e i).1 := by
  obtain ⟨n, hn⟩ := unused st.s11
  rw [← hi n]
  exact Runs.step st _ i h hn

/-- the P-GW's address for control messages, and for user data, as text -/
def controlAddr (w : Bytes) : Addr := text (ipString w ++ colon :: portC)
def userAddr (w : Bytes) : Bytes := ipString w ++ colon :: portU

/-- the elements that are handed on as they are -/
def handedOn : List String :=
  ["IMSI", "MSISDN", "MEI", "ServingNetwork", "RATType", "IndicationFlags", "PGWS5S8FTEIDC", "APN", "SelectionMode", "PDNType", "PAA",
    "APNRestriction", "AMBR", "ULI", "MMEFQCSID"]

/-- the request the P-GW reads, made from the MME's request `m` -/
structure Forwards (g : UInt8 → Bool) (m m' : Message) (k5 ku : UInt32) (w5c w5u : Bytes) : Prop where
  same : ∀ name ∈ handedOn, ∀ l, Has m name l → Has m' name l
  /-- the S-GW's TEID for control messages -/
  fteid : ∃ i, Has m' "SenderFTEIDC" [i] ∧ FTEIDReads i 6 k5 (some w5c) none
  /-- one bearer: EBI 5, the S-GW's TEID for user data, a fixed quality of service -/
  bearer : ∃ i be bf bq, Has m' "BearerContextsToBeCreated" [i] ∧ i.children = [be, bf, bq] ∧ be.typ = 73 ∧ be.ebi g = ok 5 ∧
    FTEIDReads bf 4 ku (some w5u) none ∧ bq.typ = 80 ∧ bq.qciLabel g = ok 255 ∧ bq.priorityLevel g = ok 2
  csid : ∃ i, Has m' "SGWFQCSID" [i] ∧ i.nodeID = ok w5u ∧ i.csids = ok [1]
  /-- nothing else -/
  nothingElse : ∀ name l, name ∉ handedOn → name ∉ ["SenderFTEIDC", "BearerContextsToBeCreated", "SGWFQCSID"] → Has m' name l → l = []

/-- the two sessions the S-GW has for the subscriber after it sent the request on -/
structure Asked (st : State) (e : Env) (a aP : Addr) (v : Request) (k k5 ku : UInt32) : Prop where
  s11 : getSessionByTEID st.s11 k a = ok e.s ∧ getSessionByIMSI st.s11 v.imsi = ok e.s
  s5 : getSessionByTEID st.s5 k5 aP = ok e.s5 ∧ getSessionByIMSI st.s5 v.imsi = ok e.s5
  inactive : (st.s11.heap e.s).active = false ∧ (st.s5.heap e.s5).active = false
  subscriber : ∀ x, x = st.s11.heap e.s ∨ x = st.s5.heap e.s5 →
    x.imsi = v.imsi ∧ x.msisdn = v.msisdn ∧ x.imei = v.mei ∧ x.mcc = v.mcc ∧ x.mnc = v.mnc ∧ x.rat = v.rat
  teids11 : (st.s11.heap e.s).teids.load 11 = some k ∧ (st.s11.heap e.s).teids.load 10 = some v.teid
  teids5 : (st.s5.heap e.s5).teids.load 6 = some k5 ∧ (st.s5.heap e.s5).teids.load 4 = some ku ∧ (st.s5.heap e.s5).teids.load 7 = some v.pgw
  bearers : getDefaultBearer st.s11 e.s = some e.b ∧ (st.s11.brs e.b).apn = v.apn ∧ getDefaultBearer st.s5 e.s5 = some e.b5 ∧
    (st.s5.brs e.b5).apn = v.apn
  /-- departure: the EBI the MME asked for is not kept -/
  ebi : (st.s11.brs e.b).ebi = 0
  queue : st.q11 e.s = []
  /-- there are no other bearers -/
  only : (st.s11.heap e.s).bearers = [("default", some e.b)] ∧ (st.s5.heap e.s5).bearers = [("default", some e.b5)]

/-! ### from the statements to the model -/

def Request.vals (v : Request) : Vals := ⟨v.imsi, v.msisdn, v.mei, v.apn, (v.mcc, v.mnc), v.rat, v.teid, v.pgw, ipString v.pgwAddr⟩

theorem asks_in {g : UInt8 → Bool} {m : Message} (h : m.schema = Tab.createSessionRequest) {v : Request} (a : Asks g m v) :
    v.vals.In g m ∧ ∃ i r, m.fields 8 = i :: r ∧ i.interfaceType = ok 7 := by
  obtain ⟨i, r, e, h1, h2, h3⟩ := a.pgw
  have e := has_get h (k := 8) (by decide) e
  exact ⟨⟨(says_get h (by decide)).1 a.imsi, (says_get h (by decide)).1 a.msisdn, (says_get h (by decide)).1 a.mei,
    (says_get h (by decide)).1 a.apn, (says_get h (by decide)).1 a.network, (says_get h (by decide)).1 a.rat,
    (says_get h (by decide)).1 a.teid, ⟨i, r, e, h1, h2⟩⟩, i, r, e, h3⟩

theorem fteid_v4 (f n : UInt8) (k : UInt32) {w : Bytes} (hw : w.length = 4) (h : f < 64) : FTEIDReads (fteidOf f n k (ipString w)) f k (some w) none := by
  have := fteidOf_reads f n k (ipString w) h
  rw [(v4_text hw).2.2.2] at this
  exact this

theorem asked_of (st : State) (e : Env) (a aP : Addr) (v : Request) (k k5 ku : UInt32) (m : Message) (f : IE) :
    Asked (afterCreate st e a aP k k5 ku v.vals m f) e a aP v k k5 ku := by
  have h11 : (after11 st.s11 e.s e.b a k v.vals).heap e.s = { v.vals.sess a e.b with teids := (v.vals.sess a e.b).teids.store 11 k } := Pgw.put_heap _ _ _ _ _
  have h5 : (after5 st.s5 e.s5 e.b5 aP k5 ku v.vals).heap e.s5 = v.vals.sess5 aP e.b5 k5 ku := Pgw.put_heap _ _ _ _ _
  have b11 : (after11 st.s11 e.s e.b a k v.vals).brs e.b = v.vals.bearer := Pgw.put_brs _ _ _ _ _
  have b5 : (after5 st.s5 e.s5 e.b5 aP k5 ku v.vals).brs e.b5 = v.vals.bearer5 := Pgw.put_brs _ _ _ _ _
  refine ⟨⟨?_, ?_⟩, ⟨?_, ?_⟩, ⟨?_, ?_⟩, ?_, ⟨?_, ?_⟩, ⟨?_, ?_, ?_⟩, ⟨?_, ?_, ?_, ?_⟩, ?_, ?_, ⟨?_, ?_⟩⟩
  · refine getByTEID_ok.2 ⟨?_, ?_⟩
    · exact (SyncMap.load_store _ _ _ _).trans (if_pos rfl)
    · show ((after11 st.s11 e.s e.b a k v.vals).heap e.s).peer = a
      rw [h11]; rfl
  · unfold getSessionByIMSI
    rw [show (afterCreate st e a aP k k5 ku v.vals m f).s11.byImsi.load v.imsi = some e.s from (SyncMap.load_store _ _ _ _).trans (if_pos rfl)]
  · refine getByTEID_ok.2 ⟨?_, ?_⟩
    · exact (SyncMap.load_store _ _ _ _).trans (if_pos rfl)
    · show ((after5 st.s5 e.s5 e.b5 aP k5 ku v.vals).heap e.s5).peer = aP
      rw [h5]; rfl
  · unfold getSessionByIMSI
    rw [show (afterCreate st e a aP k k5 ku v.vals m f).s5.byImsi.load v.imsi = some e.s5 from (SyncMap.load_store _ _ _ _).trans (if_pos rfl)]
  · exact congrArg Sess.active h11
  · exact congrArg Sess.active h5
  · rintro x (rfl | rfl)
    · rw [show (afterCreate st e a aP k k5 ku v.vals m f).s11.heap e.s = _ from h11]
      exact ⟨rfl, rfl, rfl, rfl, rfl, rfl⟩
    · rw [show (afterCreate st e a aP k k5 ku v.vals m f).s5.heap e.s5 = _ from h5]
      exact ⟨rfl, rfl, rfl, rfl, rfl, rfl⟩
  · rw [show (afterCreate st e a aP k k5 ku v.vals m f).s11.heap e.s = _ from h11]; rfl
  · rw [show (afterCreate st e a aP k k5 ku v.vals m f).s11.heap e.s = _ from h11]; rfl
  · rw [show (afterCreate st e a aP k k5 ku v.vals m f).s5.heap e.s5 = _ from h5]; rfl
  · rw [show (afterCreate st e a aP k k5 ku v.vals m f).s5.heap e.s5 = _ from h5]; rfl
  · rw [show (afterCreate st e a aP k k5 ku v.vals m f).s5.heap e.s5 = _ from h5]; rfl
  · unfold getDefaultBearer
    rw [show (afterCreate st e a aP k k5 ku v.vals m f).s11.heap e.s = _ from h11]; rfl
  · rw [show (afterCreate st e a aP k k5 ku v.vals m f).s11.brs e.b = _ from b11]; rfl
  · unfold getDefaultBearer
    rw [show (afterCreate st e a aP k k5 ku v.vals m f).s5.heap e.s5 = _ from h5]; rfl
  · rw [show (afterCreate st e a aP k k5 ku v.vals m f).s5.brs e.b5 = _ from b5]; rfl
  · rw [show (afterCreate st e a aP k k5 ku v.vals m f).s11.brs e.b = _ from b11]; rfl
  · exact if_pos rfl
  · rw [show (afterCreate st e a aP k k5 ku v.vals m f).s11.heap e.s = _ from h11]; rfl
  · rw [show (afterCreate st e a aP k k5 ku v.vals m f).s5.heap e.s5 = _ from h5]; rfl

theorem forwards_of {g : UInt8 → Bool} (hg : Usual g) {m m' : Message} (hs : m.schema = Tab.createSessionRequest) (hs' : m'.schema = Tab.createSessionRequest)
    {k5 ku : UInt32} {w5c w5u : Bytes} (h5c : w5c.length = 4) (h5u : w5u.length = 4)
    (hF : ∀ j, m'.fields j = if j ∈ passed.map Prod.fst then m.fields j else if j = 7 then [fteidOf 6 0 k5 (ipString w5c)]
        else if j = 18 then [bearerIE g (fteidOf 4 2 ku (ipString w5u))] else if j = 23 then [csidIE 1 w5u] else []) :
    Forwards g m m' k5 ku w5c w5u := by
  have key : ∀ j, (h : j < Tab.createSessionRequest.fields.length) → (Tab.createSessionRequest.fields[j] ∈ handedOn ↔ j ∈ passed.map Prod.fst) ∧
      (Tab.createSessionRequest.fields[j] ∈ ["SenderFTEIDC", "BearerContextsToBeCreated", "SGWFQCSID"] ↔ j = 7 ∨ j = 18 ∨ j = 23) := by
    decide +kernel
  have lt : ∀ {j : Nat} {name : String}, Tab.createSessionRequest.fields[j]? = some name →
      ∃ h : j < Tab.createSessionRequest.fields.length, Tab.createSessionRequest.fields[j] = name := by
    intro j name h
    exact List.getElem?_eq_some_iff.1 h
  refine ⟨?_, ⟨_, has_of hs' (k := 7) (by decide) (hF 7), fteid_v4 6 0 k5 h5c (by decide)⟩, ?_, ?_, ?_⟩
  · rintro name hn l ⟨j, h1, rfl⟩
    rw [hs] at h1
    refine has_of hs' h1 ?_
    obtain ⟨h, e⟩ := lt h1
    rw [hF, if_pos (((key j h).1).1 (by rw [e]; exact hn))]
  · refine ⟨_, newEBI 5, fteidOf 4 2 ku (ipString w5u), qosIE, has_of hs' (k := 18) (by decide) (hF 18), rfl, rfl, ?_, fteid_v4 4 2 ku h5u (by decide), rfl, rfl, rfl⟩
    simp [newEBI, newUint8IE, IE.ebi, IE.valueAsUint8, hg.g73]
  · exact ⟨_, has_of hs' (k := 23) (by decide) (hF 23), csid_reads h5u 1⟩
  · rintro name l h1 h2 ⟨j, hj, rfl⟩
    rw [hs'] at hj
    obtain ⟨h, e⟩ := lt hj
    have n1 := fun h' => h1 (e ▸ ((key j h).1).2 h')
    have n2 := fun h' => h2 (e ▸ ((key j h).2).2 h')
    rw [hF, if_neg n1, if_neg (fun e => n2 (Or.inl e)), if_neg (fun e => n2 (Or.inr (Or.inl e))), if_neg (fun e => n2 (Or.inr (Or.inr e)))]

theorem droppable_of {o : Option Nat} {c : Conn} (h : Inv11 o c) {s : Nat} (hf : ∀ imsi, c.byImsi.load imsi ≠ some s) (imsi : Bytes) : Droppable c s imsi := by
  intro s₀ h0
  refine ⟨fun e => hf imsi (e ▸ h0), ?_⟩
  rw [h.localIf]
  exact h.own _ _ h0

theorem create_core {g : UInt8 → Bool} (hg : Usual g) {p : Cfg} {w11 w5c w1u w5u : Bytes} (hp : OnV4 p w11 w5c w1u w5u) {st : State}
    (hi : Inv none st) (e : Env) (hf : ∀ imsi, st.s11.byImsi.load imsi ≠ some e.s) {k k5 ku : UInt32} (hk : e.k11 = some k)
    (hk5 : e.k5 = some k5) (hku : e.k5u = some ku) (hw : e.w = true) (a : Addr) {d : Bytes} {m : Message} (hm : parseMsg g d = ok m)
    (hsc : m.schema = Tab.createSessionRequest) (hd : d.length ≤ 1424) (hr : Reaches st.s11 m.hdr.teidAcc a) {v : Request} (hv : Asks g m v) :
    ∃ out m', step g p st e (.s11 a d) = (afterCreate st e a (controlAddr v.pgwAddr) k k5 ku v.vals m (fteidOf 11 0 k p.s11IP),
        [(.s5, .sent (controlAddr v.pgwAddr) out)], ok ()) ∧
      parseMsg g (asRead out) = ok m' ∧ m'.schema = Tab.createSessionRequest ∧ m'.hdr.teidAcc = 0 ∧ m'.hdr.sequence = inc st.n5 ∧
      Forwards g m m' k5 ku w5c w5u := by
  obtain ⟨hin, h7⟩ := asks_in hsc hv
  obtain ⟨out, m', h1, h2, h3, h4, h5, h6⟩ := create_step hg hp hm hsc hd hin h7 hv.v4 rfl st e a hi.s11.localIf hi.s5.localIf
    (droppable_of hi.s11 hf _) hk hk5 hku hw
  refine ⟨out, m', ?_, h2, h3, h4, h5, forwards_of hg hsc h3 hp.s5c.1 hp.s5u.1 (by rw [← hp.s5c.2, ← hp.s5u.2]; exact h6)⟩
  have hs : serveDatagram g st.s11 a d e.w = ([.call 0 a m], ok ()) := by
    refine serve_reaches hm ?_ hr _
    rw [hi.s11.handlers, typ_of hm, hsc]; rfl
  simp only [step, hs]
  exact h1

/-- **C99** a complete Create Session Request from the MME, without TEID or for a session with its sender, is sent on: exactly one
datagram, to the address in the P-GW's F-TEID, port 2123, and nothing to the MME yet.  The P-GW reads in it the elements of the MME's
request, the S-GW's own TEIDs and addresses for control and user data, the S-GW's FQ-CSID, TEID 0 and the next sequence number.  Both
sessions are then found by their TEIDs and by the IMSI and hold the values of the request.  Partial: an IPv4 address of the P-GW, and the
request has at most 1424 octets, so that what is sent has at most 1500. -/
theorem C99_forward_partial (g : UInt8 → Bool) (hg : Usual g) (p : Cfg) (w11 w5c w1u w5u : Bytes) (hp : OnV4 p w11 w5c w1u w5u) (st : State)
    (h : Runs g p st) (e : Env) (hf : ∀ imsi, st.s11.byImsi.load imsi ≠ some e.s) (k k5 ku : UInt32) (hk : e.k11 = some k)
    (hk5 : e.k5 = some k5) (hku : e.k5u = some ku) (hw : e.w = true) (a : Addr) (d : Bytes) (m : Message) (hm : parseMsg g d = ok m)
    (hsc : m.schema = Tab.createSessionRequest) (hd : d.length ≤ 1424) (hr : Reaches st.s11 m.hdr.teidAcc a) (v : Request) (hv : Asks g m v) :
    ∃ st' out m', step g p st e (.s11 a d) = (st', [(.s5, .sent (controlAddr v.pgwAddr) out)], ok ()) ∧
      (∀ A n aS, A.handlers.load 32 = some (.app n) → ∀ w, serveDatagram g A aS (asRead out) w = ([.call n aS m'], ok ())) ∧
      m'.schema = Tab.createSessionRequest ∧ m'.hdr.teidAcc = 0 ∧ m'.hdr.sequence = inc st.n5 ∧ st'.n5 = inc st.n5 ∧
      Forwards g m m' k5 ku w5c w5u ∧ Asked st' e a (controlAddr v.pgwAddr) v k k5 ku ∧ st'.waiting.length = st.waiting.length + 1 := by
  obtain ⟨out, m', h1, h2, h3, h4, h5, h6⟩ := create_core hg hp (runs_inv h) e hf hk hk5 hku hw a hm hsc hd hr hv
  refine ⟨_, out, m', h1, ?_, h3, h4, h5, rfl, h6, asked_of _ _ _ _ _ _ _ _ _ _, by simp [afterCreate]⟩
  intro A n aS hA w
  exact serve_reaches h2 (by rw [typ_of h2, h3]; exact hA) (Or.inl h4) w

/-! ### C99: the whole attach -/

/-- the answer the MME reads -/
structure Grants (g : UInt8 → Bool) (m : Message) (ip : Bytes) (k kP kuP k1 : UInt32) (w11 cAddr uAddr w1u : Bytes) : Prop where
  cause : Says m "Cause" (IE.cause g) 16
  /-- the S-GW's TEID for control messages -/
  sgw : ∃ i, Has m "SenderFTEIDC" [i] ∧ FTEIDReads i 11 k (some w11) none
  /-- the P-GW's -/
  pgw : ∃ i, Has m "PGWS5S8FTEIDC" [i] ∧ FTEIDReads i 7 kP (some cAddr) none
  /-- the address the subscriber gets -/
  paa : Says m "PAA" IE.ipAddress ip
  /-- the bearer: where the P-GW and where the S-GW takes user data -/
  bearer : ∃ i bc be bp bs, Has m "BearerContextsCreated" [i] ∧ i.children = [bc, be, bp, bs] ∧ bc.cause g = ok 16 ∧ be.ebi g = ok 5 ∧
    FTEIDReads bp 5 kuP (some uAddr) none ∧ FTEIDReads bs 1 k1 (some w1u) none ∧ bc.typ = 2 ∧ be.typ = 73 ∧ bs.instance' = 0
  csid : ∃ i, Has m "SGWFQCSID" [i] ∧ i.nodeID = ok w1u ∧ i.csids = ok [1]
  csidP : ∃ i, Has m "PGWFQCSID" [i] ∧ i.nodeID = ok cAddr ∧ i.csids = ok [1]

/-- the two sessions of the subscriber in the end -/
structure Attached (st : State) (s b s5 b5 : Nat) (a aP : Addr) (v : Request) (k k5 ku k1 kP kuP : UInt32) (uAddr : Bytes) : Prop where
  found11 : getSessionByTEID st.s11 k a = ok s ∧ getSessionByIMSI st.s11 v.imsi = ok s
  found5 : getSessionByTEID st.s5 k5 aP = ok s5 ∧ getSessionByIMSI st.s5 v.imsi = ok s5
  active : (st.s11.heap s).active = true ∧ (st.s5.heap s5).active = true
  subscriber : ∀ x, x = st.s11.heap s ∨ x = st.s5.heap s5 →
    x.imsi = v.imsi ∧ x.msisdn = v.msisdn ∧ x.imei = v.mei ∧ x.mcc = v.mcc ∧ x.mnc = v.mnc ∧ x.rat = v.rat
  teids11 : (st.s11.heap s).teids.load 11 = some k ∧ (st.s11.heap s).teids.load 10 = some v.teid ∧ (st.s11.heap s).teids.load 1 = some k1
  teids5 : (st.s5.heap s5).teids.load 6 = some k5 ∧ (st.s5.heap s5).teids.load 7 = some kP ∧ (st.s5.heap s5).teids.load 4 = some ku ∧
    (st.s5.heap s5).teids.load 5 = some kuP
  /-- departure: the EBI of the S11 session stays 0 -/
  bearer11 : getDefaultBearer st.s11 s = some b ∧ (st.s11.brs b).apn = v.apn ∧ (st.s11.brs b).ebi = 0
  /-- where user data for the P-GW goes -/
  bearer5 : getDefaultBearer st.s5 s5 = some b5 ∧ (st.s5.brs b5).apn = v.apn ∧ (st.s5.brs b5).ebi = 5 ∧ (st.s5.brs b5).teidOut = kuP ∧
    st.r5 b5 = some (userAddr uAddr)
  /-- there are no other bearers -/
  only : (st.s11.heap s).bearers = [("default", some b)] ∧ (st.s5.heap s5).bearers = [("default", some b5)]

theorem has_get' {m : Message} (h : m.schema = Tab.createSessionResponse) {k : Nat} {name : String} {l : List IE}
    (hk : Tab.createSessionResponse.fields[k]? = some name) (hh : Has m name l) : m.fields k = l := by
  obtain ⟨j, hj, rfl⟩ := hh
  rw [h] at hj
  have nd : Tab.createSessionResponse.fields.Nodup := by decide +kernel
  have hlt : k < Tab.createSessionResponse.fields.length := by
    rcases Nat.lt_or_ge k Tab.createSessionResponse.fields.length with h | h
    · exact h
    · rw [List.getElem?_eq_none h] at hk; cases hk
  rw [(List.getElem?_inj hlt nd).1 (hk.trans hj.symm)]

theorem fteid_ip {i : IE} {f : UInt8} {t : UInt32} {w : Bytes} (h : FTEIDReads i f t (some w) none) : i.ipAddress = ok (ipString w) := by
  unfold IE.ipAddress
  rw [h.r_ip]; rfl

/-- what the P-GW is asked for -/
def Request.onward (v : Request) (k5 : UInt32) (kids : List IE) (ip : Bytes) : Pgw.Request :=
  ⟨v.imsi, v.msisdn, v.mei, v.apn, v.mcc, v.mnc, v.rat, k5, kids, ip⟩

theorem asks_onward {g : UInt8 → Bool} {m m' : Message} {v : Request} (hv : Asks g m v) {k5 ku : UInt32} {w5c w5u : Bytes}
    (hF : Forwards g m m' k5 ku w5c w5u) {ip : Bytes} (hip : Says m "PAA" IE.ipAddress ip) :
    ∃ be bf bq, be.typ = 73 ∧ be.ebi g = ok 5 ∧ FTEIDReads bf 4 ku (some w5u) none ∧ bq.typ = 80 ∧
      Pgw.Asks g m' (v.onward k5 [be, bf, bq] ip) := by
  obtain ⟨i, be, bf, bq, h1, h2, h3, h4, h5, h6, _⟩ := hF.bearer
  obtain ⟨i7, h7, r7⟩ := hF.fteid
  have t : ∀ {α : Type} {name : String} {f : IE → Res α} {x : α}, name ∈ handedOn → Says m name f x → Says m' name f x := by
    rintro α name f x hn ⟨i, r, hh, e⟩
    exact ⟨i, r, hF.same name hn _ hh, e⟩
  refine ⟨be, bf, bq, h3, h4, h5, h6, t (by decide) hv.imsi, t (by decide) hv.msisdn, t (by decide) hv.mei, t (by decide) hv.apn,
    t (by decide) hv.network, t (by decide) hv.rat, ⟨i7, [], h7, r7.r_teid⟩, ⟨i, [], h1, congrArg ok h2⟩, ?_, ?_, t (by decide) hip⟩
  · intro j hj ht
    simp only [Request.onward, List.mem_cons, List.not_mem_nil, or_false] at hj
    rcases hj with rfl | rfl | rfl
    · exact ⟨5, h4⟩
    · rw [h5.r_typ] at ht; cases ht
    · rw [h6] at ht; cases ht
  · intro j hj ht
    simp only [Request.onward, List.mem_cons, List.not_mem_nil, or_false] at hj
    rcases hj with rfl | rfl | rfl
    · rw [h3] at ht; cases ht
    · exact ⟨⟨_, h5.r_ifType⟩, ⟨_, h5.r_teid⟩, ⟨_, fteid_ip h5⟩⟩
    · rw [h6] at ht; cases ht

/-- a TEID that is free before is free when it is drawn -/
theorem drawn_of {g : UInt8 → Bool} {c : Conn} (hI : Pgw.Inv c) {s b : Nat} (hs : Pgw.Fresh c s) {k : UInt32} (hk0 : k ≠ 0)
    (hk : c.byTeid.load k = none) {a : Addr} {d : Bytes} {m : Message} (hm : parseMsg g d = ok m) (hsc : m.schema = Tab.createSessionRequest)
    {v : Pgw.Request} (hv : Pgw.Asks g m v) : Pgw.Drawn g c s b a d k := by
  refine ⟨hk0, fun m' hm' => ?_⟩
  rw [hm] at hm'
  obtain rfl := ok.inj hm'
  rw [Pgw.read_put g c s b a m v.vals ((Pgw.asks_in hsc v).1 hv) (hI.droppable hs _)]
  show (forget c v.imsi).byTeid.load k = none
  cases hl : (forget c v.imsi).byTeid.load k with
  | none => rfl
  | some z =>
    obtain ⟨_, s2, rfl, _⟩ := (hI.forget v.imsi).teid k z hl
    rw [(((Pgw.forget_loads hI v.imsi).2 k s2).1 hl).1] at hk; cases hk

/-- the P-GW's acceptance on S5-C -/
theorem accepted_step {g : UInt8 → Bool} {st : State} {e : Env} {a aP : Addr} {v : Request} {k k5 ku : UInt32} (hA : Asked st e a aP v k k5 ku)
    (hI : v.imsi ≠ []) {m : Message} (hsc : m.schema = Tab.createSessionResponse) (ht : m.hdr.teidAcc = k5) {kids : List IE} {ip cAddr uAddr : Bytes}
    (hu : uAddr.length = 4) {kP kuP : UInt32} (hg : Pgw.Accepts g m (v.onward k5 kids ip) 5 kP kuP (some cAddr) (some uAddr)) :
    ∃ bc be bf bd, (∃ r, Has m "BearerContextsCreated" (r :: []) ∧ r.children = [bc, be, bf, bd]) ∧ bc.cause g = ok 16 ∧ be.ebi g = ok 5 ∧
      FTEIDReads bf 5 kuP (some uAddr) none ∧ bd.chargingID g = ok 0 ∧ bc.typ = 2 ∧ be.typ = 73 ∧ bd.typ = 94 ∧ bd.instance' = 0 ∧
      handleCreated g aP m st = (afterCreated g st e.s5 e.b5 e.s 7 kP [bc, be, bf, bd] m, [], ok ()) := by
  obtain ⟨i0, r0, h0, c0⟩ := hg.cause
  obtain ⟨i6, r6, h6, c6⟩ := hg.paa
  obtain ⟨i5, h5, c5⟩ := hg.fteid
  obtain ⟨i, bc, be, bf, bd, h11, hc, x1, x2, x3, x4, x5, x6, x7, x8⟩ := hg.bearer
  have himsi := (hA.subscriber _ (Or.inr rfl)).1
  refine ⟨bc, be, bf, bd, ⟨i, h11, hc⟩, x1, x2, x3, x4, x5, x6, x7, x8, ?_⟩
  refine created_step (by rw [ht]; exact hA.s5.1) hsc ⟨_, _, has_get' hsc (k := 0) (by decide) h0, c0⟩ hA.bearers.2.2.1
    ⟨_, _, _, has_get' hsc (k := 6) (by decide) h6, c6⟩ ⟨_, _, has_get' hsc (k := 5) (by decide) h5, c5.r_ifType, c5.r_teid⟩
    ⟨_, _, has_get' hsc (k := 11) (by decide) h11, hc⟩ ?_ (by rw [himsi]; exact hI) (by rw [himsi]; exact hA.s11.2) (by rw [hA.queue]; decide)
  intro j hj
  simp only [List.mem_cons, List.not_mem_nil, or_false] at hj
  have no : ∀ {t t' : UInt8} {P : Prop}, j.typ = t → t ≠ t' → j.typ = t' → P := fun h1 h2 h3 => absurd (h1.symm.trans h3) h2
  rcases hj with rfl | rfl | rfl | rfl
  · exact ⟨fun _ => x1, no x5 (by decide), no x5 (by decide), no x5 (by decide)⟩
  · exact ⟨no x6 (by decide), fun _ => ⟨_, x2⟩, no x6 (by decide), no x6 (by decide)⟩
  · exact ⟨no x3.r_typ (by decide), no x3.r_typ (by decide), fun _ => ⟨uAddr, _, _, hu, fteid_ip x3, x3.r_teid, x3.r_ifType⟩, no x3.r_typ (by decide)⟩
  · exact ⟨no x7 (by decide), no x7 (by decide), no x7 (by decide), fun _ => ⟨_, x4⟩⟩

/-- the two sessions after the P-GW's acceptance and the answer to the MME -/
theorem attached_of {g : UInt8 → Bool} {st st' : State} {e : Env} {a aP : Addr} {v : Request} {k k5 ku k1 kP kuP : UInt32} {uAddr : Bytes}
    (hA : Asked st e a aP v k k5 ku) {bc be bf bd : IE} (h5 : be.ebi g = ok 5) (hf : FTEIDReads bf 5 kuP (some uAddr) none)
    (t2 : bc.typ = 2) (t73 : be.typ = 73) (t94 : bd.typ = 94) (m : Message)
    (e11 : st'.s11 = ready11 st.s11 e.s e.b k k1) (e5 : st'.s5 = (afterCreated g st e.s5 e.b5 e.s 7 kP [bc, be, bf, bd] m).s5)
    (er : st'.r5 = (afterCreated g st e.s5 e.b5 e.s 7 kP [bc, be, bf, bd] m).r5) :
    Attached st' e.s e.b e.s5 e.b5 a aP v k k5 ku k1 kP kuP uAddr := by
  have H11 : st'.s11.heap e.s = { st.s11.heap e.s with teids := ((st.s11.heap e.s).teids.store 11 k).store 1 k1, active := true } := by
    rw [e11]; exact Pgw.put_heap _ _ _ _ _
  have B11 : st'.s11.brs e.b = st.s11.brs e.b := by rw [e11]; exact Pgw.put_brs _ _ _ _ _
  let z := settled g st e.s5 e.b5 7 kP [bc, be, bf, bd]
  have H5 : st'.s5.heap e.s5 = { z.1 with active := true } := by rw [e5]; exact Pgw.put_heap _ _ _ _ _
  have B5 : st'.s5.brs e.b5 = z.2.1 := by rw [e5]; exact Pgw.put_brs _ _ _ _ _
  have R5 : st'.r5 e.b5 = z.2.2 := by rw [er]; exact if_pos rfl
  obtain ⟨f1, f2⟩ := kids_fixed g [bc, be, bf, bd] ({ st.s5.heap e.s5 with teids := (st.s5.heap e.s5).teids.store 7 kP }, st.s5.brs e.b5, st.r5 e.b5)
  change z.1 = _ at f1
  change z.2.1 = _ at f2
  have hmem : ∀ {P : IE → Prop}, P bc → P be → P bf → P bd → ∀ i ∈ [bc, be, bf, bd], P i := by
    intro P p1 p2 p3 p4 i hi
    simp only [List.mem_cons, List.not_mem_nil, or_false] at hi
    rcases hi with rfl | rfl | rfl | rfl <;> assumption
  have z1 : z.2.1.ebi = 5 := kids_ebi g _ _ 5 (hmem (by rw [t2]; intro h; cases h) (fun _ => h5) (by rw [hf.r_typ]; intro h; cases h) (by rw [t94]; intro h; cases h))
    (Or.inr ⟨be, by simp, t73⟩)
  obtain ⟨⟨z2, z3, z4⟩, z5⟩ := kids_fteid g [bc, be, bf, bd] ({ st.s5.heap e.s5 with teids := (st.s5.heap e.s5).teids.store 7 kP }, st.s5.brs e.b5, st.r5 e.b5)
    5 kuP (ipString uAddr)
    (hmem (by rw [t2]; intro h; cases h) (by rw [t73]; intro h; cases h) (fun _ => ⟨hf.r_ifType, hf.r_teid, fteid_ip hf⟩) (by rw [t94]; intro h; cases h))
    (Or.inr ⟨bf, by simp, hf.r_typ⟩)
  change z.1.teids.load 5 = _ at z2
  change z.2.1.teidOut = _ at z3
  change z.2.2 = _ at z4
  change ∀ f', f' ≠ 5 → z.1.teids.load f' = ((st.s5.heap e.s5).teids.store 7 kP).load f' at z5
  clear_value z
  obtain ⟨s1, s2⟩ := hA.s11
  obtain ⟨s3, s4⟩ := hA.s5
  refine ⟨⟨?_, ?_⟩, ⟨?_, ?_⟩, ⟨?_, ?_⟩, ?_, ⟨?_, ?_, ?_⟩, ⟨?_, ?_, ?_, ?_⟩, ⟨?_, ?_, ?_⟩, ⟨?_, ?_, ?_, ?_, ?_⟩, ⟨?_, ?_⟩⟩
  · refine getByTEID_ok.2 ⟨?_, ?_⟩
    · rw [e11]; exact (getByTEID_ok.1 s1).1
    · rw [H11]; exact (getByTEID_ok.1 s1).2
  · rw [Pgw.getByIMSI_eq (c := st.s11) (by rw [e11]; rfl)]; exact s2
  · refine getByTEID_ok.2 ⟨?_, ?_⟩
    · rw [e5]; exact (getByTEID_ok.1 s3).1
    · rw [H5, f1]; exact (getByTEID_ok.1 s3).2
  · rw [Pgw.getByIMSI_eq (c := st.s5) (by rw [e5]; rfl)]; exact s4
  · rw [H11]
  · rw [H5]
  · rintro x (rfl | rfl)
    · have := hA.subscriber _ (Or.inl rfl)
      rw [H11]; exact this
    · have := hA.subscriber _ (Or.inr rfl)
      rw [H5, f1]; exact this
  · rw [H11]; simp [SyncMap.load_store]
  · rw [H11]; simp [SyncMap.load_store, hA.teids11.2]
  · rw [H11]; simp [SyncMap.load_store]
  · rw [H5]; exact (z5 6 (by decide)).trans (by simp [SyncMap.load_store, hA.teids5.1])
  · rw [H5]; exact (z5 7 (by decide)).trans (by simp [SyncMap.load_store])
  · rw [H5]; exact (z5 4 (by decide)).trans (by simp [SyncMap.load_store, hA.teids5.2.1])
  · rw [H5]; exact z2
  · unfold getDefaultBearer; rw [H11]; exact hA.bearers.1
  · rw [B11]; exact hA.bearers.2.1
  · rw [B11]; exact hA.ebi
  · unfold getDefaultBearer; rw [H5, f1]; exact hA.bearers.2.2.1
  · rw [B5, f2]; exact hA.bearers.2.2.2
  · rw [B5, z1]
  · rw [B5, z3]
  · rw [R5, z4]; rfl
  · rw [H11]; exact hA.only.1
  · rw [H5, f1]; exact hA.only.2

theorem attach_core (g : UInt8 → Bool) (hg : Usual g) (p : Cfg) (w11 w5c w1u w5u : Bytes) (hp : OnV4 p w11 w5c w1u w5u) (st : State)
    (hi : Inv none st) (e : Env) (hf : ∀ imsi, st.s11.byImsi.load imsi ≠ some e.s) (k k5 ku : UInt32) (hk : e.k11 = some k)
    (hk5 : e.k5 = some k5) (hku : e.k5u = some ku) (hw : e.w = true) (a : Addr) (d : Bytes) (m : Message) (hm : parseMsg g d = ok m)
    (hsc : m.schema = Tab.createSessionRequest) (hd : d.length ≤ 1424) (hr : Reaches st.s11 m.hdr.teidAcc a) (v : Request) (hv : Asks g m v)
    (ip : Bytes) (hip : Says m "PAA" IE.ipAddress ip)
    (pp : Pgw.Cfg) (cAddr uAddr : Bytes) (hpp : Pgw.OnV4 pp cAddr uAddr) (c : Conn) (hc : Pgw.Runs g pp c) (s b : Nat) (hs : Pgw.Fresh c s)
    (kP kuP : UInt32) (hk0 : kP ≠ 0) (hkP : c.byTeid.load kP = none) (aS : Addr) (e₂ e₃ : Env) (k1 : UInt32) (hk1 : e₃.k1u = some k1)
    (hw₃ : e₃.w = true) :
    ∃ st₁ out₁ c' out₂ st₂ st₃ out₃ m₃, step g p st e (.s11 a d) = (st₁, [(.s5, .sent (controlAddr v.pgwAddr) out₁)], ok ()) ∧
      Pgw.serve g pp c s b (some kP) (some kuP) aS (asRead out₁) true = (c', [.sent aS out₂], ok ()) ∧
      step g p st₁ e₂ (.s5 (controlAddr v.pgwAddr) (asRead out₂)) = (st₂, [], ok ()) ∧
      step g p st₂ e₃ (.wake st.waiting.length) = (st₃, [(.s11, .sent a out₃)], ok ()) ∧
      (∀ A n aS', A.handlers.load 33 = some (.app n) → Reaches A v.teid aS' →
        ∀ w, serveDatagram g A aS' (asRead out₃) w = ([.call n aS' m₃], ok ())) ∧
      m₃.schema = Tab.createSessionResponse ∧ m₃.hdr.teidAcc = v.teid ∧ m₃.hdr.sequence = m.hdr.sequence ∧
      Grants g m₃ ip k kP kuP k1 w11 cAddr uAddr w1u ∧
      (∃ kids, Pgw.Holds c' s b aS (v.onward k5 kids ip) 5 kP kuP) ∧ (c'.heap s).teids.load 4 = some ku ∧
      Attached st₃ e.s e.b e.s5 e.b5 a (controlAddr v.pgwAddr) v k k5 ku k1 kP kuP uAddr ∧ st₃.waiting = st.waiting ∧ st₃.q11 e.s = [] ∧
      st₃.s1u = st.s1u ∧ st₃.s5u = st.s5u ∧ Pgw.Runs g pp c' ∧
      -- the message the P-GW reads
      (∃ m₁ be bf bq, parseMsg g (asRead out₁) = ok m₁ ∧ m₁.schema = Tab.createSessionRequest ∧ m₁.hdr.teidAcc = 0 ∧ be.typ = 73 ∧ be.ebi g = ok 5 ∧
        FTEIDReads bf 4 ku (some w5u) none ∧ bq.typ = 80 ∧ Pgw.Asks g m₁ (v.onward k5 [be, bf, bq] ip)) ∧
      -- its answer
      ∃ m₂, serveDatagram g st.s11 a d e.w = ([.call 0 a m], ok ()) ∧
        serveDatagram g st₁.s5 (controlAddr v.pgwAddr) (asRead out₂) e₂.w = ([.call 0 (controlAddr v.pgwAddr) m₂], ok ()) ∧
        m₂.schema = Tab.createSessionResponse ∧ m₂.hdr.teidAcc = k5 ∧ Says m₂ "Cause" (IE.cause g) 16 ∧ Says m₂ "PAA" IE.ipAddress ip ∧
        Asked st₁ e a (controlAddr v.pgwAddr) v k k5 ku ∧
        st₂.waiting[st.waiting.length]? = some (.create e.s e.s5 m₂.hdr.sequence a m (fteidOf 11 0 k p.s11IP) v.teid) ∧ st₂.q11 e.s = [m₂] ∧
        getDefaultBearer st₂.s11 e.s = some e.b := by
  obtain ⟨out₁, m₁, h1, h2, h3, h4, h5, hF⟩ := create_core hg hp hi e hf hk hk5 hku hw a hm hsc hd hr hv
  have hA := asked_of st e a (controlAddr v.pgwAddr) v k k5 ku m (fteidOf 11 0 k p.s11IP)
  have hi₁ := inv_step g p e st ⟨⟨hi.s11.localIf, hi.s11.validation, hi.s11.handlers, hi.s11.own, fun s h => by cases h; exact hf⟩, hi.s5⟩ (.s11 a d)
  rw [h1] at hi₁
  have hI : v.imsi ≠ [] := by obtain ⟨i, _, _, h⟩ := hv.imsi; exact Pgw.imsi_ne h
  -- the P-GW
  obtain ⟨be', bf', bq', x1, x2, x3, x4, hv'⟩ := asks_onward hv hF hip
  have hPI := Pgw.runs_inv hg.others hpp.control hc
  have no : ∀ {i : IE} {t t' : UInt8} {P : Prop}, i.typ = t → t ≠ t' → i.typ = t' → P := fun h1 h2 h3 => absurd (h1.symm.trans h3) h2
  have hdr := drawn_of (b := b) (a := aS) hPI hs hk0 hkP h2 h3 hv'
  have hc' := Pgw.Runs.datagram c s b kP kuP aS _ hc hs hdr
  obtain ⟨c', out₂, m₂, r1, r2, r3, r4, r5, r6, r7, r8, _, r9, _, r10⟩ :=
    Pgw.C98_create_partial g hg.others pp cAddr uAddr hpp c hc s b kP kuP aS (asRead out₁) hs hdr m₁ h2 h3 (Or.inl h4)
      _ hv' 5 (by
        intro i hi
        simp only [Request.onward, List.mem_cons, List.not_mem_nil, or_false] at hi
        rcases hi with rfl | rfl | rfl
        · exact fun _ => x2
        · exact no x3.r_typ (by decide)
        · exact no x4 (by decide)) (Or.inr ⟨be', by simp [Request.onward], x1⟩) (by
        intro i hi
        simp only [Request.onward, List.mem_cons, List.not_mem_nil, or_false] at hi
        rcases hi with rfl | rfl | rfl
        · exact no x1 (by decide)
        · intro _ hc; rw [x3.r_ifType] at hc; cases hc
        · exact no x4 (by decide))
  -- its answer
  have hs5 : serveDatagram g (afterCreate st e a (controlAddr v.pgwAddr) k k5 ku v.vals m (fteidOf 11 0 k p.s11IP)).s5 (controlAddr v.pgwAddr) (asRead out₂) e₂.w =
      ([.call 0 (controlAddr v.pgwAddr) m₂], ok ()) :=
    r3 _ 0 _ (by rw [hi₁.s5.handlers]; rfl) (Or.inr ⟨e.s5, hA.s5.1⟩) _
  have hp₂ : parseMsg g (asRead out₂) = ok m₂ := ((C35_reaches_partial g _ _ _ _ 0 (controlAddr v.pgwAddr) m₂).1.1 (by rw [hs5]; simp)).1
  obtain ⟨bc, be, bf, bd, ⟨bi, hb1, hb2⟩, y1, y2, y3, y4, y5, y6, y7, y8, hcr⟩ := accepted_step hA hI r4 r5 hpp.user4 r7
  -- the waiting handler
  have hlen : (asRead out₂).length ≤ 1459 := by
    have : (asRead out₂).length ≤ out₂.length := by unfold asRead; simp only [List.length_take]; omega
    omega
  let st₁ := afterCreate st e a (controlAddr v.pgwAddr) k k5 ku v.vals m (fteidOf 11 0 k p.s11IP)
  let st₂ := afterCreated g st₁ e.s5 e.b5 e.s 7 kP [bc, be, bf, bd] m₂
  let x := Waiting.create e.s e.s5 (inc st.n5) a m (fteidOf 11 0 k p.s11IP) v.teid
  let st₂' := x.pop { st₂ with waiting := st₂.waiting.eraseIdx st.waiting.length }
  have hwait : st₂.waiting = st.waiting ++ [x] := rfl
  have hq : x.queue st₂ = [m₂] := by
    show (if e.s = e.s then st₁.q11 e.s ++ [m₂] else _) = _
    rw [if_pos rfl]
    rw [show st₁.q11 e.s = [] from hA.queue]; rfl
  have e11 : st₂'.s11 = st₁.s11 := rfl
  have e5 : st₂'.s5 = st₂.s5 := rfl
  have hAtt := fun st' k1' e1 e2 e3 => attached_of (st' := st') (k1 := k1') (kP := kP) hA y2 y3 y5 y6 y7 m₂ e1 e2 e3
  have hpre := hAtt (with11 st₂' (ready11 st₁.s11 e.s e.b k k1)) k1 rfl rfl rfl
  obtain ⟨p0, hp0, c0⟩ := r7.paa
  obtain ⟨c1, hc1, c2⟩ := r7.cause
  obtain ⟨out₃, m₃, q1, q2, q3, q4, q5, q6, q7⟩ := finish_step hg hp hp₂ r4 hlen (has_get' r4 (k := 11) (by decide) hb1)
    (fun i r hir => by
      have := has_get' r4 (k := 6) (by decide) c0.1
      rw [hir] at this
      obtain ⟨rfl, -⟩ := List.cons.inj this
      exact ⟨_, c0.2⟩) st₂' e₃ a (s := e.s) (s5 := e.s5) (b := e.b) m (seq_small hm) k v.teid hk1 hw₃ hA.bearers.1
    (by rw [e11, (hA.subscriber _ (Or.inl rfl)).1]; exact hI) hpre.teids5.2.1 hpre.teids5.1
  have hread : asRead out₃ = out₃ := List.take_of_length_le (by omega)
  have hst₂ : step g p st₁ e₂ (.s5 (controlAddr v.pgwAddr) (asRead out₂)) = (st₂, [], ok ()) := by
    simp only [step]
    rw [hs5]
    exact hcr
  have hst₃ : step g p st₂ e₃ (.wake st.waiting.length) = (with11 st₂' (ready11 st₁.s11 e.s e.b k k1), [(.s11, .sent a out₃)], ok ()) := by
    have hget : st₂.waiting[st.waiting.length]? = some x := by rw [hwait]; simp
    simp only [step]
    rw [hget]
    simp only [hq]
    rw [if_neg (by rw [r6, h5]; simp [x, Waiting.seq])]
    exact q1
  refine ⟨st₁, out₁, c', out₂, st₂, _, out₃, m₃, h1, r1, hst₂, hst₃, ?_, q4, q5, q6, ⟨?_, ?_, ?_, ?_, ?_, ?_, ?_⟩, ⟨_, r9⟩, ?_, hpre, ?_, ?_, rfl, rfl, ?_,
    ⟨m₁, be', bf', bq', h2, h3, h4, x1, x2, x3, x4, hv'⟩, m₂, ?_, hs5, r4, r5, r7.cause, r7.paa, hA, ?_, hq, hA.bearers.1⟩
  · intro A n aS' hA1 hA2 w
    rw [hread]
    exact serve_reaches q3 (by rw [typ_of q3, q4]; exact hA1) (by rw [q5]; exact hA2) w
  · refine ⟨c1, hc1, has_of q4 (k := 0) (by decide) ?_, c2.2⟩
    rw [q7]; exact has_get' r4 (k := 0) (by decide) c2.1
  · refine ⟨_, has_of q4 (k := 4) (by decide) (by rw [q7]; rfl), ?_⟩
    rw [hp.s11.2]; exact fteid_v4 11 0 k hp.s11.1 (by decide)
  · obtain ⟨i, hi, hi'⟩ := r7.fteid
    refine ⟨i, has_of q4 (k := 5) (by decide) ?_, hi'⟩
    rw [q7]; exact has_get' r4 (k := 5) (by decide) hi
  · refine ⟨p0, hp0, has_of q4 (k := 6) (by decide) ?_, c0.2⟩
    rw [q7]; exact has_get' r4 (k := 6) (by decide) c0.1
  · refine ⟨_, bc, be, bf, fteidOf 1 0 k1 p.s1uIP, has_of q4 (k := 11) (by decide) (by rw [q7]; rfl), ?_, y1, y2, y3, ?_, y5, y6, (by decide : ((0 : UInt8) &&& 0x0f) &&& 0x0f = 0)⟩
    · show keep 94 0 (bi.children ++ _) = _
      rw [hb2]
      simp [keep, y5, y6, y7, y8, y3.r_typ, (fteidOf_reads 1 0 k1 p.s1uIP (by decide)).r_typ]
    · rw [hp.s1u.2]; exact fteid_v4 1 0 k1 hp.s1u.1 (by decide)
  · exact ⟨_, has_of q4 (k := 17) (by decide) (by rw [q7]; rfl), csid_reads hp.s1u.1 1⟩
  · obtain ⟨i, hi, hi'⟩ := r8 (by
      obtain ⟨i, hi, _⟩ := hF.csid
      intro hno
      have := (has_get h3 (k := 23) (by decide) hi).symm.trans (has_get h3 (k := 23) (by decide) hno)
      cases this)
    refine ⟨i, has_of q4 (k := 16) (by decide) ?_, hi'⟩
    rw [q7]; exact has_get' r4 (k := 16) (by decide) hi
  · refine r10 4 ku (by decide) (by decide) (by decide) ?_ ⟨bf', by simp [Request.onward], x3.r_typ, x3.r_ifType⟩
    intro i hi
    simp only [Request.onward, List.mem_cons, List.not_mem_nil, or_false] at hi
    rcases hi with rfl | rfl | rfl
    · exact no x1 (by decide)
    · exact fun _ _ => x3.r_teid
    · exact no x4 (by decide)
  · show st₂.waiting.eraseIdx st.waiting.length = _
    rw [hwait]
    simp [List.eraseIdx_append_of_length_le]
  · show (if e.s = e.s then (st₂.q11 e.s).drop 1 else _) = _
    rw [if_pos rfl]
    rw [show st₂.q11 e.s = [m₂] from hq]; rfl
  · rw [r1] at hc'
    exact hc'
  · refine serve_reaches hm ?_ hr _
    rw [hi.s11.handlers, typ_of hm, hsc]; rfl
  · rw [hwait, r6, h5]; simp [x]

/-- **C99** an attach through the S-GW and the P-GW of this example.  The MME's complete Create Session Request makes the S-GW send one
datagram to the P-GW, the P-GW answers it with one, that answer wakes the S-GW's waiting handler, and this sends one datagram to the MME.
It calls the MME's handler of Create Session Responses if the TEID the MME gave leads to a session with the S-GW there; that message has
the sequence number of the MME's request, the cause Request Accepted, the address the MME asked for, the S-GW's and the P-GW's TEIDs for
control messages, and a Bearer Context in which both give a TEID and an address for user data.  In the end the P-GW and the S-GW have
active sessions with all values of the request, each with the TEIDs the other one drew, and the S-GW's bearer points to the P-GW's address
and TEID for user data.  Partial: IPv4, at most 1424 octets, one datagram is handled after the other, and nothing is lost. -/
theorem C99_attach_partial (g : UInt8 → Bool) (hg : Usual g) (p : Cfg) (w11 w5c w1u w5u : Bytes) (hp : OnV4 p w11 w5c w1u w5u) (st : State)
    (h : Runs g p st) (e : Env) (hf : ∀ imsi, st.s11.byImsi.load imsi ≠ some e.s) (k k5 ku : UInt32) (hk : e.k11 = some k)
    (hk5 : e.k5 = some k5) (hku : e.k5u = some ku) (hw : e.w = true) (a : Addr) (d : Bytes) (m : Message) (hm : parseMsg g d = ok m)
    (hsc : m.schema = Tab.createSessionRequest) (hd : d.length ≤ 1424) (hr : Reaches st.s11 m.hdr.teidAcc a) (v : Request) (hv : Asks g m v)
    (ip : Bytes) (hip : Says m "PAA" IE.ipAddress ip)
    (pp : Pgw.Cfg) (cAddr uAddr : Bytes) (hpp : Pgw.OnV4 pp cAddr uAddr) (c : Conn) (hc : Pgw.Runs g pp c) (s b : Nat) (hs : Pgw.Fresh c s)
    (kP kuP : UInt32) (hk0 : kP ≠ 0) (hkP : c.byTeid.load kP = none) (aS : Addr) (e₂ e₃ : Env) (k1 : UInt32) (hk1 : e₃.k1u = some k1)
    (hw₃ : e₃.w = true) :
    ∃ st₁ out₁ c' out₂ st₂ st₃ out₃ m₃, step g p st e (.s11 a d) = (st₁, [(.s5, .sent (controlAddr v.pgwAddr) out₁)], ok ()) ∧
      Pgw.serve g pp c s b (some kP) (some kuP) aS (asRead out₁) true = (c', [.sent aS out₂], ok ()) ∧
      step g p st₁ e₂ (.s5 (controlAddr v.pgwAddr) (asRead out₂)) = (st₂, [], ok ()) ∧
      step g p st₂ e₃ (.wake st.waiting.length) = (st₃, [(.s11, .sent a out₃)], ok ()) ∧
      (∀ A n aS', A.handlers.load 33 = some (.app n) → Reaches A v.teid aS' →
        ∀ w, serveDatagram g A aS' (asRead out₃) w = ([.call n aS' m₃], ok ())) ∧
      m₃.schema = Tab.createSessionResponse ∧ m₃.hdr.teidAcc = v.teid ∧ m₃.hdr.sequence = m.hdr.sequence ∧
      Grants g m₃ ip k kP kuP k1 w11 cAddr uAddr w1u ∧
      (∃ kids, Pgw.Holds c' s b aS (v.onward k5 kids ip) 5 kP kuP) ∧ (c'.heap s).teids.load 4 = some ku ∧
      Attached st₃ e.s e.b e.s5 e.b5 a (controlAddr v.pgwAddr) v k k5 ku k1 kP kuP uAddr ∧ st₃.waiting = st.waiting ∧ st₃.q11 e.s = [] ∧
      st₃.s1u = st.s1u ∧ st₃.s5u = st.s5u ∧ Runs g p st₃ ∧ Pgw.Runs g pp c' := by
  obtain ⟨st₁, out₁, c', out₂, st₂, st₃, out₃, m₃, h1, h2, h3, h4, h5, h6, h7, h8, h9, h10, h11, h12, h13, h14, h15, h16, h17, -⟩ :=
    attach_core g hg p w11 w5c w1u w5u hp st (runs_inv h) e hf k k5 ku hk hk5 hku hw a d m hm hsc hd hr v hv ip hip pp cAddr uAddr hpp c hc s b hs
      kP kuP hk0 hkP aS e₂ e₃ k1 hk1 hw₃
  have hr₁ := Runs.step st e (.s11 a d) h hf
  rw [h1] at hr₁
  have hr₂ := runs_other hr₁ e₂ (.s5 (controlAddr v.pgwAddr) (asRead out₂)) (fun _ => rfl)
  have hr₃ := runs_other hr₂ e₃ (.wake st.waiting.length) (fun _ => rfl)
  rw [h3, h4] at hr₃
  exact ⟨st₁, out₁, c', out₂, st₂, st₃, out₃, m₃, h1, h2, h3, h4, h5, h6, h7, h8, h9, h10, h11, h12, h13, h14, h15, h16, hr₃, h17⟩

/-! ### an example: the MME "m", the S-GW on 10.0.1.1 to 10.0.1.4, the P-GW of Props/Pgw.lean on 10.0.0.1 -/

def exG : Cfg := ⟨ipString [10, 0, 1, 1], ipString [10, 0, 1, 2], ipString [10, 0, 1, 3], ipString [10, 0, 1, 4]⟩
/-- session and bearer objects number `n`, TEIDs `k` to `k + 3` -/
def exE (n : Nat) (k : UInt32) (w : Bool := true) : Env :=
  ⟨n, n, n, n, some k, some (k + 1), some (k + 2), some (k + 3), w, Order.id, Order.id⟩
def exStart : State := start (fun _ => Pgw.exS0) (fun _ => Pgw.exS0)
  (V1.UConn.newUConn 0 (some [10, 0, 1, 3]) fun _ => true) (V1.UConn.newUConn 1 (some [10, 0, 1, 4]) fun _ => true)
/-- the request of Props/Pgw.lean, with the MME's F-TEID for S11 and the F-TEID of the P-GW -/
def exIEs : List (Option IE) := Pgw.exIEs.set 6 (some (newIE 87 0 [0x8a, 0, 0, 0, 200, 10, 0, 2, 1])) ++ [some (newIE 87 1 [0x87, 0, 0, 0, 0, 10, 0, 0, 1])]
def exReq : Bytes := Pgw.exDatagram Tab.createSessionRequest 0 9 exIEs
def exV : Request := ⟨Pgw.exIMSI, [56, 49, 57, 48], [50, 49, 52, 51], [97], [48, 48, 49], [48, 49], 6, 200, 0, [10, 0, 0, 1]⟩

/-- what is sent, as it is read: the port, to whom, type, TEID, sequence number, and the elements -/
def exSeen (r : State × List (Port × Ev) × Res Unit) : List (Port × Pgw.ExSent) × Res Unit :=
  (r.2.1.filterMap fun x => match x.2 with
    | .sent a d => match parseMsg defaultGrouped d with
      | ok m => some (x.1, ⟨a, m.hdr.typ, m.hdr.teidAcc, m.hdr.sequence,
          (List.range 66).flatMap fun j => (m.fields j).map fun i => (i.typ, i.instance', i.payload)⟩)
      | _ => none
    | _ => none, r.2.2)
/-- the datagram it sends, if it is one -/
def exOut (r : State × List (Port × Ev) × Res Unit) : Bytes :=
  match r.2.1 with
  | [(_, .sent _ d)] => d
  | _ => []
def exP : Addr := "10.0.0.1:2123"

/-- the four steps of an attach -/
def ex1 : State × List (Port × Ev) × Res Unit := step defaultGrouped exG exStart (exE 0 20) (.s11 "m" exReq)
def exPgw : Conn × List Ev × Res Unit := Pgw.serve defaultGrouped Pgw.exP (Pgw.start fun _ => Pgw.exS0) 0 0 (some 7) (some 8) "10.0.1.2:2123" (exOut ex1) true
def ex2 : State × List (Port × Ev) × Res Unit :=
  step defaultGrouped exG ex1.1 (exE 1 30) (.s5 exP (match exPgw.2.1 with | [.sent _ d] => d | _ => []))
def ex3 : State × List (Port × Ev) × Res Unit := step defaultGrouped exG ex2.1 (exE 1 40) (.wake 0)

-- the request is complete
example : Asks defaultGrouped (newMessage defaultGrouped Tab.createSessionRequest 0 0 exIEs) exV := by
  have h : (newMessage defaultGrouped Tab.createSessionRequest 0 0 exIEs).schema = Tab.createSessionRequest := rfl
  refine ⟨(says_get h (k := 0) (by decide)).2 ⟨_, _, rfl, ?_⟩, (says_get h (k := 1) (by decide)).2 ⟨_, _, rfl, ?_⟩, (says_get h (k := 2) (by decide)).2 ⟨_, _, rfl, ?_⟩,
    (says_get h (k := 9) (by decide)).2 ⟨_, _, rfl, ?_⟩, (says_get h (k := 4) (by decide)).2 ⟨_, _, rfl, ?_⟩, (says_get h (k := 5) (by decide)).2 ⟨_, _, rfl, ?_⟩,
    (says_get h (k := 7) (by decide)).2 ⟨_, _, rfl, ?_⟩, ⟨_, _, has_of h (k := 8) (by decide) rfl, ?_, ?_, ?_⟩, rfl⟩
  all_goals decide +kernel

example : OnV4 exG [10, 0, 1, 1] [10, 0, 1, 2] [10, 0, 1, 3] [10, 0, 1, 4] := ⟨⟨rfl, rfl⟩, ⟨rfl, rfl⟩, ⟨rfl, rfl⟩, rfl, rfl⟩

-- what goes to the P-GW
example : exSeen ex1 = ([(.s5, ⟨exP, 32, 0, 1, [(1, 0, [0x00, 0x01, 0x11, 0x32, 0x54, 0x76, 0x98, 0xf1]), (76, 0, [0x18, 0x09]), (75, 0, [0x12, 0x34]),
    (83, 0, [0x00, 0xf1, 0x10]), (82, 0, [6]), (87, 0, [0x86, 0, 0, 0, 21, 10, 0, 1, 2]), (87, 1, [0x87, 0, 0, 0, 0, 10, 0, 0, 1]),
    (71, 0, [1, 97]), (79, 0, [1, 10, 9, 0, 1]),
    (93, 0, [73, 0, 1, 0, 5, 87, 0, 9, 2, 0x84, 0, 0, 0, 22, 10, 0, 1, 4, 80, 0, 22, 0, 0x49, 255] ++ List.replicate 20 0),
    (132, 1, [1, 10, 0, 1, 4, 0, 1])]⟩)], ok ()) := by
  decide +kernel

-- what comes back to the MME, and the sessions in the end
example : (exSeen ex2, ex2.1.waiting.length) = (([], ok ()), 1) ∧
    exSeen ex3 = ([(.s11, ⟨"m", 33, 200, 9, [(2, 0, [16, 0]), (87, 0, [0x8b, 0, 0, 0, 20, 10, 0, 1, 1]), (87, 1, [0x87, 0, 0, 0, 7, 10, 0, 0, 1]),
      (79, 0, [1, 10, 9, 0, 1]), (127, 0, [2]),
      (93, 0, [2, 0, 2, 0, 16, 0, 73, 0, 1, 0, 5, 87, 0, 9, 2, 0x85, 0, 0, 0, 8, 10, 0, 0, 2, 87, 0, 9, 0, 0x81, 0, 0, 0, 43, 10, 0, 1, 3]),
      (132, 0, [1, 10, 0, 0, 1, 0, 1]), (132, 1, [1, 10, 0, 1, 3, 0, 1])]⟩)], ok ()) ∧
    getSessionByTEID ex3.1.s11 20 "m" = ok 0 ∧ getSessionByTEID ex3.1.s5 21 exP = ok 0 ∧ getSessionByTEID exPgw.1 7 "10.0.1.2:2123" = ok 0 ∧
    ex3.1.waiting.length = 0 := by
  decide +kernel

-- a request without the P-GW goes nowhere and changes nothing; one with it, but without MSISDN, goes nowhere, but removes the
-- subscriber's session on S11, whoever sends it
def exPart (ies : List (Option IE)) : State × List (Port × Ev) × Res Unit :=
  step defaultGrouped exG ex3.1 (exE 1 30) (.s11 "t" (Pgw.exDatagram Tab.createSessionRequest 0 9 ies))
example : exSeen (exPart (exIEs.take 9)) = ([], err .other) ∧ getSessionByTEID (exPart (exIEs.take 9)).1.s11 20 "m" = ok 0 ∧
    exSeen (exPart (exIEs.eraseIdx 1)) = ([], err .other) ∧ getSessionByTEID (exPart (exIEs.eraseIdx 1)).1.s11 20 "m" = err .notFound ∧
    getSessionByTEID (exPart (exIEs.eraseIdx 1)).1.s5 21 exP = ok 0 := by
  decide +kernel

end Verif.V2.Sgw

/-! ### cases that meet the hypotheses -/

namespace Verif.V2.Sgw
open Res Send Conn NetIP Spec IPSpec
open Pgw (Says says_get has_of exMsg exMsg_ok exSchema)

theorem exUsual : Usual defaultGrouped := ⟨Pgw.exUsual, rfl⟩
theorem exOnV4 : OnV4 exG [10, 0, 1, 1] [10, 0, 1, 2] [10, 0, 1, 3] [10, 0, 1, 4] := ⟨⟨rfl, rfl⟩, ⟨rfl, rfl⟩, ⟨rfl, rfl⟩, rfl, rfl⟩
theorem exReq_ok : parseMsg defaultGrouped exReq = ok (exMsg exReq) := exMsg_ok (by decide +kernel)
theorem exReq_schema : (exMsg exReq).schema = Tab.createSessionRequest := exSchema _ (by simp [Tab.all]) exReq_ok (by decide +kernel)
theorem exReq_teid : (exMsg exReq).hdr.teidAcc = 0 := by decide +kernel
theorem exReq_fields (j : Nat) (hj : j < 20) : (exMsg exReq).fields j = (newMessage defaultGrouped Tab.createSessionRequest 0 0 exIEs).fields j := by
  have : ∀ j ∈ List.range 20, (exMsg exReq).fields j = (newMessage defaultGrouped Tab.createSessionRequest 0 0 exIEs).fields j := by decide +kernel
  exact this j (List.mem_range.2 hj)
theorem exReq_asks : Asks defaultGrouped (exMsg exReq) exV := by
  have h := exReq_schema
  refine ⟨(says_get h (k := 0) (by decide)).2 ⟨_, _, exReq_fields 0 (by decide), ?_⟩, (says_get h (k := 1) (by decide)).2 ⟨_, _, exReq_fields 1 (by decide), ?_⟩,
    (says_get h (k := 2) (by decide)).2 ⟨_, _, exReq_fields 2 (by decide), ?_⟩,
    (says_get h (k := 9) (by decide)).2 ⟨_, _, exReq_fields 9 (by decide), ?_⟩, (says_get h (k := 4) (by decide)).2 ⟨_, _, exReq_fields 4 (by decide), ?_⟩,
    (says_get h (k := 5) (by decide)).2 ⟨_, _, exReq_fields 5 (by decide), ?_⟩,
    (says_get h (k := 7) (by decide)).2 ⟨_, _, exReq_fields 7 (by decide), ?_⟩, ⟨_, _, has_of h (k := 8) (by decide) (exReq_fields 8 (by decide)), ?_, ?_, ?_⟩, rfl⟩
  all_goals decide +kernel
theorem exReq_paa : Says (exMsg exReq) "PAA" IE.ipAddress (ipString [10, 9, 0, 1]) :=
  (says_get exReq_schema (k := 12) (by decide)).2 ⟨_, _, exReq_fields 12 (by decide), by decide +kernel⟩
theorem exUnused : ∀ imsi, exStart.s11.byImsi.load imsi ≠ some (exE 0 20).s := fun _ h => by cases h
theorem exRuns0 : Runs defaultGrouped exG exStart := .start _ _ _ _

example := C99_forward_partial _ exUsual exG _ _ _ _ exOnV4 exStart exRuns0 (exE 0 20) exUnused 20 21 22 rfl rfl rfl rfl "m" exReq _ exReq_ok exReq_schema
  (by decide +kernel) (.inl exReq_teid) exV exReq_asks
example := C99_attach_partial _ exUsual exG _ _ _ _ exOnV4 exStart exRuns0 (exE 0 20) exUnused 20 21 22 rfl rfl rfl rfl "m" exReq _ exReq_ok exReq_schema
  (by decide +kernel) (.inl exReq_teid) exV exReq_asks _ exReq_paa Pgw.exP _ _ Pgw.exOnV4 _ Pgw.exRuns0 0 0 Pgw.exFresh0 7 8 (by decide) rfl "10.0.1.2:2123"
  (exE 1 30) (exE 1 40) 43 rfl rfl
end Verif.V2.Sgw
