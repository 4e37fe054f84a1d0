import Verif.Proofs.PgwServe
/-
C98: the P-GW of examples/gw-tester (examples/gw-tester/pgw/handlers.go, pgw.go:73-91) between the datagrams it gets and those it
sends.  Model: Model/Pgw.lean.
-/
namespace Verif.V2.Pgw
open Res Send Conn NetIP Spec IPSpec

/-- the element types are filed as the library does at the start: of those here only Bearer Context is grouped -/
def Usual (g : UInt8 → Bool) : Prop := (∀ t ∈ [2, 87, 79, 127, 73, 94, 132], g t = false) ∧ g 93 = true

/-- the first element of the field of this name has this value -/
def Says {α : Type} (m : Message) (name : String) (f : IE → Res α) (v : α) : Prop := ∃ i r, Has m name (i :: r) ∧ f i = ok v

/-- what a Create Session Request asks for -/
structure Request where
  imsi : Bytes
  msisdn : Bytes
  mei : Bytes
  apn : Bytes
  mcc : Bytes
  mnc : Bytes
  rat : UInt8
  /-- the S-GW's TEID for the answer -/
  teid : UInt32
  /-- the elements in the first Bearer Context -/
  bearer : List IE
  /-- the address of the subscriber, as text -/
  ip : Bytes

/-- the request is complete and asks for `v`: the nine elements are there and have these values, and what is in the Bearer Context
can be read -/
structure Asks (g : UInt8 → Bool) (m : Message) (v : Request) : Prop where
  imsi : Says m "IMSI" IE.imsi v.imsi
  msisdn : Says m "MSISDN" IE.msisdn v.msisdn
  mei : Says m "MEI" IE.mei v.mei
  apn : Says m "APN" (apnOf g) v.apn
  network : Says m "ServingNetwork" IE.plmn (v.mcc, v.mnc)
  rat : Says m "RATType" (ratOf g) v.rat
  teid : Says m "SenderFTEIDC" IE.teid v.teid
  bearer : Says m "BearerContextsToBeCreated" (fun i => ok i.children) v.bearer
  bearerEBI : ∀ i ∈ v.bearer, i.typ = 73 → ∃ e, i.ebi g = ok e
  bearerFTEID : ∀ i ∈ v.bearer, i.typ = 87 → (∃ f, i.interfaceType = ok f) ∧ (∃ t, i.teid = ok t) ∧ ∃ x, i.ipAddress = ok x
  ip : Says m "PAA" IE.ipAddress v.ip

/-- the P-GW has an IPv4 address on both sides -/
structure OnV4 (p : Cfg) (cAddr uAddr : Bytes) : Prop where
  control : to4 p.laddr.ip = some cAddr ∧ p.laddr.zone = []
  user : ∃ port, p.s5u = ipString uAddr ++ colon :: port
  user4 : uAddr.length = 4

/-- the TEID NewSenderFTEID draws is not 0 and not in use at that moment (`C32_unique`) -/
def Drawn (g : UInt8 → Bool) (c : Conn) (s b : Nat) (a : Addr) (d : Bytes) (k : UInt32) : Prop :=
  k ≠ 0 ∧ ∀ m, parseMsg g d = ok m → (readRequest g s b a m c).1.byTeid.load k = none

/-- the states of the P-GW after any number of datagrams, from anyone, with any octets; writes succeed.  `s` is a session object
that is not in use. -/
inductive Runs (g : UInt8 → Bool) (p : Cfg) : Conn → Prop
  | start (heap : Nat → Sess) : Runs g p (start heap)
  | datagram (c : Conn) (s b : Nat) (k ku : UInt32) (a : Addr) (d : Bytes) : Runs g p c → Fresh c s → Drawn g c s b a d k →
      Runs g p (serve g p c s b (some k) (some ku) a d true).1

/-! ### from the statements to the model -/

def Request.vals (v : Request) : Vals := ⟨v.imsi, v.msisdn, v.mei, v.apn, (v.mcc, v.mnc), v.rat, v.teid, v.bearer, v.ip⟩

theorem says_get {α : Type} {m : Message} (h : m.schema = Tab.createSessionRequest) {k : Nat} {name : String} {f : IE → Res α} {v : α}
    (hk : Tab.createSessionRequest.fields[k]? = some name) : Says m name f v ↔ ∃ i r, m.fields k = i :: r ∧ f i = ok v := by
  constructor
  · rintro ⟨i, r, hh, hf⟩
    exact ⟨i, r, has_get h hk hh, hf⟩
  · rintro ⟨i, r, hh, hf⟩
    exact ⟨i, r, has_of h hk hh, hf⟩

theorem asks_in {g : UInt8 → Bool} {m : Message} (h : m.schema = Tab.createSessionRequest) (v : Request) :
    Asks g m v ↔ v.vals.In g m := by
  constructor
  · intro a
    have hb := (says_get h (k := 18) (by decide)).1 a.bearer
    obtain ⟨i, r, e, hi⟩ := hb
    exact ⟨(says_get h (by decide)).1 a.imsi, (says_get h (by decide)).1 a.msisdn, (says_get h (by decide)).1 a.mei,
      (says_get h (by decide)).1 a.apn, (says_get h (by decide)).1 a.network, (says_get h (by decide)).1 a.rat,
      (says_get h (by decide)).1 a.teid, ⟨i, r, e, ok.inj hi, fun j hj => ⟨a.bearerEBI j hj, a.bearerFTEID j hj⟩⟩,
      (says_get h (by decide)).1 a.ip⟩
  · intro a
    obtain ⟨i, r, e, hi, hk⟩ := a.kids
    exact ⟨(says_get h (by decide)).2 a.imsi, (says_get h (by decide)).2 a.msisdn, (says_get h (by decide)).2 a.imei,
      (says_get h (by decide)).2 a.apn, (says_get h (by decide)).2 a.plmn, (says_get h (by decide)).2 a.rat,
      (says_get h (by decide)).2 a.teid, (says_get h (k := 18) (by decide)).2 ⟨i, r, e, congrArg ok hi⟩,
      fun j hj => (hk j hj).1, fun j hj => (hk j hj).2, (says_get h (by decide)).2 a.ip⟩

theorem asks_some {g : UInt8 → Bool} {m : Message} (h : m.schema = Tab.createSessionRequest) :
    (∃ v : Vals, v.In g m) ↔ ∃ v, Asks g m v :=
  ⟨fun ⟨v, hv⟩ => ⟨⟨v.imsi, v.msisdn, v.imei, v.apn, v.plmn.1, v.plmn.2, v.rat, v.teid, v.kids, v.ip⟩, (asks_in h _).2 hv⟩,
    fun ⟨v, hv⟩ => ⟨_, (asks_in h v).1 hv⟩⟩

theorem Drawn.free {g : UInt8 → Bool} {c : Conn} {s b : Nat} {a : Addr} {d : Bytes} {k : UInt32} (hd : Drawn g c s b a d k)
    (h : Inv c) (hs : Fresh c s) {m : Message} (hp : parseMsg g d = ok m) {v : Vals} (hv : v.In g m) : (forget c v.imsi).byTeid.load k = none := by
  have := hd.2 m hp
  rw [read_put g c s b a m v hv (h.droppable hs _)] at this
  exact this

/-! ### C98: no datagram crashes the P-GW -/

theorem serve_inv {g : UInt8 → Bool} (hg : Usual g) {p : Cfg} {cAddr : Bytes} (hp4 : to4 p.laddr.ip = some cAddr ∧ p.laddr.zone = [])
    {c : Conn} (h : Inv c) {s b : Nat} {k : UInt32} (ku : UInt32) {a : Addr} {d : Bytes} (hs : Fresh c s) (hd : Drawn g c s b a d k) :
    Inv (serve g p c s b (some k) (some ku) a d true).1 ∧ Returns (serve g p c s b (some k) (some ku) a d true).2.2 := by
  rcases serve_cases g p h s b (some k) (some ku) a d true with ⟨m, hp, hm, hr, e⟩ | ⟨m, hp, hm, hr, e⟩ | ⟨e, _⟩
  · rw [e]
    by_cases hv : ∃ v : Vals, v.In g m
    · obtain ⟨v, hv⟩ := hv
      obtain ⟨u, h6⟩ := kids6 v a b
      have hip : IsIP (host p.laddr.string) (v4Prefix ++ cAddr) := by
        rw [host_v4 hp4.1 hp4.2]; exact (v4_text (NetIP.to4_len hp4.1).1).2.2.1
      obtain ⟨rs, out, m', e1, _⟩ := create_ok g hg.1 hg.2 p h hs b k ku a hp hm hv h6 _ (fun _ => hip)
      rw [e1]
      exact ⟨h.admitted hs b ku a v hd.1 (hd.free h hs hp hv) h6, by simp⟩
    · obtain ⟨c', e', h1, h2⟩ := incomplete_put g p h hs b (some k) (some ku) a hm hv true
      rw [h1]
      refine ⟨?_, by simp⟩
      rcases h2 with ⟨_, _, imsi, _, _, x, y, rfl⟩ | ⟨_, x, y, rfl⟩
      · exact (h.forget imsi).put (forget_fresh hs imsi) b x y
      · exact h.put hs b x y
  · rw [e]
    rcases hr with h0 | ⟨s1, hs1⟩
    · obtain ⟨out, m', e1, _⟩ := delete_none g (hg.1 2 (by simp)) h a hp h0
      rw [e1]; exact ⟨h, by simp⟩
    · obtain ⟨u, out, m', h6, e1, _⟩ := delete_ok g (hg.1 2 (by simp)) h a hp hs1
      rw [e1]
      refine ⟨h.without ?_, by simp⟩
      unfold getSessionByTEID at hs1
      split at hs1
      · cases hs1
      · cases hs1
      · split at hs1
        · cases hs1
        · rename_i e _; obtain rfl := ok.inj hs1; exact e
  · rw [e]
    refine ⟨h, ?_⟩
    obtain ⟨h1, h2⟩ := C34_panics_iff g c a d true
    refine ⟨fun hpn => ?_, h2⟩
    obtain ⟨_, m, _, _, hl⟩ := h1.1 hpn
    obtain ⟨_, _, e, _⟩ := h.teid _ _ hl
    cases e

theorem runs_inv {g : UInt8 → Bool} (hg : Usual g) {p : Cfg} {cAddr : Bytes} (hp4 : to4 p.laddr.ip = some cAddr ∧ p.laddr.zone = [])
    {c : Conn} (h : Runs g p c) : Inv c := by
  induction h with
  | start heap => exact inv_start heap
  | datagram c s b k ku a d _ hs hd ih => exact (serve_inv hg hp4 ih ku hs hd).1

/-- **C98** a P-GW on an IPv4 address survives every datagram, whatever it got before, as long as its writes succeed and one datagram
is handled after the other (`C98_unwritten_wrong`, `C98_window_wrong`). -/
theorem C98_safe (g : UInt8 → Bool) (hg : Usual g) (p : Cfg) (cAddr uAddr : Bytes) (hp : OnV4 p cAddr uAddr) (c : Conn)
    (h : Runs g p c) (s b : Nat) (k ku : UInt32) (a : Addr) (d : Bytes) (hs : Fresh c s) (hd : Drawn g c s b a d k) :
    Returns (serve g p c s b (some k) (some ku) a d true).2.2 :=
  (serve_inv hg hp.control (runs_inv hg hp.control h) ku hs hd).2

/-- **C98** the two tables agree: a session that is found by its IMSI is found by the TEID it has for this interface, and the other way
round; sessions that are found are active and know where to send answers. -/
theorem C98_tables (g : UInt8 → Bool) (hg : Usual g) (p : Cfg) (cAddr uAddr : Bytes) (hp : OnV4 p cAddr uAddr) (c : Conn) (h : Runs g p c) :
    (∀ i s, getSessionByIMSI c i = ok s → (c.heap s).imsi = i ∧
      ∃ t, (c.heap s).teids.load 7 = some t ∧ getSessionByTEID c t (c.heap s).peer = ok s) ∧
    (∀ t a s, getSessionByTEID c t a = ok s → a = (c.heap s).peer ∧ (c.heap s).teids.load 7 = some t ∧
      getSessionByIMSI c (c.heap s).imsi = ok s ∧ (c.heap s).active = true ∧ ∃ u, (c.heap s).teids.load 6 = some u) := by
  have hi := runs_inv hg hp.control h
  refine ⟨fun i s e => ?_, fun t a s e => ?_⟩
  · unfold getSessionByIMSI at e
    split at e
    · rename_i s' hs
      obtain rfl := ok.inj e
      obtain ⟨h1, t, h2, h3⟩ := hi.imsi _ _ hs
      exact ⟨h1, t, h2, by unfold getSessionByTEID; simp [h3]⟩
    · cases e
  · unfold getSessionByTEID at e
    split at e
    · cases e
    · cases e
    · split at e
      · cases e
      · rename_i s' hl hne
        obtain rfl := ok.inj e
        obtain ⟨_, s1, e1, h7, h6, hm, hact⟩ := hi.teid _ _ hl
        obtain rfl := Option.some.inj e1
        exact ⟨Classical.not_not.1 hne, h7, by unfold getSessionByIMSI; rw [hm], hact, h6⟩

/-! ### C98: a complete Create Session Request -/

/-- the answer the S-GW reads -/
structure Accepts (g : UInt8 → Bool) (m' : Message) (v : Request) (e : UInt8) (k ku : UInt32) (cAddr uAddr : Option Bytes) : Prop where
  cause : Says m' "Cause" (IE.cause g) 16
  /-- the TEID for later requests -/
  fteid : ∃ i, Has m' "PGWS5S8FTEIDC" [i] ∧ FTEIDReads i 7 k cAddr none
  /-- the address is the one asked for -/
  paa : Says m' "PAA" IE.ipAddress v.ip
  /-- the bearer, and the TEID for user data -/
  bearer : ∃ i bc be bf bd, Has m' "BearerContextsCreated" [i] ∧ i.children = [bc, be, bf, bd] ∧ bc.cause g = ok 16 ∧
    be.ebi g = ok (e &&& 15) ∧ FTEIDReads bf 5 ku uAddr none ∧ bd.chargingID g = ok 0 ∧
    bc.typ = 2 ∧ be.typ = 73 ∧ bd.typ = 94 ∧ bd.instance' = 0

/-- the session is there and has what was asked for -/
structure Holds (c : Conn) (s b : Nat) (a : Addr) (v : Request) (e : UInt8) (k ku : UInt32) : Prop where
  byTEID : getSessionByTEID c k a = ok s
  byIMSI : getSessionByIMSI c v.imsi = ok s
  subscriber : (c.heap s).imsi = v.imsi ∧ (c.heap s).msisdn = v.msisdn ∧ (c.heap s).imei = v.mei ∧ (c.heap s).mcc = v.mcc ∧
    (c.heap s).mnc = v.mnc ∧ (c.heap s).rat = v.rat
  active : (c.heap s).active = true
  teids : (c.heap s).teids.load 7 = some k ∧ (c.heap s).teids.load 5 = some ku ∧ (c.heap s).teids.load 6 = some v.teid
  bearer : (c.heap s).bearers.load "default" = some (some b) ∧ (c.brs b).apn = v.apn ∧ (c.brs b).ebi = e

/-- all other sessions are as they were -/
def Others (c c' : Conn) (s : Nat) (imsi : Bytes) : Prop :=
  (∀ i, i ≠ imsi → getSessionByIMSI c' i = getSessionByIMSI c i) ∧ (∀ j, j ≠ s → c'.heap j = c.heap j) ∧
  (∀ t a j, j ≠ s → (getSessionByTEID c' t a = ok j ↔ getSessionByTEID c t a = ok j ∧ (c.heap j).imsi ≠ imsi))

theorem getByTEID_ok {c : Conn} {t : UInt32} {a : Addr} {s : Nat} :
    getSessionByTEID c t a = ok s ↔ c.byTeid.load t = some (some s) ∧ (c.heap s).peer = a := by
  unfold getSessionByTEID
  split
  · rename_i h; simp [h]
  · rename_i h; simp [h]
  · rename_i s' h
    simp only [h, Option.some.injEq]
    constructor
    · intro e
      split at e
      · cases e
      · rename_i hne; obtain rfl := ok.inj e; exact ⟨rfl, (Classical.not_not.1 hne).symm⟩
    · rintro ⟨rfl, rfl⟩
      simp

theorem getByIMSI_eq {c c' : Conn} {i : Bytes} (h : c'.byImsi.load i = c.byImsi.load i) : getSessionByIMSI c' i = getSessionByIMSI c i := by
  unfold getSessionByIMSI; rw [h]

theorem forget_loads {c : Conn} (h : Inv c) (imsi : Bytes) :
    (∀ i, (forget c imsi).byImsi.load i = if i = imsi then none else c.byImsi.load i) ∧
    (∀ t s, (forget c imsi).byTeid.load t = some (some s) ↔ c.byTeid.load t = some (some s) ∧ (c.heap s).imsi ≠ imsi) := by
  have key : ∀ t s, c.byTeid.load t = some (some s) → c.byImsi.load (c.heap s).imsi = some s ∧ (c.heap s).teids.load 7 = some t := by
    intro t s ht
    obtain ⟨_, s', e, h7, _, hi, _⟩ := h.teid _ _ ht
    obtain rfl := Option.some.inj e
    exact ⟨hi, h7⟩
  unfold forget
  cases hl : c.byImsi.load imsi with
  | none =>
    refine ⟨fun i => ?_, fun t s => ⟨fun ht => ⟨ht, ?_⟩, fun ht => ht.1⟩⟩
    · by_cases e : i = imsi
      · rw [if_pos e, e]; exact hl
      · rw [if_neg e]
    · intro e
      have := (key t s ht).1
      rw [e, hl] at this
      cases this
  | some s0 =>
    obtain ⟨k1, t0, k2, k3⟩ := h.imsi _ _ hl
    simp only
    rw [show (c.heap s0).teids.load c.localIf = some t0 by rw [h.localIf]; exact k2, k1]
    refine ⟨fun i => SyncMap.load_delete _ _ _, fun t s => ?_⟩
    simp only [SyncMap.load_delete]
    constructor
    · intro ht
      split at ht
      · cases ht
      · rename_i hne
        refine ⟨ht, fun e => hne ?_⟩
        obtain ⟨h1, h2⟩ := key t s ht
        rw [e, hl] at h1
        obtain rfl := Option.some.inj h1
        rw [k2] at h2
        exact (Option.some.inj h2).symm
    · rintro ⟨ht, hne⟩
      rw [if_neg, ht]
      rintro rfl
      rw [k3] at ht
      obtain rfl := Option.some.inj (Option.some.inj ht)
      exact hne k1

theorem admitted_holds {g : UInt8 → Bool} {c : Conn} (h : Inv c) (s b : Nat) {k : UInt32} (ku : UInt32) (a : Addr)
    (v : Request) (h0 : k ≠ 0) (hk : (forget c v.imsi).byTeid.load k = none) (e : UInt8)
    (he : ∀ i ∈ v.bearer, i.typ = 73 → i.ebi g = ok e) (hx : e = 0 ∨ ∃ i ∈ v.bearer, i.typ = 73)
    (h6 : ∀ i ∈ v.bearer, i.typ = 87 → i.interfaceType ≠ ok 6) :
    Holds (admitted g c s b k ku a v.vals) s b a v e k ku ∧ Others c (admitted g c s b k ku a v.vals) s v.imsi ∧
    ∀ f t, f ≠ 5 → f ≠ 6 → f ≠ 7 → (∀ i ∈ v.bearer, i.typ = 87 → i.interfaceType = ok f → i.teid = ok t) →
      (∃ i ∈ v.bearer, i.typ = 87 ∧ i.interfaceType = ok f) → ((admitted g c s b k ku a v.vals).heap s).teids.load f = some t := by
  obtain ⟨r1, r2, r3, r4, r5, r6⟩ := reserve_fixed (forget c v.imsi) k
  have rl := reserve_load _ hk h0
  obtain ⟨f1, f2, f3, _⟩ := forget_fixed c v.imsi
  obtain ⟨l1, l2⟩ := forget_loads h v.imsi
  have eh : (admitted g c s b k ku a v.vals).heap s = _ := put_heap _ _ _ _ _
  have eb : (admitted g c s b k ku a v.vals).brs b = _ := put_brs _ _ _ _ _
  have ei : ∀ i, (admitted g c s b k ku a v.vals).byImsi.load i = if i = v.imsi then some s else (forget c v.imsi).byImsi.load i := by
    intro i
    show ((reserve (forget c v.imsi) k).byImsi.store v.imsi s).load i = _
    rw [SyncMap.load_store, r2]
  have et : ∀ t, (admitted g c s b k ku a v.vals).byTeid.load t = if t = k then some (some s) else (forget c v.imsi).byTeid.load t := by
    intro t
    show ((reserve (forget c v.imsi) k).byTeid.store k (some s)).load t = _
    rw [SyncMap.load_store]
    split
    · rfl
    · rename_i hne; rw [rl, if_neg hne]
  refine ⟨⟨?_, ?_, ?_, ?_, ?_, ?_⟩, ⟨?_, ?_, ?_⟩, ?_⟩
  · rw [getByTEID_ok, et, if_pos rfl, eh]
    exact ⟨rfl, rfl⟩
  · unfold getSessionByIMSI
    rw [ei, if_pos rfl]
  · rw [eh]; exact ⟨rfl, rfl, rfl, rfl, rfl, rfl⟩
  · rw [eh]
  · rw [eh]
    simp only [SyncMap.load_store]
    refine ⟨rfl, rfl, ?_⟩
    simp only [(by decide : (6 : UInt8) ≠ 7), (by decide : (6 : UInt8) ≠ 5), if_false]
    refine (kidTeids_keeps v.bearer _ 6 h6).trans ?_
    rw [SyncMap.load_store]; rfl
  · rw [eh, eb]
    refine ⟨rfl, rfl, kidEBI_eq g v.bearer 0 e he ?_⟩
    rcases hx with hx | hx
    · exact Or.inl hx.symm
    · exact Or.inr hx
  · intro i hi
    refine getByIMSI_eq ?_
    rw [ei, if_neg hi, l1, if_neg hi]
  · intro j hj
    refine (put_heap_ne _ _ _ _ hj).trans ?_
    show (reserve (forget c v.imsi) k).heap j = _
    rw [r1, f1]
  · intro t a' j hj
    have hh : (admitted g c s b k ku a v.vals).heap j = c.heap j := by
      refine (put_heap_ne _ _ _ _ hj).trans ?_
      show (reserve (forget c v.imsi) k).heap j = _
      rw [r1, f1]
    rw [getByTEID_ok, getByTEID_ok, et, hh]
    split
    · rename_i e
      subst e
      refine ⟨fun ⟨h, _⟩ => absurd (Option.some.inj (Option.some.inj h)).symm hj, fun ⟨⟨h1, _⟩, h2⟩ => ?_⟩
      have := (l2 t j).2 ⟨h1, h2⟩
      rw [hk] at this
      cases this
    · rw [l2]
      constructor
      · rintro ⟨⟨h1, h2⟩, h3⟩; exact ⟨⟨h1, h3⟩, h2⟩
      · rintro ⟨⟨h1, h3⟩, h2⟩; exact ⟨⟨h1, h2⟩, h3⟩
  · intro f t n5 n6 n7 hf hex
    rw [eh]
    simp only [SyncMap.load_store, n5, n7, if_false]
    exact kidTeids_eq v.bearer _ f t hf (Or.inr hex)

/-- **C98** a complete Create Session Request without TEID, or for a session with its sender, is accepted.  One datagram goes back to
the sender.  At the S-GW it calls the handler of Create Session Responses, once, if the TEID it gave leads to a session with the P-GW
there: that message has the TEID and sequence number of the request, the cause Request Accepted, the address that was asked for, the
P-GW's TEIDs and addresses for control and user data, the EBI of the request and an FQ-CSID exactly if the request has one.  The
session is then found by the new TEID and by the IMSI, is active and holds all values of the request.  An older session of that IMSI is
not found any more; all others are as before.  Partial: the EBIs in the Bearer Context must agree, and none of its F-TEIDs may be of the
interface type of the S-GW's control plane, because their TEIDs take the place of that in the request. -/
theorem C98_create_partial (g : UInt8 → Bool) (hg : Usual g) (p : Cfg) (cAddr uAddr : Bytes) (hp : OnV4 p cAddr uAddr) (c : Conn)
    (h : Runs g p c) (s b : Nat) (k ku : UInt32) (a : Addr) (d : Bytes) (hs : Fresh c s) (hd : Drawn g c s b a d k) (m : Message)
    (hm : parseMsg g d = ok m) (hsc : m.schema = Tab.createSessionRequest) (hr : Reaches c m.hdr.teidAcc a) (v : Request)
    (hv : Asks g m v) (e : UInt8) (he : ∀ i ∈ v.bearer, i.typ = 73 → i.ebi g = ok e) (hx : e = 0 ∨ ∃ i ∈ v.bearer, i.typ = 73)
    (h6 : ∀ i ∈ v.bearer, i.typ = 87 → i.interfaceType ≠ ok 6) :
    ∃ c' out m', serve g p c s b (some k) (some ku) a d true = (c', [.sent a out], ok ()) ∧ out.length ≤ 200 ∧
      (∀ A n aP, A.handlers.load 33 = some (.app n) → Reaches A v.teid aP →
        ∀ w, serveDatagram g A aP (asRead out) w = ([.call n aP m'], ok ())) ∧
      m'.schema = Tab.createSessionResponse ∧ m'.hdr.teidAcc = v.teid ∧ m'.hdr.sequence = m.hdr.sequence ∧
      Accepts g m' v e k ku (some cAddr) (some uAddr) ∧
      (¬ Has m "SGWFQCSID" [] → ∃ i, Has m' "PGWFQCSID" [i] ∧ i.nodeID = ok cAddr ∧ i.csids = ok [1]) ∧
      (Has m "SGWFQCSID" [] → Has m' "PGWFQCSID" []) ∧
      Holds c' s b a v e k ku ∧ Others c c' s v.imsi ∧
      (∀ f t, f ≠ 5 → f ≠ 6 → f ≠ 7 → (∀ i ∈ v.bearer, i.typ = 87 → i.interfaceType = ok f → i.teid = ok t) →
        (∃ i ∈ v.bearer, i.typ = 87 ∧ i.interfaceType = ok f) → (c'.heap s).teids.load f = some t) := by
  have hi := runs_inv hg hp.control h
  have hin := (asks_in hsc v).1 hv
  have hfree := hd.free hi hs hm hin
  have hh := admitted_holds (g := g) hi s b ku a v hd.1 hfree e he hx h6
  have e6 : (v.vals.sess a b).teids.load 6 = some v.teid := by
    refine (kidTeids_keeps v.bearer _ 6 h6).trans ?_
    rw [SyncMap.load_store]; rfl
  have hl4 := (NetIP.to4_len hp.control.1).1
  obtain ⟨_, c4, cip, cp⟩ := v4_text hl4
  obtain ⟨ucol, _, _, up⟩ := v4_text hp.user4
  obtain ⟨port, hport⟩ := hp.user
  have hhost := host_v4 hp.control.1 hp.control.2
  have hhostu : host p.s5u = ipString uAddr := by rw [hport]; exact host_append ucol
  obtain ⟨rs, out, m', s1, _, _, s2, s3, F0, F5, F6, F11, F16, F16'⟩ :=
    create_ok g hg.1 hg.2 p hi hs b k ku a hm hsc hin e6 (v4Prefix ++ cAddr) (fun _ => by rw [hhost]; exact cip)
  have dl : ∀ A n aP, A.handlers.load 33 = some (.app n) → Reaches A v.teid aP → _ := s3
  have hA : ∃ A : Conn, ∃ n aP, A.handlers.load 33 = some (.app n) ∧ Reaches A v.teid aP := by
    refine ⟨{ c with handlers := [(33, .app 0)], byTeid := [(v.teid, some 0)] }, 0, (c.heap 0).peer, rfl, Or.inr ⟨0, ?_⟩⟩
    rw [getByTEID_ok]
    exact ⟨by simp [SyncMap.load], rfl⟩
  obtain ⟨A, n, aP, hA1, hA2⟩ := hA
  obtain ⟨_, q1, q2, q3, q4⟩ := s3 A n aP hA1 hA2
  have hF : ∀ {j : Nat} {name : String} {l : List IE}, Tab.createSessionResponse.fields[j]? = some name →
      Msg.newFields (ieOps g) Tab.createSessionResponse rs j = l → Has m' name l :=
    fun hj hl => has_of q1 hj (by rw [q4]; exact hl)
  have hee : (v.vals.bearer g).ebi = e := by
    rw [← hh.1.bearer.2.2]
    exact congrArg Bearer.ebi (put_brs _ _ _ _ _).symm
  refine ⟨_, out, m', ?_, s2, fun A n aP h1 h2 => (s3 A n aP h1 h2).1, q1, q2, q3, ⟨?_, ?_, ?_, ?_⟩, ?_, ?_, hh.1, hh.2.1, hh.2.2⟩
  · rw [serve_create hi s b (some k) (some ku) true hm hsc hr, s1]
  · obtain ⟨x, h1, h2⟩ := F0
    exact ⟨x, [], hF (by decide) h1, h2⟩
  · refine ⟨_, hF (by decide) F5, ?_⟩
    have := fteidOf_reads 7 1 k (host p.laddr.string) (by decide)
    rw [show (parseIP (host p.laddr.string)).bind to4 = some cAddr by rw [hhost]; exact cp] at this
    exact this
  · obtain ⟨x, h1, h2⟩ := F6
    exact ⟨x, [], hF (by decide) h1, h2⟩
  · obtain ⟨x, bc, be, bd, h1, h2, h3, h4, h5⟩ := F11
    refine ⟨x, bc, be, _, bd, hF (by decide) h1, h2, h3, by rw [← hee]; exact h4, ?_, h5⟩
    have := fteidOf_reads 5 2 ku (host p.s5u) (by decide)
    rw [show (parseIP (host p.s5u)).bind to4 = some uAddr by rw [hhostu]; exact up] at this
    exact this
  · intro hq
    obtain ⟨x, h1, h2, h3⟩ := F16 (fun e => hq (has_of hsc (k := 23) (by decide) e))
    have e4 : to4 (v4Prefix ++ cAddr) = some cAddr := by
      have := cp
      rw [(parseIP_iff _ _).mpr cip] at this
      exact this
    rw [e4] at h2
    exact ⟨x, hF (by decide) h1, h2, h3⟩
  · intro hq
    exact hF (by decide) (F16' (has_get hsc (by decide) hq))

/-! ### C98: incomplete requests -/

/-- **C98** exactly the complete Create Session Requests are answered. -/
theorem C98_answered_iff (g : UInt8 → Bool) (hg : Usual g) (p : Cfg) (cAddr uAddr : Bytes) (hp : OnV4 p cAddr uAddr) (c : Conn)
    (h : Runs g p c) (s b : Nat) (k ku : UInt32) (a : Addr) (d : Bytes) (hs : Fresh c s) (m : Message)
    (hm : parseMsg g d = ok m) (hsc : m.schema = Tab.createSessionRequest) (hr : Reaches c m.hdr.teidAcc a) :
    (serve g p c s b (some k) (some ku) a d true).2.1 ≠ [] ↔ ∃ v, Asks g m v := by
  have hi := runs_inv hg hp.control h
  rw [serve_create hi s b (some k) (some ku) true hm hsc hr, ← asks_some hsc]
  constructor
  · intro hne
    refine Classical.byContradiction fun hn => hne ?_
    obtain ⟨c', e, h1, _⟩ := incomplete_put g p hi hs b (some k) (some ku) a hsc hn true
    rw [h1]
  · rintro ⟨v, hv⟩
    obtain ⟨u, h6⟩ := kids6 v a b
    have hip : IsIP (host p.laddr.string) (v4Prefix ++ cAddr) := by
      rw [host_v4 hp.control.1 hp.control.2]; exact (v4_text (NetIP.to4_len hp.control.1).1).2.2.1
    obtain ⟨rs, out, m', e1, _⟩ := create_ok g hg.1 hg.2 p hi hs b k ku a hm hsc hv h6 _ (fun _ => hip)
    rw [e1]
    simp

/-- **C98** an incomplete one is not answered and leaves an error and no new session.  Departure: if its IMSI can be read, the session of
that subscriber is removed all the same, whoever sent the request. -/
theorem C98_incomplete (g : UInt8 → Bool) (hg : Usual g) (p : Cfg) (cAddr uAddr : Bytes) (hp : OnV4 p cAddr uAddr) (c : Conn)
    (h : Runs g p c) (s b : Nat) (k ku : UInt32) (a : Addr) (d : Bytes) (hs : Fresh c s) (m : Message)
    (hm : parseMsg g d = ok m) (hsc : m.schema = Tab.createSessionRequest) (hr : Reaches c m.hdr.teidAcc a) (hn : ¬ ∃ v, Asks g m v) :
    ∃ c' e, serve g p c s b (some k) (some ku) a d true = (c', [], err e) ∧
      (∀ imsi, Says m "IMSI" IE.imsi imsi → getSessionByIMSI c' imsi = err .notFound ∧ Others c c' s imsi ∧
        ∀ t a' s', getSessionByTEID c t a' = ok s' → (c.heap s').imsi = imsi → getSessionByTEID c' t a' = err .notFound) ∧
      ((∀ imsi, ¬ Says m "IMSI" IE.imsi imsi) →
        (∀ i, getSessionByIMSI c' i = getSessionByIMSI c i) ∧ (∀ j, j ≠ s → c'.heap j = c.heap j) ∧
        ∀ t a' s', getSessionByTEID c' t a' = ok s' ↔ getSessionByTEID c t a' = ok s') := by
  have hi := runs_inv hg hp.control h
  rw [serve_create hi s b (some k) (some ku) true hm hsc hr]
  rw [← asks_some hsc] at hn
  obtain ⟨c', e, h1, h2⟩ := incomplete_put g p hi hs b (some k) (some ku) a hsc hn true
  refine ⟨c', e, h1, ?_, ?_⟩
  · intro imsi hs0
    obtain ⟨i, r, e0, f0⟩ := (says_get hsc (k := 0) (by decide)).1 hs0
    rcases h2 with ⟨i', r', imsi', e1, f1, x, y, rfl⟩ | ⟨hno, _⟩
    · rw [e0] at e1
      obtain ⟨rfl, rfl⟩ := List.cons.inj e1
      rw [f0] at f1
      obtain rfl := ok.inj f1
      obtain ⟨l1, l2⟩ := forget_loads hi imsi
      obtain ⟨f1, _⟩ := forget_fixed c imsi
      have hh : ∀ j, j ≠ s → (put (forget c imsi) s b x y).heap j = c.heap j := fun j hj => by
        rw [put_heap_ne _ _ _ _ hj, f1]
      refine ⟨?_, ⟨?_, hh, ?_⟩, ?_⟩
      · unfold getSessionByIMSI
        rw [show (put (forget c imsi) s b x y).byImsi.load imsi = none from (l1 imsi).trans (if_pos rfl)]
      · intro i hne
        exact getByIMSI_eq ((l1 i).trans (if_neg hne))
      · intro t a' j hj
        rw [getByTEID_ok, getByTEID_ok, hh j hj, show (put (forget c imsi) s b x y).byTeid.load t = (forget c imsi).byTeid.load t from rfl, l2]
        constructor
        · rintro ⟨⟨h1, h2⟩, h3⟩; exact ⟨⟨h1, h3⟩, h2⟩
        · rintro ⟨⟨h1, h3⟩, h2⟩; exact ⟨⟨h1, h2⟩, h3⟩
      · intro t a' s' ht hm'
        have ht := (getByTEID_ok.1 ht).1
        unfold getSessionByTEID
        rw [show (put (forget c imsi) s b x y).byTeid.load t = (forget c imsi).byTeid.load t from rfl]
        cases hl : (forget c imsi).byTeid.load t with
        | none => rfl
        | some z =>
          obtain ⟨_, s2, rfl, _⟩ := (hi.forget imsi).teid t z hl
          obtain ⟨q1, q2⟩ := (l2 t s2).1 hl
          rw [ht] at q1
          obtain rfl := Option.some.inj (Option.some.inj q1)
          exact absurd hm' q2
    · exact absurd f0 (hno i r imsi e0)
  · intro hno
    rcases h2 with ⟨i', r', imsi', e1, f1, _⟩ | ⟨_, x, y, rfl⟩
    · exact absurd ((says_get hsc (k := 0) (by decide)).2 ⟨i', r', e1, f1⟩) (hno imsi')
    · refine ⟨fun i => getByIMSI_eq rfl, fun j hj => put_heap_ne _ _ _ _ hj, fun t a' s' => ?_⟩
      rw [getByTEID_ok, getByTEID_ok]
      show c.byTeid.load t = _ ∧ _ ↔ _
      refine and_congr_right fun ht => ?_
      have e1 : s' ≠ s := fun e => hs.2 t (e ▸ ht)
      rw [put_heap_ne c b x y e1]

/-! ### C98: Delete Session Requests -/

/-- **C98** a Delete Session Request for a session with its sender is accepted: one datagram goes back, with the TEID the S-GW gave for
this session, the sequence number of the request and the cause Request Accepted, and reaches the S-GW's handler if that TEID leads to a
session with the P-GW there.  The session is then found neither by its TEID nor by its IMSI, and messages with that TEID call no handler
and are not answered.  All other sessions are as before. -/
theorem C98_delete (g : UInt8 → Bool) (hg : Usual g) (p : Cfg) (cAddr uAddr : Bytes) (hp : OnV4 p cAddr uAddr) (c : Conn)
    (h : Runs g p c) (s b : Nat) (k ku : UInt32) (a : Addr) (d : Bytes) (m : Message) (hm : parseMsg g d = ok m)
    (hsc : m.schema = Tab.deleteSessionRequest) (j : Nat) (hj : getSessionByTEID c m.hdr.teidAcc a = ok j) :
    ∃ c' u out m', serve g p c s b (some k) (some ku) a d true = (c', [.sent a out], ok ()) ∧ (c.heap j).teids.load 6 = some u ∧
      (∀ A n aP, A.handlers.load 37 = some (.app n) → Reaches A u aP →
        ∀ w, serveDatagram g A aP (asRead out) w = ([.call n aP m'], ok ())) ∧
      m'.schema = Tab.deleteSessionResponse ∧ m'.hdr.teidAcc = u ∧ m'.hdr.sequence = m.hdr.sequence ∧
      Says m' "Cause" (IE.cause g) 16 ∧
      (∀ a', getSessionByTEID c' m.hdr.teidAcc a' = err .notFound) ∧ getSessionByIMSI c' (c.heap j).imsi = err .notFound ∧
      Gone g c' m.hdr.teidAcc ∧ c'.heap = c.heap ∧ (∀ i, i ≠ (c.heap j).imsi → getSessionByIMSI c' i = getSessionByIMSI c i) ∧
      (∀ t a', t ≠ m.hdr.teidAcc → getSessionByTEID c' t a' = getSessionByTEID c t a') ∧ out.length ≤ 18 := by
  have hi := runs_inv hg hp.control h
  have hg2 := hg.1 2 (by simp)
  obtain ⟨u, out, m', h6, e1, _, el, e3⟩ := delete_ok g hg2 hi a hm hj
  have hA : ∃ A : Conn, ∃ n aP, A.handlers.load 37 = some (.app n) ∧ Reaches A u aP := by
    refine ⟨{ c with handlers := [(37, .app 0)], byTeid := [(u, some 0)] }, 0, (c.heap 0).peer, rfl, Or.inr ⟨0, ?_⟩⟩
    rw [getByTEID_ok]
    exact ⟨by simp [SyncMap.load], rfl⟩
  obtain ⟨A, n, aP, hA1, hA2⟩ := hA
  obtain ⟨_, q1, q2, q3, q4⟩ := e3 A n aP hA1 hA2
  obtain ⟨x, x1, x2⟩ := (delete_answer g hg2 16).2
  have h0 : m.hdr.teidAcc ≠ 0 := (hi.teid _ _ (getByTEID_ok.1 hj).1).1
  have hnf : ∀ a', getSessionByTEID { c with byImsi := c.byImsi.delete (c.heap j).imsi, byTeid := c.byTeid.delete m.hdr.teidAcc }
      m.hdr.teidAcc a' = err .notFound := by
    intro a'
    unfold getSessionByTEID
    simp only [SyncMap.load_delete, if_true]
  refine ⟨_, u, out, m', ?_, h6, fun A n aP h1 h2 => (e3 A n aP h1 h2).1, q1, q2, q3,
    ⟨x, [], has_of q1 (k := 0) (by decide) (by rw [q4]; exact x1), x2⟩, hnf, ?_, ?_, rfl, ?_, ?_, el⟩
  · rw [serve_delete hi s b (some k) (some ku) true hm hsc (Or.inr ⟨j, hj⟩), e1]
  · unfold getSessionByIMSI
    simp only [SyncMap.load_delete, if_true]
  · intro a' b' m1 w hp1 ht
    refine C94_stranger g _ a' b' m1 hp1 (by exact hi.validation) ?_ w
    rw [ht]
    rintro (e | ⟨s', e⟩)
    · exact h0 e
    · rw [hnf a'] at e; cases e
  · intro i hne
    refine getByIMSI_eq ?_
    simp only [SyncMap.load_delete, if_neg hne]
  · intro t a' hne
    unfold getSessionByTEID
    simp only [SyncMap.load_delete, if_neg hne]

/-- **C98** one without TEID is refused: the answer has TEID 0, the sequence number and the cause IMSI/IMEI Not Known, and reaches the
S-GW's handler; the P-GW stays as it is. -/
theorem C98_refused (g : UInt8 → Bool) (hg : Usual g) (p : Cfg) (cAddr uAddr : Bytes) (hp : OnV4 p cAddr uAddr) (c : Conn)
    (h : Runs g p c) (s b : Nat) (k ku : UInt32) (a : Addr) (d : Bytes) (m : Message) (hm : parseMsg g d = ok m)
    (hsc : m.schema = Tab.deleteSessionRequest) (h0 : m.hdr.teidAcc = 0) :
    ∃ out m', serve g p c s b (some k) (some ku) a d true = (c, [.sent a out], err .notFound) ∧
      (∀ A n aP, A.handlers.load 37 = some (.app n) → ∀ w, serveDatagram g A aP (asRead out) w = ([.call n aP m'], ok ())) ∧
      m'.schema = Tab.deleteSessionResponse ∧ m'.hdr.teidAcc = 0 ∧ m'.hdr.sequence = m.hdr.sequence ∧
      Says m' "Cause" (IE.cause g) 96 := by
  have hi := runs_inv hg hp.control h
  have hg2 := hg.1 2 (by simp)
  obtain ⟨out, m', e1, _, e3⟩ := delete_none g hg2 hi a hm h0
  obtain ⟨_, q1, q2, q3, q4⟩ := e3 { c with handlers := [(37, .app 0)] } 0 "" rfl
  obtain ⟨x, x1, x2⟩ := (delete_answer g hg2 96).2
  refine ⟨out, m', ?_, fun A n aP h1 => (e3 A n aP h1).1, q1, q2, q3,
    ⟨x, [], has_of q1 (k := 0) (by decide) (by rw [q4]; exact x1), x2⟩⟩
  rw [serve_delete hi s b (some k) (some ku) true hm hsc (Or.inl h0), e1]

/-! ### C98: the life of a session -/

theorem asks_same {g : UInt8 → Bool} {m m' : Message} {v : Request} (h : Asks g m v) (h1 : m'.schema = m.schema) (h2 : m'.fields = m.fields) :
    Asks g m' v := by
  have t : ∀ {α : Type} {name : String} {f : IE → Res α} {x : α}, Says m name f x → Says m' name f x := by
    rintro α name f x ⟨i, r, ⟨k, e1, e2⟩, e⟩
    exact ⟨i, r, ⟨k, h1 ▸ e1, h2 ▸ e2⟩, e⟩
  exact ⟨t h.imsi, t h.msisdn, t h.mei, t h.apn, t h.network, t h.rat, t h.teid, t h.bearer, h.bearerEBI, h.bearerFTEID, t h.ip⟩

theorem posted {g : UInt8 → Bool} {sc : Msg.Schema} {ies : List (Option IE)} (h : Sendable g sc ies) (teid n : UInt32) (a : Addr)
    (ht : sc.hasTEIDArg = true) :
    ∃ out m, sendMessageTo g n (newMessage g sc teid 0 ies) a true = (inc n, [.sent a out], ok (inc n)) ∧ parseMsg g (asRead out) = ok m ∧
      m.schema = sc ∧ m.hdr.teidAcc = teid ∧ m.hdr.sequence = inc n ∧ m.fields = Msg.newFields (ieOps g) sc ies := by
  obtain ⟨m, out, h1, h2, h3, h4, h5, h6, h7, h8⟩ := sendable_round h teid (inc n) (inc_small n)
  have hlen := roundTrips_length h.1 h2
  have hread : asRead out = out := List.take_of_length_le (by have := h.2.1.2; omega)
  refine ⟨out, m, ?_, by rw [hread]; exact h3, h4, by rw [h8, if_pos ht], h7, h5⟩
  unfold sendMessageTo
  rw [setSeq_new, h1]
  rfl

/-- **C98** the life of a session between an S-GW that uses this library and the P-GW.  The S-GW calls CreateSession with the elements of
a complete request and an F-TEID of its own interface type; its datagram is accepted by the P-GW, whose answer calls the S-GW's handler
with the sequence number CreateSession returned.  The S-GW then calls DeleteSession with the TEID from that answer; the P-GW accepts that
too, its answer calls the S-GW's handler, and the session is gone at the P-GW.  Partial as `C98_create_partial` and
`C94_exchange_partial`. -/
theorem C98_life_partial (g : UInt8 → Bool) (hg : Usual g) (p : Cfg) (cAddr uAddr : Bytes) (hp : OnV4 p cAddr uAddr) (c : Conn)
    (h : Runs g p c) (s b : Nat) (k ku : UInt32) (hs : Fresh c s) (hk0 : k ≠ 0) (hk : c.byTeid.load k = none)
    (A : Conn) (sA bA : Nat) (n : UInt32) (aA aP : Addr) (cs ds : List (Option IE)) (v : Request)
    (hcs : Sendable g Tab.createSessionRequest cs) (hds : Sendable g Tab.deleteSessionRequest ds)
    (hv : Asks g (newMessage g Tab.createSessionRequest 0 0 cs) v)
    (e : UInt8) (he : ∀ i ∈ v.bearer, i.typ = 73 → i.ebi g = ok e) (hx : e = 0 ∨ ∃ i ∈ v.bearer, i.typ = 73)
    (h6 : ∀ i ∈ v.bearer, i.typ = 87 → i.interfaceType ≠ ok 6)
    (hread : ∀ a ∈ atoms cs, Readable g a) (i : IE) (hlast : lastFTEID A.localIf cs = some (true, i)) (hi : i.teid = ok v.teid)
    (k1 k2 : Nat) (hA1 : A.handlers.load 33 = some (.app k1)) (hA2 : A.handlers.load 37 = some (.app k2)) :
    ∃ A' q out c₁ out₁ m₁, createSession A g n sA bA aP cs true = (A', q, [.sent aP out], ok (sA, q)) ∧
      serve g p c s b (some k) (some ku) aA (asRead out) true = (c₁, [.sent aA out₁], ok ()) ∧
      (∀ w, serveDatagram g A' aP (asRead out₁) w = ([.call k1 aP m₁], ok ())) ∧ m₁.schema = Tab.createSessionResponse ∧
      m₁.hdr.sequence = q ∧ Accepts g m₁ v e k ku (some cAddr) (some uAddr) ∧ Holds c₁ s b aA v e k ku ∧
    ∀ s' b' k' ku', ∃ q₂ out₂ c₂ out₃ m₃, deleteSession A' sA g q k ds true = (q₂, [.sent aP out₂], ok q₂) ∧
      serve g p c₁ s' b' (some k') (some ku') aA (asRead out₂) true = (c₂, [.sent aA out₃], ok ()) ∧
      (∀ w, serveDatagram g A' aP (asRead out₃) w = ([.call k2 aP m₃], ok ())) ∧ m₃.schema = Tab.deleteSessionResponse ∧
      m₃.hdr.sequence = q₂ ∧ Says m₃ "Cause" (IE.cause g) 16 ∧
      getSessionByIMSI c₂ v.imsi = err .notFound ∧ Gone g c₂ k := by
  have hI := runs_inv hg hp.control h
  obtain ⟨A', hok⟩ := (C61_accepts g A sA bA aP cs).2.2 hread
  have hkeep := C62_nothing_else g A sA bA aP cs
  rw [hok] at hkeep
  have hh : A'.handlers = A.handlers := hkeep.2.2.1
  have hfound : getSessionByTEID A' v.teid aP = ok sA := by
    refine (C62_by_teid g A A' sA bA aP cs hok v.teid).1 ⟨(true, i), ?_, ?_⟩
    · exact (List.mem_filter.1 (List.mem_of_getLast? hlast)).1
    · have h := (List.mem_filter.1 (List.mem_of_getLast? hlast)).2
      simp only [decide_eq_true_eq] at h
      exact ⟨rfl, h.1, h.2, hi⟩
  have hpA : (A'.heap sA).peer = aP := (getByTEID_ok.1 hfound).2
  obtain ⟨out, m, o1, o2, o3, o4, o5, o6⟩ := posted hcs 0 n aP rfl
  have hvm : Asks g m v := asks_same hv o3 o6
  have hd : Drawn g c s b aA (asRead out) k := by
    refine ⟨hk0, fun m' hm' => ?_⟩
    rw [o2] at hm'
    obtain rfl := ok.inj hm'
    rw [read_put g c s b aA m v.vals ((asks_in o3 v).1 hvm) (hI.droppable hs _)]
    show (forget c v.imsi).byTeid.load k = none
    cases hl : (forget c v.imsi).byTeid.load k with
    | none => rfl
    | some z =>
      obtain ⟨_, s2, rfl, _⟩ := (hI.forget v.imsi).teid k z hl
      rw [(((forget_loads hI v.imsi).2 k s2).1 hl).1] at hk; cases hk
  obtain ⟨c₁, out₁, m₁, r1, _, r2, r3, r4, r5, r6, _, _, r7, _⟩ :=
    C98_create_partial g hg p cAddr uAddr hp c h s b k ku aA (asRead out) hs hd m o2 o3 (Or.inl o4) v hvm e he hx h6
  have h₁ : Runs g p c₁ := by
    have := Runs.datagram c s b k ku aA (asRead out) h hs hd
    rw [r1] at this
    exact this
  refine ⟨A', inc n, out, c₁, out₁, m₁, ?_, r1, r2 A' k1 aP (by rw [hh]; exact hA1) (Or.inr ⟨sA, hfound⟩), r3, by rw [r5, o5], r6, r7, ?_⟩
  · unfold createSession
    rw [hok]
    simp only
    rw [o1]
    rfl
  intro s' b' k' ku'
  obtain ⟨out₂, m₂, t1, t2, t3, t4, t5, t6⟩ := posted hds k (inc n) aP rfl
  have hj : getSessionByTEID c₁ m₂.hdr.teidAcc aA = ok s := by rw [t4]; exact r7.byTEID
  obtain ⟨c₂, u, out₃, m₃, w1, w2, w3, w4, w5, w6, w7, w8, w9, w10, _⟩ :=
    C98_delete g hg p cAddr uAddr hp c₁ h₁ s' b' k' ku' aA (asRead out₂) m₂ t2 t3 s hj
  have hu : u = v.teid := by
    have := r7.teids.2.2
    rw [w2] at this
    exact Option.some.inj this
  refine ⟨inc (inc n), out₂, c₂, out₃, m₃, ?_, w1, w3 A' k2 aP (by rw [hh]; exact hA2) (Or.inr ⟨sA, by rw [hu]; exact hfound⟩), w4,
    by rw [w6, t5], w7, ?_, by rw [← t4]; exact w10⟩
  · unfold deleteSession
    rw [hpA]; exact t1
  · rw [← r7.subscriber.1]; exact w9

/-! ### C98: departures -/

theorem serve_panics {g : UInt8 → Bool} {p : Cfg} {c : Conn} (hv : c.validation = true) {t : UInt32} (h0 : t ≠ 0)
    (hl : c.byTeid.load t = some none) {d : Bytes} {m : Message} (hm : parseMsg g d = ok m) (ht : m.hdr.teidAcc = t)
    (s b : Nat) (k ku : Option UInt32) (a : Addr) (w : Bool) : (serve g p c s b k ku a d w).2.2 = .panic := by
  have hp := (C34_panics_iff g c a d w).1.2 ⟨hv, m, hm, by rw [ht]; exact h0, by rw [ht]; exact hl⟩
  unfold serve
  split
  · rename_i e; rw [e] at hp; cases hp
  · rename_i e; rw [e] at hp; cases hp
  · rename_i e; rw [e] at hp; exact hp

theorem held_load {g : UInt8 → Bool} {c : Conn} (h : Inv c) (s b : Nat) {k : UInt32} (ku : UInt32) (a : Addr) (v : Vals) (h0 : k ≠ 0)
    (hk : (forget c v.imsi).byTeid.load k = none) :
    (held g c s b k ku a v).byTeid.load k = some none ∧ (held g c s b k ku a v).validation = true := by
  refine ⟨?_, ?_⟩
  · show (reserve (forget c v.imsi) k).byTeid.load k = _
    rw [reserve_load _ hk h0, if_pos rfl]
  · show (reserve (forget c v.imsi) k).validation = _
    rw [(reserve_fixed _ _).2.2.2.1, (forget_fixed c _).2.2.2.1]
    exact h.validation

/-- departure: if the answer to a complete request cannot be written, the TEID stays reserved, and the first message with that TEID,
from anyone, crashes the P-GW -/
theorem C98_unwritten_wrong (g : UInt8 → Bool) (hg : Usual g) (p : Cfg) (cAddr uAddr : Bytes) (hp : OnV4 p cAddr uAddr) (c : Conn)
    (h : Runs g p c) (s b : Nat) (k ku : UInt32) (a : Addr) (d : Bytes) (hs : Fresh c s) (hd : Drawn g c s b a d k) (m : Message)
    (hm : parseMsg g d = ok m) (hsc : m.schema = Tab.createSessionRequest) (hr : Reaches c m.hdr.teidAcc a) (v : Request)
    (hv : Asks g m v) :
    ∃ c', serve g p c s b (some k) (some ku) a d false = (c', [], err .other) ∧
      ∀ d' m₁ a' s' b' k' ku' w, parseMsg g d' = ok m₁ → m₁.hdr.teidAcc = k → (serve g p c' s' b' k' ku' a' d' w).2.2 = .panic := by
  have hi := runs_inv hg hp.control h
  have hin := (asks_in hsc v).1 hv
  obtain ⟨u, h6⟩ := kids6 v.vals a b
  have hip : IsIP (host p.laddr.string) (v4Prefix ++ cAddr) := by
    rw [host_v4 hp.control.1 hp.control.2]; exact (v4_text (NetIP.to4_len hp.control.1).1).2.2.1
  obtain ⟨rs, out, m', _, e2, _⟩ := create_ok g hg.1 hg.2 p hi hs b k ku a hm hsc hin h6 _ (fun _ => hip)
  obtain ⟨l1, l2⟩ := held_load (g := g) hi s b ku a v.vals hd.1 (hd.free hi hs hm hin)
  refine ⟨_, by rw [serve_create hi s b (some k) (some ku) false hm hsc hr, e2], ?_⟩
  intro d' m₁ a' s' b' k' ku' w hm1 ht
  exact serve_panics l2 hd.1 l1 hm1 ht s' b' k' ku' a' w

/-- handlers.go:28-166: the handler of Create Session Requests until the answer is written; RegisterSession comes after that -/
def untilAnswered (g : UInt8 → Bool) (p : Cfg) (s b : Nat) (k ku : UInt32) (a : Addr) (m : Message) : H Unit := do
  let ip ← readRequest g s b a m
  accept g p s b (some k) (some ku) a m ip true

/-- departure: the answer is written before the session is registered.  In between, a message with the new TEID, which the S-GW may
have already, crashes the P-GW: Serve handles each datagram in its own goroutine (gtpv2/conn.go:192-204). -/
theorem C98_window_wrong (g : UInt8 → Bool) (hg : Usual g) (p : Cfg) (cAddr uAddr : Bytes) (hp : OnV4 p cAddr uAddr) (c : Conn)
    (h : Runs g p c) (s b : Nat) (k ku : UInt32) (a : Addr) (d : Bytes) (hs : Fresh c s) (hd : Drawn g c s b a d k) (m : Message)
    (hm : parseMsg g d = ok m) (hsc : m.schema = Tab.createSessionRequest) (v : Request) (hv : Asks g m v) :
    ∃ c' out, untilAnswered g p s b k ku a m c = (c', [.sent a out], ok ()) ∧
      ∀ d' m₁ a' s' b' k' ku' w, parseMsg g d' = ok m₁ → m₁.hdr.teidAcc = k → (serve g p c' s' b' k' ku' a' d' w).2.2 = .panic := by
  have hi := runs_inv hg hp.control h
  have hin := (asks_in hsc v).1 hv
  obtain ⟨u, h6⟩ := kids6 v.vals a b
  have hip : IsIP (host p.laddr.string) (v4Prefix ++ cAddr) := by
    rw [host_v4 hp.control.1 hp.control.2]; exact (v4_text (NetIP.to4_len hp.control.1).1).2.2.1
  obtain ⟨rs, out, m', _, _, hu, _⟩ := create_ok g hg.1 hg.2 p hi hs b k ku a hm hsc hin h6 _ (fun _ => hip)
  obtain ⟨l1, l2⟩ := held_load (g := g) hi s b ku a v.vals hd.1 (hd.free hi hs hm hin)
  refine ⟨_, out, hu, ?_⟩
  intro d' m₁ a' s' b' k' ku' w hm1 ht
  exact serve_panics l2 hd.1 l1 hm1 ht s' b' k' ku' a' w

/-- handlers.go:122-191: the handler of Create Session Requests from the creation of the answer on -/
def fromAnswer (g : UInt8 → Bool) (p : Cfg) (s b : Nat) (k ku : UInt32) (a : Addr) (m : Message) (ip : Bytes) : H Unit := do
  accept g p s b (some k) (some ku) a m ip true
  enrol s

theorem C98_halves (g : UInt8 → Bool) (p : Cfg) (s b : Nat) (k ku : UInt32) (a : Addr) (m : Message)
    (h : m.schema = Tab.createSessionRequest) (c : Conn) :
    handleCreate g p s b (some k) (some ku) a m true c = (readRequest g s b a m >>= fromAnswer g p s b k ku a m) c := by
  unfold handleCreate
  rw [if_neg (by rw [h]; decide)]
  rfl

/-- departure: two complete requests for the same subscriber at the same time.  If the second is handled between the two halves of the
first, both sessions are found by their TEIDs in the end, and only the first by the IMSI. -/
theorem C98_race_wrong (g : UInt8 → Bool) (hg : Usual g) (p : Cfg) (cAddr uAddr : Bytes) (hp : OnV4 p cAddr uAddr) (c : Conn)
    (h : Runs g p c) (s₁ s₂ b₁ b₂ : Nat) (k₁ k₂ ku₁ ku₂ : UInt32) (a₁ a₂ : Addr) (d₁ d₂ : Bytes) (m₁ m₂ : Message) (v₁ v₂ : Request)
    (hs₁ : Fresh c s₁) (hs₂ : Fresh c s₂) (hs : s₁ ≠ s₂) (hb : b₁ ≠ b₂) (hk : k₁ ≠ k₂) (h0₁ : k₁ ≠ 0) (h0₂ : k₂ ≠ 0)
    (hk₁ : c.byTeid.load k₁ = none) (hk₂ : c.byTeid.load k₂ = none) (hm₁ : parseMsg g d₁ = ok m₁) (hm₂ : parseMsg g d₂ = ok m₂)
    (hc₁ : m₁.schema = Tab.createSessionRequest) (hc₂ : m₂.schema = Tab.createSessionRequest) (hr : m₂.hdr.teidAcc = 0)
    (hv₁ : Asks g m₁ v₁) (hv₂ : Asks g m₂ v₂) (hi : v₁.imsi = v₂.imsi) :
    ∃ c₁ c₂ c₃ ip out₁ out₂, readRequest g s₁ b₁ a₁ m₁ c = (c₁, [], ok ip) ∧
      serve g p c₁ s₂ b₂ (some k₂) (some ku₂) a₂ d₂ true = (c₂, [.sent a₂ out₂], ok ()) ∧
      fromAnswer g p s₁ b₁ k₁ ku₁ a₁ m₁ ip c₂ = (c₃, [.sent a₁ out₁], ok ()) ∧
      getSessionByTEID c₃ k₁ a₁ = ok s₁ ∧ getSessionByTEID c₃ k₂ a₂ = ok s₂ ∧
      (c₃.heap s₁).imsi = v₁.imsi ∧ (c₃.heap s₂).imsi = v₁.imsi ∧ getSessionByIMSI c₃ v₁.imsi = ok s₁ := by
  have hI := runs_inv hg hp.control h
  have hin₁ := (asks_in hc₁ v₁).1 hv₁
  have hin₂ := (asks_in hc₂ v₂).1 hv₂
  obtain ⟨u₁, h6₁⟩ := kids6 v₁.vals a₁ b₁
  obtain ⟨u₂, h6₂⟩ := kids6 v₂.vals a₂ b₂
  have hip : IsIP (host p.laddr.string) (v4Prefix ++ cAddr) := by
    rw [host_v4 hp.control.1 hp.control.2]; exact (v4_text (NetIP.to4_len hp.control.1).1).2.2.1
  obtain ⟨f1, f2, f3, f4, f5⟩ := forget_fixed c v₁.imsi
  obtain ⟨l1, l2⟩ := forget_loads hI v₁.imsi
  have gone : ∀ t, c.byTeid.load t = none → (forget c v₁.imsi).byTeid.load t = none := by
    intro t ht
    cases hl : (forget c v₁.imsi).byTeid.load t with
    | none => rfl
    | some z =>
      obtain ⟨_, s2, rfl, _⟩ := (hI.forget v₁.imsi).teid t z hl
      rw [((l2 t s2).1 hl).1] at ht; cases ht
  have hread := read_put g c s₁ b₁ a₁ m₁ v₁.vals hin₁ (hI.droppable hs₁ _)
  have hI₁ : Inv (put (forget c v₁.imsi) s₁ b₁ (v₁.vals.sess a₁ b₁) (v₁.vals.bearer g)) :=
    (hI.forget v₁.imsi).put (forget_fresh hs₁ _) b₁ _ _
  have hs₂' : Fresh (put (forget c v₁.imsi) s₁ b₁ (v₁.vals.sess a₁ b₁) (v₁.vals.bearer g)) s₂ := forget_fresh hs₂ _
  generalize hc1 : put (forget c v₁.imsi) s₁ b₁ (v₁.vals.sess a₁ b₁) (v₁.vals.bearer g) = c₁ at hI₁ hs₂'
  have hsame : forget c₁ v₂.imsi = c₁ := by
    unfold forget
    rw [show c₁.byImsi.load v₂.imsi = none by rw [← hc1, ← hi]; exact (l1 v₁.imsi).trans (if_pos rfl)]
  have hfree₂ : (forget c₁ v₂.vals.imsi).byTeid.load k₂ = none := by
    rw [show forget c₁ v₂.vals.imsi = c₁ from hsame, ← hc1]; exact gone k₂ hk₂
  obtain ⟨rs, out₂, m', e2, _⟩ := create_ok g hg.1 hg.2 p hI₁ hs₂' b₂ k₂ ku₂ a₂ hm₂ hc₂ hin₂ h6₂ _ (fun _ => hip)
  have hI₂ := hI₁.admitted (g := g) hs₂' b₂ ku₂ a₂ v₂.vals h0₂ hfree₂ h6₂
  obtain ⟨r1, r2, r3, r4, r5, r6⟩ := reserve_fixed c₁ k₂
  have rl := reserve_load c₁ (by rw [show forget c₁ v₂.vals.imsi = c₁ from hsame] at hfree₂; exact hfree₂) h0₂
  have g1 : (admitted g c₁ s₂ b₂ k₂ ku₂ a₂ v₂.vals).heap s₁ = v₁.vals.sess a₁ b₁ := by
    refine (put_heap_ne _ _ _ _ hs).trans ?_
    show (reserve (forget c₁ v₂.imsi) k₂).heap s₁ = _
    rw [hsame, r1, ← hc1, put_heap]
  have g2 : (admitted g c₁ s₂ b₂ k₂ ku₂ a₂ v₂.vals).brs b₁ = v₁.vals.bearer g := by
    refine (if_neg hb).trans ?_
    show (reserve (forget c₁ v₂.imsi) k₂).brs b₁ = _
    rw [hsame, show (reserve c₁ k₂).brs = c₁.brs by unfold reserve; split <;> rfl, ← hc1, put_brs]
  have g3 : (admitted g c₁ s₂ b₂ k₂ ku₂ a₂ v₂.vals).byTeid.load k₁ = none := by
    show ((reserve (forget c₁ v₂.imsi) k₂).byTeid.store k₂ (some s₂)).load k₁ = _
    rw [SyncMap.load_store, if_neg hk, hsame, rl, if_neg hk, ← hc1]
    exact gone k₁ hk₁
  have g4 : (admitted g c₁ s₂ b₂ k₂ ku₂ a₂ v₂.vals).byTeid.load k₂ = some (some s₂) := by
    show ((reserve (forget c₁ v₂.imsi) k₂).byTeid.store k₂ (some s₂)).load k₂ = _
    rw [SyncMap.load_store, if_pos rfl]
  have g5 : (admitted g c₁ s₂ b₂ k₂ ku₂ a₂ v₂.vals).heap s₂ = _ := put_heap _ _ _ _ _
  generalize hc2 : admitted g c₁ s₂ b₂ k₂ ku₂ a₂ v₂.vals = c₂ at *
  obtain ⟨r, rs1, out₁, m1', hans, q1, _⟩ := answer_sent g hg.1 hg.2 p k₁ ku₁ a₁ hm₁ hc₁ hin₁ u₁ _ (fun _ => hip)
  have hacc := accept_put g p c₂ s₁ b₁ (v₁.vals.sess a₁ b₁) (v₁.vals.bearer g) k₁ ku₁ u₁ a₁ m₁ v₁.ip true hI₂.localIf h6₁ r hans
  rw [← g1, ← g2, put_self, q1, g1, g2] at hacc
  obtain ⟨t1, t2, t3, t4, t5, t6⟩ := reserve_fixed c₂ k₁
  have hne : v₁.imsi ≠ [] := by obtain ⟨i, _, _, h⟩ := hin₁.imsi; exact imsi_ne h
  have henr := enrol_put (reserve c₂ k₁) s₁ b₁ { v₁.vals.sess a₁ b₁ with teids := ((v₁.vals.sess a₁ b₁).teids.store 7 k₁).store 5 ku₁ }
    (v₁.vals.bearer g) k₁ (t3.trans hI₂.localIf) (by simp only [SyncMap.load_store]; rfl) hne
  have tl := reserve_load c₂ g3 h0₁
  have hfin : fromAnswer g p s₁ b₁ k₁ ku₁ a₁ m₁ v₁.ip c₂ = _ := bind_eq (f := fun _ => enrol s₁) hacc
  rw [henr] at hfin
  refine ⟨c₁, c₂, _, v₁.ip, out₁, out₂, by rw [← hc1]; exact hread, ?_, hfin, ?_, ?_, ?_, ?_, ?_⟩
  · rw [serve_create hI₁ s₂ b₂ (some k₂) (some ku₂) true hm₂ hc₂ (Or.inl hr), e2]
  · rw [getByTEID_ok, put_heap]
    refine ⟨?_, rfl⟩
    show ((reserve c₂ k₁).byTeid.store k₁ (some s₁)).load k₁ = _
    rw [SyncMap.load_store, if_pos rfl]
  · rw [getByTEID_ok, put_heap_ne _ _ _ _ hs.symm]
    refine ⟨?_, ?_⟩
    · show ((reserve c₂ k₁).byTeid.store k₁ (some s₁)).load k₂ = _
      rw [SyncMap.load_store, if_neg hk.symm, tl, if_neg hk.symm]
      exact g4
    · show ((reserve c₂ k₁).heap s₂).peer = _
      rw [t1, g5]; rfl
  · rw [put_heap]; rfl
  · rw [put_heap_ne _ _ _ _ hs.symm]
    show ((reserve c₂ k₁).heap s₂).imsi = _
    rw [t1, g5, hi]; rfl
  · unfold getSessionByIMSI
    rw [show (put _ s₁ b₁ _ _).byImsi.load v₁.imsi = some s₁ from by
      show ((reserve c₂ k₁).byImsi.store v₁.imsi s₁).load v₁.imsi = _
      rw [SyncMap.load_store, if_pos rfl]]

/-- departure: with an IPv6 address for control the text before the last colon is in brackets, so it is no address any more.  The
answer to the first complete request then has no address for later requests if there is no FQ-CSID in the request, and the P-GW crashes
if there is one. -/
theorem C98_v6_wrong (g : UInt8 → Bool) (hg : Usual g) (p : Cfg) (hp : to4 p.laddr.ip = none ∧ p.laddr.ip.length = 16)
    (heap : Nat → Sess) (s b : Nat) (k ku : UInt32) (a : Addr) (d : Bytes) (m : Message) (hm : parseMsg g d = ok m)
    (hsc : m.schema = Tab.createSessionRequest) (h0 : m.hdr.teidAcc = 0) (v : Request) (hv : Asks g m v)
    (h6 : ∀ i ∈ v.bearer, i.typ = 87 → i.interfaceType ≠ ok 6) :
    (Has m "SGWFQCSID" [] → ∃ c' out m', serve g p (start heap) s b (some k) (some ku) a d true = (c', [.sent a out], ok ()) ∧
      (∀ A n aP, A.handlers.load 33 = some (.app n) → Reaches A v.teid aP →
        ∀ w, serveDatagram g A aP (asRead out) w = ([.call n aP m'], ok ())) ∧
      ∃ i, Has m' "PGWS5S8FTEIDC" [i] ∧ FTEIDReads i 7 k none none) ∧
    (¬ Has m "SGWFQCSID" [] → (serve g p (start heap) s b (some k) (some ku) a d true).2 = ([], .panic)) := by
  have hi := inv_start heap
  have hs : Fresh (start heap) s := ⟨fun i h => (by cases h), fun t h => (by cases h)⟩
  have hin := (asks_in hsc v).1 hv
  obtain ⟨n1, n2⟩ := host_v6_unread hp.1 hp.2
  have e6 : (v.vals.sess a b).teids.load 6 = some v.teid := by
    refine (kidTeids_keeps v.bearer _ 6 h6).trans ?_
    rw [SyncMap.load_store]; rfl
  rw [serve_create hi s b (some k) (some ku) true hm hsc (Or.inl h0)]
  refine ⟨fun hq => ?_, fun hq => ?_⟩
  · have hq := has_get hsc (k := 23) (by decide) hq
    obtain ⟨rs, out, m', s1, _, _, _, s3, F0, F5, _⟩ := create_ok g hg.1 hg.2 p hi hs b k ku a hm hsc hin e6 [] (fun h => absurd hq h)
    obtain ⟨_, q1, q2, q3, q4⟩ := s3 { start heap with handlers := [(33, .app 0)], byTeid := [(v.teid, some 0)] } 0 (heap 0).peer rfl
      (Or.inr ⟨0, by rw [getByTEID_ok]; exact ⟨by simp [SyncMap.load], rfl⟩⟩)
    refine ⟨_, out, m', s1, fun A n aP h1 h2 => (s3 A n aP h1 h2).1, _, has_of q1 (k := 5) (by decide) (by rw [q4]; exact F5), ?_⟩
    have := fteidOf_reads 7 1 k (host p.laddr.string) (by decide)
    rw [show (parseIP (host p.laddr.string)).bind to4 = none by
      cases e : parseIP (host p.laddr.string) with
      | none => rfl
      | some x => exact absurd ⟨x, (parseIP_iff _ _).mp e⟩ n1] at this
    exact this
  · exact create_panic g p hi hs b k ku a hm hsc hin (fun e => hq (has_of hsc (k := 23) (by decide) e)) (C85_csid_wrong _ n1 n2 [1]) true

/-! ### examples -/

/-- a P-GW on 10.0.0.1 and 10.0.0.2 -/
def exP : Cfg := ⟨⟨[10, 0, 0, 1], 2123, []⟩, [49, 48, 46, 48, 46, 48, 46, 50, 58, 50, 49, 53, 50]⟩
/-- one on the IPv6 address 2001:db8::1 -/
def exP6 : Cfg := { exP with laddr := ⟨[0x20, 1, 0xd, 0xb8, 0, 0, 0, 0, 0, 0, 0, 0, 0, 0, 0, 1], 2123, []⟩ }
def exS0 : Sess := ⟨[], "", false, [], [], [], [], [], [], 0⟩
/-- a complete request: IMSI, MSISDN, MEI, APN `a`, serving network, RAT type 6, the S-GW's TEID 100, a Bearer Context with EBI 5 and
the S-GW's TEID 101 for user data, and the address 10.9.0.1 -/
def exIEs : List (Option IE) :=
  [some (newIE 1 0 [0x00, 0x01, 0x11, 0x32, 0x54, 0x76, 0x98, 0xf1]), some (newIE 76 0 [0x18, 0x09]), some (newIE 75 0 [0x12, 0x34]),
    some (newIE 71 0 [1, 97]), some (newIE 83 0 [0x00, 0xf1, 0x10]), some (newIE 82 0 [6]), some (newIE 87 0 [0x86, 0, 0, 0, 100, 10, 0, 0, 9]),
    (match newGrouped defaultGrouped 93 [some (newIE 73 0 [5]), some (newIE 87 2 [0x84, 0, 0, 0, 101, 10, 0, 0, 9])] with
      | ok x => x
      | _ => none),
    some (newIE 79 0 [1, 10, 9, 0, 1])]
def exDatagram (sc : Msg.Schema) (t q : UInt32) (ies : List (Option IE)) : Bytes :=
  match marshalMsg defaultGrouped (newMessage defaultGrouped sc t q ies) with
  | ok x => x.2
  | _ => []
/-- a datagram from `a`: the new state -/
def exGot (p : Cfg) (c : Conn) (s : Nat) (k : UInt32) (a : Addr) (d : Bytes) (w : Bool := true) : Conn :=
  (serve defaultGrouped p c s s (some k) (some (k + 1)) a d w).1
/-- what comes back to whom: message type, TEID, sequence number, and the octets of the elements -/
structure ExSent where
  to' : Addr
  typ : UInt8
  teid : UInt32
  seq : UInt32
  ies : List (UInt8 × UInt8 × Bytes)
  deriving DecidableEq
def exBack (p : Cfg) (c : Conn) (s : Nat) (k : UInt32) (a : Addr) (d : Bytes) (w : Bool := true) :
    List ExSent × Res Unit :=
  let r := serve defaultGrouped p c s s (some k) (some (k + 1)) a d w
  ((datagrams r.2.1).filterMap fun x => match parseMsg defaultGrouped x.2 with
    | ok m => some ⟨x.1, m.hdr.typ, m.hdr.teidAcc, m.hdr.sequence,
        (List.range 40).flatMap fun j => (m.fields j).map fun i => (i.typ, i.instance', i.payload)⟩
    | _ => none, r.2.2)
def exReq : Bytes := exDatagram Tab.createSessionRequest 0 9 exIEs
def exOn : Conn := exGot exP (start fun _ => exS0) 0 7 "s" exReq
def exIMSI : Bytes := [48, 48, 49, 48, 49, 49, 50, 51, 52, 53, 54, 55, 56, 57, 49]

def exRes : List (UInt8 × UInt8 × Bytes) :=
  [(2, 0, [16, 0]), (87, 1, [0x87, 0, 0, 0, 7, 10, 0, 0, 1]), (79, 0, [1, 10, 9, 0, 1]), (127, 0, [2]),
    (93, 0, [2, 0, 2, 0, 16, 0, 73, 0, 1, 0, 5, 87, 0, 9, 2, 0x85, 0, 0, 0, 8, 10, 0, 0, 2, 94, 0, 4, 0, 0, 0, 0, 0])]
def exCSID : IE := newIE 132 1 [1, 1, 1, 1, 1, 0, 1]

-- the request is complete
example : Asks defaultGrouped (newMessage defaultGrouped Tab.createSessionRequest 0 0 exIEs)
    ⟨exIMSI, [56, 49, 57, 48], [50, 49, 52, 51], [97], [48, 48, 49], [48, 49], 6, 100,
      [newIE 73 0 [5], newIE 87 2 [0x84, 0, 0, 0, 101, 10, 0, 0, 9]], [49, 48, 46, 57, 46, 48, 46, 49]⟩ := by
  refine (asks_in rfl _).2 ⟨⟨_, _, rfl, ?_⟩, ⟨_, _, rfl, ?_⟩, ⟨_, _, rfl, ?_⟩, ⟨_, _, rfl, ?_⟩, ⟨_, _, rfl, ?_⟩, ⟨_, _, rfl, ?_⟩, ⟨_, _, rfl, ?_⟩,
    ⟨_, _, rfl, ?_, ?_⟩, ⟨_, _, rfl, ?_⟩⟩
  case refine_8 => rfl
  case refine_9 =>
    intro i hi
    rcases List.mem_cons.1 hi with rfl | hi
    · exact ⟨fun _ => ⟨5, by decide +kernel⟩, fun h => absurd h (by decide)⟩
    · obtain rfl := List.mem_singleton.1 hi
      exact ⟨fun h => absurd h (by decide), fun _ => ⟨⟨4, by decide +kernel⟩, ⟨101, by decide +kernel⟩, ⟨[49, 48, 46, 48, 46, 48, 46, 57], by decide +kernel⟩⟩⟩
  all_goals decide +kernel

-- it is accepted, with FQ-CSID if it has one; the session is there; both kinds of Delete Session Request; one from someone else
example : exBack exP (start fun _ => exS0) 0 7 "s" exReq = ([⟨"s", 33, 100, 9, exRes⟩], ok ()) ∧
    exBack exP (start fun _ => exS0) 0 7 "s" (exDatagram Tab.createSessionRequest 0 9 (exIEs ++ [some exCSID])) =
      ([⟨"s", 33, 100, 9, exRes ++ [(132, 0, [1, 10, 0, 0, 1, 0, 1])]⟩], ok ()) ∧
    getSessionByTEID exOn 7 "s" = ok 0 ∧ getSessionByIMSI exOn exIMSI = ok 0 ∧
    (exOn.heap 0).teids = [(7, 7), (5, 8), (4, 101), (6, 100)] ∧ ((exOn.brs 0).ebi, (exOn.brs 0).apn) = (5, [97]) ∧
    exBack exP exOn 1 8 "s" (exDatagram Tab.deleteSessionRequest 7 10 []) = ([⟨"s", 37, 100, 10, [(2, 0, [16, 0])]⟩], ok ()) ∧
    getSessionByIMSI (exGot exP exOn 1 8 "s" (exDatagram Tab.deleteSessionRequest 7 10 [])) exIMSI = err .notFound ∧
    exBack exP exOn 1 8 "t" (exDatagram Tab.deleteSessionRequest 7 10 []) = ([], err .notFound) ∧
    exBack exP exOn 1 8 "t" (exDatagram Tab.deleteSessionRequest 0 10 []) = ([⟨"t", 37, 0, 10, [(2, 0, [96, 0])]⟩], err .notFound) := by
  decide +kernel

-- a stranger sends nothing but an IMSI: no answer, but the session is gone
example : let d := exDatagram Tab.createSessionRequest 0 10 [exIEs[0]!]
    exBack exP exOn 1 8 "t" d = ([], err .other) ∧ getSessionByTEID exOn 7 "s" = ok 0 ∧
    getSessionByTEID (exGot exP exOn 1 8 "t" d) 7 "s" = err .notFound ∧ getSessionByIMSI (exGot exP exOn 1 8 "t" d) exIMSI = err .notFound := by
  decide +kernel

-- the answer could not be written: a message with that TEID crashes the P-GW, others do not
example : let c := exGot exP (start fun _ => exS0) 0 7 "s" exReq false
    exBack exP c 1 8 "t" (exDatagram Tab.deleteSessionRequest 7 10 []) = ([], .panic) ∧
    exBack exP c 1 8 "t" (exDatagram Tab.deleteSessionRequest 6 10 []) = ([], err .notFound) ∧
    exBack exP c 1 8 "t" (exDatagram Tab.echoRequest 0 10 [some (newIE 3 0 [1])]) = ([⟨"t", 2, 0, 10, [(3, 0, [0])]⟩], ok ()) := by
  decide +kernel

-- on IPv6: an F-TEID without address, and a crash
example : exBack exP6 (start fun _ => exS0) 0 7 "s" exReq =
      ([⟨"s", 33, 100, 9, exRes.map fun x => if x.2.1 = 1 then (87, 1, [7, 0, 0, 0, 7]) else x⟩], ok ()) ∧
    exBack exP6 (start fun _ => exS0) 0 7 "s" (exDatagram Tab.createSessionRequest 0 9 (exIEs ++ [some exCSID])) = ([], .panic) := by
  decide +kernel

-- the second request is handled between the halves of the first: two sessions of one subscriber
example : (match parseMsg defaultGrouped exReq with
    | ok m =>
      let x := readRequest defaultGrouped 0 0 "s" m (start fun _ => exS0)
      let c := exGot exP x.1 1 9 "s" exReq
      let c' := (fromAnswer defaultGrouped exP 0 0 7 8 "s" m [49, 48, 46, 57, 46, 48, 46, 49] c).1
      [getSessionByTEID c' 7 "s", getSessionByTEID c' 9 "s", getSessionByIMSI c' exIMSI]
    | _ => []) = [ok 0, ok 1, ok 0] := by
  decide +kernel

end Verif.V2.Pgw

/-! ### cases that meet the hypotheses -/

namespace Verif.V2.Pgw
open Res Send Conn NetIP Spec IPSpec

def exMsg (d : Bytes) : Message :=
  match parseMsg defaultGrouped d with
  | ok m => m
  | _ => newMessage defaultGrouped Tab.echoRequest 0 0 []
theorem exMsg_ok {d : Bytes} (h : (match parseMsg defaultGrouped d with | ok _ => true | _ => false) = true) :
    parseMsg defaultGrouped d = ok (exMsg d) := by
  unfold exMsg
  cases hp : parseMsg defaultGrouped d with
  | ok m => rfl
  | _ => rw [hp] at h; cases h
theorem exUsual : Usual defaultGrouped := ⟨by decide, rfl⟩
theorem exOnV4 : OnV4 exP [10, 0, 0, 1] [10, 0, 0, 2] := ⟨⟨rfl, rfl⟩, ⟨[50, 49, 53, 50], rfl⟩, rfl⟩
theorem exFresh {c : Conn} {s : Nat} (h : (c.byImsi.all fun x => x.2 != s) = true) (h' : (c.byTeid.all fun x => x.2 != some s) = true) : Fresh c s := by
  constructor
  · intro i e
    simp only [SyncMap.load, Option.map_eq_some_iff] at e
    obtain ⟨x, hx, rfl⟩ := e
    have := List.all_eq_true.1 h x (List.mem_of_find?_eq_some hx)
    simp at this
  · intro i e
    simp only [SyncMap.load, Option.map_eq_some_iff] at e
    obtain ⟨x, hx, e⟩ := e
    have := List.all_eq_true.1 h' x (List.mem_of_find?_eq_some hx)
    simp [e] at this
theorem exDrawn {c : Conn} {s b : Nat} {a : Addr} {d : Bytes} {k : UInt32} (hp : parseMsg defaultGrouped d = ok (exMsg d)) (hk : k ≠ 0)
    (h : (readRequest defaultGrouped s b a (exMsg d) c).1.byTeid.load k = none) : Drawn defaultGrouped c s b a d k :=
  ⟨hk, fun m hm => by rw [hp] at hm; cases hm; exact h⟩

/-- the request of the examples above, as it is read, and the same for another subscriber with another address -/
def exV : Request := ⟨exIMSI, [56, 49, 57, 48], [50, 49, 52, 51], [97], [48, 48, 49], [48, 49], 6, 100,
  [newIE 73 0 [5], newIE 87 2 [0x84, 0, 0, 0, 101, 10, 0, 0, 9]], [49, 48, 46, 57, 46, 48, 46, 49]⟩
theorem exReq_ok : parseMsg defaultGrouped exReq = ok (exMsg exReq) := exMsg_ok (by decide +kernel)
theorem exSchema {d : Bytes} (sc : Msg.Schema) (hs : sc ∈ Tab.all) (h : parseMsg defaultGrouped d = ok (exMsg d)) (ht : (exMsg d).hdr.typ = sc.typ) :
    (exMsg d).schema = sc := schema_of h hs ht
theorem exReq_schema : (exMsg exReq).schema = Tab.createSessionRequest := exSchema _ (by simp [Tab.all]) exReq_ok (by decide +kernel)
theorem exReq_teid : (exMsg exReq).hdr.teidAcc = 0 := by decide +kernel
theorem exReq_fields (j : Nat) (hj : j < 20) : (exMsg exReq).fields j = (newMessage defaultGrouped Tab.createSessionRequest 0 0 exIEs).fields j := by
  have : ∀ j ∈ List.range 20, (exMsg exReq).fields j = (newMessage defaultGrouped Tab.createSessionRequest 0 0 exIEs).fields j := by decide +kernel
  exact this j (List.mem_range.2 hj)
theorem exNew_asks : Asks defaultGrouped (newMessage defaultGrouped Tab.createSessionRequest 0 0 exIEs) exV := by
  refine (asks_in rfl _).2 ⟨⟨_, _, rfl, ?_⟩, ⟨_, _, rfl, ?_⟩, ⟨_, _, rfl, ?_⟩, ⟨_, _, rfl, ?_⟩, ⟨_, _, rfl, ?_⟩, ⟨_, _, rfl, ?_⟩, ⟨_, _, rfl, ?_⟩,
    ⟨_, _, rfl, ?_, ?_⟩, ⟨_, _, rfl, ?_⟩⟩
  case refine_8 => rfl
  case refine_9 =>
    intro i hi
    rcases List.mem_cons.1 hi with rfl | hi
    · exact ⟨fun _ => ⟨5, by decide +kernel⟩, fun h => absurd h (by decide)⟩
    · obtain rfl := List.mem_singleton.1 hi
      exact ⟨fun h => absurd h (by decide), fun _ => ⟨⟨4, by decide +kernel⟩, ⟨101, by decide +kernel⟩, ⟨[49, 48, 46, 48, 46, 48, 46, 57], by decide +kernel⟩⟩⟩
  all_goals decide +kernel
theorem asks_of {m m' : Message} {v : Request} (h : m.schema = Tab.createSessionRequest) (h' : m'.schema = Tab.createSessionRequest)
    (hf : ∀ j, j < 20 → m'.fields j = m.fields j) (ha : Asks defaultGrouped m v) : Asks defaultGrouped m' v := by
  have x := (asks_in h v).1 ha
  refine (asks_in h' v).2 ⟨?_, ?_, ?_, ?_, ?_, ?_, ?_, ?_, ?_⟩ <;> rw [hf _ (by decide)]
  exacts [x.imsi, x.msisdn, x.imei, x.apn, x.plmn, x.rat, x.teid, x.kids, x.ip]
theorem exReq_asks : Asks defaultGrouped (exMsg exReq) exV := asks_of rfl exReq_schema exReq_fields exNew_asks

theorem exRuns0 : Runs defaultGrouped exP (start fun _ => exS0) := .start _
theorem exDrawn0 : Drawn defaultGrouped (start fun _ => exS0) 0 0 "s" exReq 7 := exDrawn exReq_ok (by decide) (by decide +kernel)
theorem exFresh0 : Fresh (start fun _ => exS0) 0 := exFresh rfl rfl
theorem exRuns1 : Runs defaultGrouped exP exOn := .datagram _ 0 0 7 8 "s" exReq exRuns0 exFresh0 exDrawn0
theorem exBearers (q : IE → Prop) (h1 : q (newIE 73 0 [5])) (h2 : q (newIE 87 2 [0x84, 0, 0, 0, 101, 10, 0, 0, 9])) : ∀ i ∈ exV.bearer, q i := by
  intro i hi
  rcases List.mem_cons.1 hi with rfl | hi
  · exact h1
  · obtain rfl := List.mem_singleton.1 hi; exact h2
theorem exEBI : ∀ i ∈ exV.bearer, i.typ = 73 → i.ebi defaultGrouped = ok 5 :=
  exBearers _ (fun _ => by decide +kernel) fun h => absurd h (by decide)
theorem exNot6 : ∀ i ∈ exV.bearer, i.typ = 87 → i.interfaceType ≠ ok 6 :=
  exBearers _ (fun h => absurd h (by decide)) fun _ => by decide +kernel

example := C98_safe _ exUsual exP _ _ exOnV4 exOn exRuns1 1 1 9 10 "t" exReq (exFresh (by decide +kernel) (by decide +kernel))
  (exDrawn exReq_ok (by decide) (by decide +kernel))
example := C98_tables _ exUsual exP _ _ exOnV4 exOn exRuns1
example := C98_create_partial _ exUsual exP _ _ exOnV4 _ exRuns0 0 0 7 8 "s" exReq exFresh0 exDrawn0 _ exReq_ok exReq_schema (.inl exReq_teid) exV exReq_asks 5
  exEBI (.inr ⟨_, List.mem_cons_self, rfl⟩) exNot6
example := C98_answered_iff _ exUsual exP _ _ exOnV4 _ exRuns0 0 0 7 8 "s" exReq exFresh0 _ exReq_ok exReq_schema (.inl exReq_teid)
/-- a request with the IMSI only -/
def exShort : Bytes := exDatagram Tab.createSessionRequest 0 10 [exIEs[0]!]
theorem exShort_ok : parseMsg defaultGrouped exShort = ok (exMsg exShort) := exMsg_ok (by decide +kernel)
theorem exShort_schema : (exMsg exShort).schema = Tab.createSessionRequest := exSchema _ (by simp [Tab.all]) exShort_ok (by decide +kernel)
example := C98_incomplete _ exUsual exP _ _ exOnV4 exOn exRuns1 1 1 9 10 "t" exShort (exFresh (by decide +kernel) (by decide +kernel)) _ exShort_ok exShort_schema
  (.inl (by decide +kernel)) (by
    rintro ⟨v, hv⟩
    obtain ⟨i, r, e, _⟩ := ((asks_in exShort_schema v).1 hv).msisdn
    have : (exMsg exShort).fields 1 = [] := by decide +kernel
    rw [this] at e; cases e)
def exDelete (t : UInt32) : Bytes := exDatagram Tab.deleteSessionRequest t 10 []
theorem exDelete_ok : parseMsg defaultGrouped (exDelete 7) = ok (exMsg (exDelete 7)) := exMsg_ok (by decide +kernel)
theorem exDelete_schema : (exMsg (exDelete 7)).schema = Tab.deleteSessionRequest := exSchema _ (by simp [Tab.all]) exDelete_ok (by decide +kernel)
theorem exDelete0_ok : parseMsg defaultGrouped (exDelete 0) = ok (exMsg (exDelete 0)) := exMsg_ok (by decide +kernel)
example := C98_delete _ exUsual exP _ _ exOnV4 exOn exRuns1 1 1 9 10 "s" (exDelete 7) _ exDelete_ok exDelete_schema 0 (by decide +kernel)
example := C98_refused _ exUsual exP _ _ exOnV4 exOn exRuns1 1 1 9 10 "s" (exDelete 0) _ exDelete0_ok
  (exSchema _ (by simp [Tab.all]) exDelete0_ok (by decide +kernel)) (by decide +kernel)
example := C98_unwritten_wrong _ exUsual exP _ _ exOnV4 _ exRuns0 0 0 7 8 "s" exReq exFresh0 exDrawn0 _ exReq_ok exReq_schema (.inl exReq_teid) exV exReq_asks
example := C98_window_wrong _ exUsual exP _ _ exOnV4 _ exRuns0 0 0 7 8 "s" exReq exFresh0 exDrawn0 _ exReq_ok exReq_schema exV exReq_asks
example := C98_halves defaultGrouped exP 0 0 7 8 "s" (exMsg exReq) exReq_schema (start fun _ => exS0)
example := C98_race_wrong _ exUsual exP _ _ exOnV4 _ exRuns0 0 1 0 1 7 9 8 10 "s" "t" exReq exReq _ _ exV exV exFresh0 (exFresh rfl rfl) (by decide) (by decide)
  (by decide) (by decide) (by decide) rfl rfl exReq_ok exReq_ok exReq_schema exReq_schema exReq_teid exReq_asks exReq_asks rfl
example := C98_v6_wrong _ exUsual exP6 ⟨by decide, rfl⟩ (fun _ => exS0) 0 0 7 8 "s" exReq _ exReq_ok exReq_schema exReq_teid exV exReq_asks exNot6
instance {α : Type} : (x : Res α) → Decidable (∃ v, x = ok v)
  | .ok v => isTrue ⟨v, rfl⟩
  | .err _ => isFalse (by rintro ⟨_, h⟩; cases h)
  | .panic => isFalse (by rintro ⟨_, h⟩; cases h)
  | .diverge => isFalse (by rintro ⟨_, h⟩; cases h)
theorem exReadable : ∀ a ∈ atoms exIEs, Readable defaultGrouped a := by unfold Readable; decide +kernel
/-- an S-GW whose control plane is on S5/S8, with handlers for both answers -/
def exSgw : Conn := { start (fun _ => exS0) with localIf := 6, handlers := [(33, .app 0), (37, .app 1)] }
theorem exSendable : Sendable defaultGrouped Tab.createSessionRequest exIEs := by
  have hw : ∀ x ∈ exIEs, (match x with | some x => wf defaultGrouped x | none => true) = true := by decide +kernel
  refine ⟨by simp [Tab.all], ⟨fun x hx => hw _ hx, by decide +kernel⟩, ⟨?_, ?_, fun _ => .inl (by decide +kernel)⟩, ?_⟩
  · intro h; exact absurd (congrArg Msg.Schema.typ h) (by decide)
  · intro h; exact absurd (congrArg Msg.Schema.typ h) (by decide)
  · intro h; rcases h with h | h <;> exact absurd (congrArg Msg.Schema.typ h) (by decide)
theorem exSendableDel : Sendable defaultGrouped Tab.deleteSessionRequest [] := by
  refine ⟨by simp [Tab.all], ⟨(fun x hx => by cases hx), (by decide)⟩, ⟨?_, ?_, ?_⟩, ?_⟩
  · intro h; exact absurd (congrArg Msg.Schema.typ h) (by decide)
  · intro h; exact absurd (congrArg Msg.Schema.typ h) (by decide)
  · intro h; exact absurd (congrArg Msg.Schema.typ h) (by decide)
  · intro h; rcases h with h | h <;> exact absurd (congrArg Msg.Schema.typ h) (by decide)
example := C98_life_partial _ exUsual exP _ _ exOnV4 _ exRuns0 0 0 7 8 exFresh0 (by decide) rfl exSgw 0 0 4 "s" "p" exIEs [] exV
  exSendable exSendableDel exNew_asks 5
  exEBI (.inr ⟨_, List.mem_cons_self, rfl⟩) exNot6 exReadable _ rfl (by decide +kernel) 0 1 rfl rfl
end Verif.V2.Pgw
