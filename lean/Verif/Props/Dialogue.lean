import Verif.Props.Attach
/-
C94: requests and answers of any type between two connections, and the life of a session from Create Session to its removal on
both sides (gtpv2/conn.go:167-206, 313-395, 595-661, 664-725).
-/
namespace Verif.V2.Conn
open Res Send Spec

/-- the elements are among those the constructor and the parser of this message type treat alike (`C13_*`; all elements for all types
but three) -/
def Alike (g : UInt8 → Bool) (sc : Msg.Schema) (ies : List (Option IE)) : Prop :=
  (sc = Tab.contextResponse → ∀ x, some x ∈ ies → x.typ ≠ 206 ∧ x.typ ≠ 207) ∧
  (sc = Tab.createBearerResponse → ∀ x, some x ∈ ies → (x.typ = 132 → x.instance'.toNat ≤ 3) ∧ (x.typ = 169 → x.instance'.toNat ≤ 1) ∧
      (x.typ = 179 → x.instance'.toNat = 1) ∧ (x.typ = 180 → x.instance'.toNat ≤ 2) ∧ (x.typ = 126 → x.instance'.toNat ≤ 1)) ∧
  (sc = Tab.createSessionRequest → Msg.newFields (ieOps g) sc ies 64 = [] ∨ Msg.newFields (ieOps g) sc ies 65 = [])

/-- a message of this type with these elements fits the buffer of Serve and is not too short to be read -/
def Sendable (g : UInt8 → Bool) (sc : Msg.Schema) (ies : List (Option IE)) : Prop :=
  sc ∈ Tab.all ∧ FitsRead g ies ∧ Alike g sc ies ∧ (sc = Tab.echoRequest ∨ sc = Tab.echoResponse → ∃ x, some x ∈ ies)

theorem flags_T : ∀ sc ∈ Tab.all, sc.typ = 1 ∨ sc.typ = 2 ∨ sc.flags.toNat / 8 % 2 = 1 := by decide +kernel

theorem sendable_round {g : UInt8 → Bool} {sc : Msg.Schema} {ies : List (Option IE)} (h : Sendable g sc ies) (teid q : UInt32)
    (hq : q.toNat < 2 ^ 24) : RoundTrips g sc teid q ies := by
  obtain ⟨hs, ⟨hw, hl⟩, ⟨a1, a2, a3⟩, he⟩ := h
  by_cases e1 : sc = Tab.contextResponse
  · subst e1; exact C13_round_trip_contextResponse_partial g teid q ies hw hq (a1 rfl) (by omega)
  by_cases e2 : sc = Tab.createBearerResponse
  · subst e2; exact C13_round_trip_createBearerResponse_partial g teid q ies hw hq (a2 rfl) (by omega)
  by_cases e3 : sc = Tab.createSessionRequest
  · subst e3; exact C13_round_trip_createSessionRequest_partial g teid q ies hw hq (a3 rfl) (by omega)
  by_cases e4 : sc = Tab.echoRequest ∨ sc = Tab.echoResponse
  · exact C18_echo g sc e4 teid q ies (he e4) hw hq (by omega)
  refine C13_round_trip_partial g sc hs e1 e2 e3 teid q ies hw hq ?_ (by omega)
  rw [marshalLen_done g _ (all_lensOK _ hs), marshalLen_done_hdr, if_pos]
  · omega
  · show sc.flags.toNat / 8 % 2 = 1
    rcases flags_T sc hs with t | t | t
    · exact absurd (Or.inl (by rw [← schemaOf_all sc hs, t]; rfl)) e4
    · exact absurd (Or.inr (by rw [← schemaOf_all sc hs, t]; rfl)) e4
    · exact t

/-- a message of the type arrives at `C`: the handler of its type is called, once, with the sender's address and a message that has
the TEID, the sequence number and every element in the field of its kind -/
def Delivered (g : UInt8 → Bool) (C : Conn) (h : Nat) (from' : Addr) (out : Bytes) (sc : Msg.Schema) (teid q : UInt32)
    (ies : List (Option IE)) (m : Message) : Prop :=
  (∀ w, serveDatagram g C from' (asRead out) w = ([.call h from' m], ok ())) ∧ m.schema = sc ∧ m.hdr.teidAcc = teid ∧
    m.hdr.sequence = q ∧ m.fields = Msg.newFields (ieOps g) sc ies

/-- who can be reached: messages without TEID reach everyone, others the session with the sender that has the TEID -/
def Reaches (C : Conn) (teid : UInt32) (from' : Addr) : Prop := teid = 0 ∨ ∃ s, getSessionByTEID C teid from' = ok s

theorem delivered_of {g : UInt8 → Bool} {C : Conn} {h : Nat} {a : Addr} {sc : Msg.Schema} {ies : List (Option IE)}
    (hs : Sendable g sc ies) {teid q : UInt32} (ht : sc.hasTEIDArg = false → teid = 0) {m : Message} {out : Bytes}
    (h2 : (out.length : Int) = Msg.marshalLen hdrOps (ieOps g) (newMessage g sc teid q ies))
    (h3 : parseMsg g out = ok m) (h4 : m.schema = sc) (h5 : m.fields = (newMessage g sc teid q ies).fields)
    (h6 : m.hdr.typ = sc.typ) (h7 : m.hdr.sequence = q) (h8 : m.hdr.teidAcc = (if sc.hasTEIDArg then teid else 0))
    (hC : C.handlers.load sc.typ = some (.app h)) (hr : Reaches C teid a) : Delivered g C h a out sc teid q ies m := by
  have e8 : m.hdr.teidAcc = teid := by
    rw [h8]
    cases hb : sc.hasTEIDArg with
    | true => simp
    | false => simp [ht hb]
  have hlen := roundTrips_length hs.1 h2
  have hread : asRead out = out := List.take_of_length_le (by have := hs.2.1.2; omega)
  refine ⟨fun w => ?_, h4, e8, h7, h5⟩
  rw [hread]
  exact serve_reaches h3 (by rw [h6]; exact hC) (by rw [e8]; exact hr) w

/-- **C94** SendMessageTo with a message of any type built by its constructor: one datagram goes to the address given, and the
receiver's handler for that type is called with it, once, if the TEID is 0 or leads to a session with the sender there.  What that
handler gives to RespondTo, again of any type, reaches the handler of the sender in the same way, with the sequence number
SendMessageTo returned; whatever the sender has done in between.  Partial: for the elements `Alike` leaves out, and messages of more
than 1500 octets. -/
theorem C94_exchange_partial (g : UInt8 → Bool) (B : Conn) (n : UInt32) (aA aB : Addr) (sc : Msg.Schema) (teid : UInt32)
    (ies : List (Option IE)) (hs : Sendable g sc ies) (ht : sc.hasTEIDArg = false → teid = 0)
    (h : Nat) (hB : B.handlers.load sc.typ = some (.app h)) (hr : Reaches B teid aA) :
    ∃ q out m, sendMessageTo g n (newMessage g sc teid 0 ies) aB true = (q, [.sent aB out], ok q) ∧
      Delivered g B h aA out sc teid q ies m ∧
      ∀ sc' t rs k A'', Sendable g sc' rs → (sc'.hasTEIDArg = false → t = 0) → A''.handlers.load sc'.typ = some (.app k) →
        Reaches A'' t aB →
        ∃ out' m', respondTo g aA m (newMessage g sc' t 0 rs) true = ([.sent aA out'], ok ()) ∧
          Delivered g A'' k aB out' sc' t q rs m' := by
  obtain ⟨m, out, h1, h2, h3, h4, h5, h6, h7, h8⟩ := sendable_round hs teid (inc n) (inc_small n)
  refine ⟨inc n, out, m, ?_, delivered_of hs ht h2 h3 h4 h5 h6 h7 h8 hB hr, ?_⟩
  · unfold sendMessageTo; rw [setSeq_new, h1]; rfl
  · intro sc' t rs k A'' hs' ht' hk hr'
    obtain ⟨m', out', k1, k2, k3, k4, k5, k6, k7, k8⟩ := sendable_round hs' t (inc n) (inc_small n)
    refine ⟨out', m', ?_, delivered_of hs' ht' k2 k3 k4 k5 k6 k7 k8 hk hr'⟩
    unfold respondTo response
    rw [h7, setSeq_new, k1]
    rfl

/-- **C94** otherwise nothing happens: a datagram with a TEID that leads to no session with the sender calls no handler and is not
answered. -/
theorem C94_stranger (g : UInt8 → Bool) (C : Conn) (a : Addr) (b : Bytes) (m : Message) (hp : parseMsg g b = ok m)
    (hv : C.validation = true) (hn : ¬ Reaches C m.hdr.teidAcc a) (w : Bool) :
    (serveDatagram g C a b w).1 = [] := by
  have h0 : m.hdr.teidAcc ≠ 0 := fun e => hn (Or.inl e)
  have hv' : (validate g C a m w).1 = [] ∧ ∀ u, (validate g C a m w).2 ≠ ok u := by
    unfold validate
    rw [if_neg (by simp [Header.version]), if_pos h0]
    cases hg : getSessionByTEID C m.hdr.teidAcc a with
    | ok s => exact absurd (Or.inr ⟨s, hg⟩) hn
    | err e => exact ⟨rfl, fun _ h => by cases h⟩
    | panic => exact ⟨rfl, fun _ h => by cases h⟩
    | diverge => exact ⟨rfl, fun _ h => by cases h⟩
  unfold serveDatagram handleMessage
  rw [hp]
  simp only [hv, if_true]
  obtain ⟨e1, e2⟩ := hv'
  split
  · rename_i ev u hx; rw [hx] at e2; exact absurd rfl (e2 u)
  · rename_i ev r _ hx; rw [hx] at e1; exact e1

/-- a session that is found under the TEID it has for the connection's own interface, and removed, is not found under it any more -/
theorem removed {C C' : Conn} {s : Nat} {t : UInt32} (h : (C.heap s).teids.load C.localIf = some t)
    (hr : removeSession C s = ok C') (a : Addr) : getSessionByTEID C' t a = err .notFound ∧ C'.validation = C.validation ∧
      C'.handlers = C.handlers := by
  unfold removeSession at hr
  simp only [h] at hr
  obtain rfl := ok.inj hr
  refine ⟨?_, rfl, rfl⟩
  unfold getSessionByTEID
  simp only [SyncMap.load_delete, if_true]

/-- nobody reaches a session under TEID `t` at `C` -/
def Gone (g : UInt8 → Bool) (C : Conn) (t : UInt32) : Prop :=
  ∀ a b m w, parseMsg g b = ok m → m.hdr.teidAcc = t → (serveDatagram g C a b w).1 = []

theorem gone_of {g : UInt8 → Bool} {C : Conn} {s : Nat} {t : UInt32} (h : (C.heap s).teids.load C.localIf = some t) (h0 : t ≠ 0)
    (hv : C.validation = true) : ∃ C', removeSession C s = ok C' ∧ Gone g C' t := by
  have hr : ∃ C', removeSession C s = ok C' := by unfold removeSession; simp only [h]; exact ⟨_, rfl⟩
  obtain ⟨C', hr⟩ := hr
  refine ⟨C', hr, fun a b m w hp e => ?_⟩
  obtain ⟨h1, h2, _⟩ := removed h hr a
  refine C94_stranger g C' a b m hp (by rw [h2]; exact hv) ?_ w
  rw [e]
  rintro (h | ⟨s', h⟩)
  · exact h0 h
  · rw [h1] at h; cases h

/-- **C94** the life of a session.  `A` calls CreateSession with an F-TEID of its own interface type with TEID `tA`; `B`'s handler
registers a session with `A` under `tB` and answers with RespondTo; `A` calls DeleteSession, `B` answers that.  Each of the four
messages goes to the other side and calls its handler, once, with all elements, and the answers have the sequence number of their
requests.  Then both remove the session: from then on messages for `tA` and `tB` call no handler and are not answered, whoever sends
them.  Partial as `C94_exchange_partial`; if there are several F-TEIDs of that type, this is about the last (`C33_old_teid_remains`). -/
theorem C94_life_partial (g : UInt8 → Bool) (A B : Conn) (s b sB : Nat) (n tA tB : UInt32) (aA aB : Addr)
    (cs rs ds drs : List (Option IE)) (hcs : Sendable g Tab.createSessionRequest cs) (hrs : Sendable g Tab.createSessionResponse rs)
    (hds : Sendable g Tab.deleteSessionRequest ds) (hdrs : Sendable g Tab.deleteSessionResponse drs)
    (hread : ∀ a ∈ atoms cs, Readable g a) (i : IE) (hlast : lastFTEID A.localIf cs = some (true, i)) (htA : i.teid = ok tA) (hA0 : tA ≠ 0) (hB0 : tB ≠ 0)
    (hpeer : (B.heap sB).peer = aA) (k1 k2 h1 h2 : Nat)
    (hA1 : A.handlers.load 33 = some (.app k1)) (hA2 : A.handlers.load 37 = some (.app k2))
    (hB1 : B.handlers.load 32 = some (.app h1)) (hB2 : B.handlers.load 36 = some (.app h2))
    (hvA : A.validation = true) (hvB : B.validation = true) :
    ∃ A' q out m, createSession A g n s b aB cs true = (A', q, [.sent aB out], ok (s, q)) ∧
      Delivered g B h1 aA out Tab.createSessionRequest 0 q cs m ∧
    ∃ out₂ m₂, respondTo g aA m (newMessage g Tab.createSessionResponse tA 0 rs) true = ([.sent aA out₂], ok ()) ∧
      Delivered g A' k1 aB out₂ Tab.createSessionResponse tA q rs m₂ ∧
    ∃ q₃ out₃ m₃, deleteSession A' s g q tB ds true = (q₃, [.sent aB out₃], ok q₃) ∧
      Delivered g (registerSession B tB sB) h2 aA out₃ Tab.deleteSessionRequest tB q₃ ds m₃ ∧
    ∃ out₄ m₄, respondTo g aA m₃ (newMessage g Tab.deleteSessionResponse tA 0 drs) true = ([.sent aA out₄], ok ()) ∧
      Delivered g A' k2 aB out₄ Tab.deleteSessionResponse tA q₃ drs m₄ ∧
    (∃ A₂, removeSession A' s = ok A₂ ∧ Gone g A₂ tA) ∧
    (∃ B₂, removeSession (registerSession B tB sB) sB = ok B₂ ∧ Gone g B₂ tB) := by
  obtain ⟨A', hok⟩ := (C61_accepts g A s b aB cs).2.2 hread
  have hkeep := C62_nothing_else g A s b aB cs
  rw [hok] at hkeep
  have hh : A'.handlers = A.handlers := hkeep.2.2.1
  have hfound : getSessionByTEID A' tA aB = ok s := by
    refine (C62_by_teid g A A' s b aB cs hok tA).1 ⟨(true, i), ?_, ?_⟩
    · exact (List.mem_filter.1 (List.mem_of_getLast? hlast)).1
    · have h := (List.mem_filter.1 (List.mem_of_getLast? hlast)).2
      simp only [decide_eq_true_eq] at h
      exact ⟨rfl, h.1, h.2, htA⟩
  have hown : (A'.heap s).teids.load A'.localIf = some tA := by
    have h := (C61_contents_partial g A A' s b aB cs hok).2.2.2.2.2.2.2.2.2.2.2.2.1 A.localIf
    rw [hlast] at h
    unfold Told at h
    simp only [htA, bind_ok] at h
    rw [show A'.localIf = A.localIf from hkeep.1]
    exact (ok.inj h).symm
  have hp : (A'.heap s).peer = aB := by
    unfold getSessionByTEID at hfound
    split at hfound
    · cases hfound
    · cases hfound
    · split at hfound
      · cases hfound
      · rename_i hne; obtain rfl := ok.inj hfound; exact (Classical.not_not.1 hne).symm
  obtain ⟨q, out, m, e1, d1, f1⟩ := C94_exchange_partial g B n aA aB Tab.createSessionRequest 0 cs hcs (fun _ => rfl) h1 hB1 (Or.inl rfl)
  obtain ⟨out₂, m₂, e2, d2⟩ := f1 Tab.createSessionResponse tA rs k1 A' hrs (fun h => by cases h) (by rw [hh]; exact hA1)
    (Or.inr ⟨s, hfound⟩)
  have hB' : getSessionByTEID (registerSession B tB sB) tB aA = ok sB := by
    unfold getSessionByTEID registerSession addTEID update
    simp only [SyncMap.load_store, if_true]
    simp [hpeer]
  obtain ⟨q₃, out₃, m₃, e3, d3, f3⟩ := C94_exchange_partial g (registerSession B tB sB) q aA aB Tab.deleteSessionRequest tB ds hds
    (fun h => by cases h) h2 hB2 (Or.inr ⟨sB, hB'⟩)
  obtain ⟨out₄, m₄, e4, d4⟩ := f3 Tab.deleteSessionResponse tA drs k2 A' hdrs (fun h => by cases h) (by rw [hh]; exact hA2)
    (Or.inr ⟨s, hfound⟩)
  refine ⟨A', q, out, m, ?_, d1, out₂, m₂, e2, d2, q₃, out₃, m₃, ?_, d3, out₄, m₄, e4, d4, ?_, ?_⟩
  · unfold createSession
    rw [hok]
    simp only
    rw [e1]
    rfl
  · unfold deleteSession
    rw [hp]; exact e3
  · exact gone_of hown hA0 (by rw [show A'.validation = A.validation from hkeep.2.1]; exact hvA)
  · refine gone_of ?_ hB0 hvB
    unfold registerSession addTEID update
    simp [SyncMap.load_store]

/-- the MME of C88 after its Create Session, and the S-GW that has registered session 0 under TEID 8: a Delete Session Request for
TEID 8 reaches the S-GW's handler 6 and its answer the MME's handler 7; after RemoveSession neither does -/
def exMME2 : Conn := { exSent.1 with handlers := [(33, .app 5), (37, .app 7)] }
def exSGW2 : Conn := registerSession { exSGW with handlers := [(32, .app 9), (36, .app 6)], heap := fun i => { exSGW.heap i with peer := "a" } } 8 0
def exDel : Bytes := ((datagrams (deleteSession exMME2 3 defaultGrouped 5 8 [some (newIE 73 0 [5])] true).2.1).map (·.2)).flatten
def exDelRes : Bytes := match parseMsg defaultGrouped exDel with
  | ok m => ((datagrams (respondTo defaultGrouped "a" m (newMessage defaultGrouped Tab.deleteSessionResponse 7 0
      [some (newIE 2 0 [16, 0])]) true).1).map (·.2)).flatten
  | _ => []
def exGone (c : Conn) (s : Nat) (f : Nat) (a : Addr) (b : Bytes) :=
  match removeSession c s with
  | ok c' => some (seen f f (serveDatagram defaultGrouped c' a (asRead b) true))
  | _ => none

set_option synthInstance.maxSize 2000 in
set_option synthInstance.maxHeartbeats 400000 in
example : seen 1 1 (serveDatagram defaultGrouped exSGW2 "a" (asRead exDel) true) = [((6, "a"), (6, 8), [[[5]], [[5]]])] ∧
    seen 0 0 (serveDatagram defaultGrouped exMME2 "b" (asRead exDelRes) true) = [((7, "b"), (6, 7), [[[16, 0]], [[16, 0]]])] ∧
    exGone exSGW2 0 1 "a" exDel = some [] ∧ exGone exMME2 3 0 "b" exDelRes = some [] := by
  decide +kernel

end Verif.V2.Conn

namespace Verif.V2.Conn
open Res Send Spec
/-! ### cases that meet the hypotheses -/

theorem exSendable : Sendable defaultGrouped Tab.deleteSessionRequest [some (newIE 73 0 [5]), none] := by
  refine ⟨by simp [Tab.all], ⟨by intro x hx; simp at hx; subst hx; decide, by decide⟩, ⟨?_, ?_, ?_⟩, ?_⟩
  · intro h; exact absurd (congrArg Msg.Schema.typ h) (by decide)
  · intro h; exact absurd (congrArg Msg.Schema.typ h) (by decide)
  · intro h; exact absurd (congrArg Msg.Schema.typ h) (by decide)
  · intro h; rcases h with h | h <;> exact absurd (congrArg Msg.Schema.typ h) (by decide)
theorem exSendable2 : Sendable defaultGrouped Tab.deleteSessionResponse [some (newIE 2 0 [16, 0])] := by
  refine ⟨by simp [Tab.all], ⟨by intro x hx; simp at hx; subst hx; decide, by decide⟩, ⟨?_, ?_, ?_⟩, ?_⟩
  · intro h; exact absurd (congrArg Msg.Schema.typ h) (by decide)
  · intro h; exact absurd (congrArg Msg.Schema.typ h) (by decide)
  · intro h; exact absurd (congrArg Msg.Schema.typ h) (by decide)
  · intro h; rcases h with h | h <;> exact absurd (congrArg Msg.Schema.typ h) (by decide)
theorem exSendable3 : Sendable defaultGrouped Tab.createSessionResponse [some (newIE 2 0 [16, 0])] := by
  refine ⟨by simp [Tab.all], ⟨by intro x hx; simp at hx; subst hx; decide, by decide⟩, ⟨?_, ?_, ?_⟩, ?_⟩
  · intro h; exact absurd (congrArg Msg.Schema.typ h) (by decide)
  · intro h; exact absurd (congrArg Msg.Schema.typ h) (by decide)
  · intro h; exact absurd (congrArg Msg.Schema.typ h) (by decide)
  · intro h; rcases h with h | h <;> exact absurd (congrArg Msg.Schema.typ h) (by decide)
theorem exSendable4 : Sendable defaultGrouped Tab.createSessionRequest [some exIMSI, some exFTEID] := by
  refine ⟨by simp [Tab.all], ⟨by intro x hx; simp at hx; rcases hx with rfl | rfl <;> decide, by decide⟩, ⟨?_, ?_, ?_⟩, ?_⟩
  · intro h; exact absurd (congrArg Msg.Schema.typ h) (by decide)
  · intro h; exact absurd (congrArg Msg.Schema.typ h) (by decide)
  · intro _; exact .inl (by decide +kernel)
  · intro h; rcases h with h | h <;> exact absurd (congrArg Msg.Schema.typ h) (by decide)
theorem exReadable : ∀ a ∈ atoms [some exIMSI, some exFTEID], Readable defaultGrouped a := by
  intro a ha
  have h : a = (true, exIMSI) ∨ a = (true, exFTEID) := by
    have e : atoms [some exIMSI, some exFTEID] = [(true, exIMSI), (true, exFTEID)] := rfl
    rw [e] at ha; simpa using ha
  rcases h with rfl | rfl
  · refine ⟨fun _ => ⟨_, rfl⟩, ?_, ?_, ?_, ?_, ?_, ?_⟩ <;> (intro h; exact absurd h (by decide))
  · refine ⟨?_, ?_, ?_, ?_, ?_, ?_, fun _ => ⟨⟨_, rfl⟩, ⟨_, rfl⟩⟩⟩ <;> (intro h; exact absurd h (by decide))
example := C88_exchange_partial defaultGrouped exMME exSGW 3 4 4 "a" "b" [some exIMSI, some exFTEID] exSendable4.2.1 exReadable
  (.inl (by decide +kernel)) 9 rfl
example := C94_exchange_partial defaultGrouped exSGW2 5 "a" "b" Tab.deleteSessionRequest 8 [some (newIE 73 0 [5]), none] exSendable
  (by decide) 6 rfl (.inr ⟨0, by decide +kernel⟩)
example := C94_stranger defaultGrouped exSGW2 "c" [0x48, 36, 0, 13, 0, 0, 0, 8, 0, 0, 9, 0, 73, 0, 1, 0, 5] _ rfl rfl (by
  intro h
  rcases h with h | ⟨s, h⟩
  · exact absurd h (by decide)
  · have e : getSessionByTEID exSGW2 8 "c" = err .notFound := by decide +kernel
    exact absurd (e.symm.trans h) (by simp))
  true
example := C94_life_partial defaultGrouped { exC with handlers := [(33, .app 5), (37, .app 7)] }
  { exSGW with handlers := [(32, .app 9), (36, .app 6)], heap := fun i => { exSGW.heap i with peer := "a" } } 3 4 0 4 7 8 "a" "b"
  [some exIMSI, some exFTEID] [some (newIE 2 0 [16, 0])] [some (newIE 73 0 [5]), none] [some (newIE 2 0 [16, 0])]
  exSendable4 exSendable3 exSendable exSendable2 exReadable exFTEID (by decide +kernel) (by decide +kernel) (by decide) (by decide) rfl
  5 7 9 6 rfl rfl rfl rfl rfl rfl
end Verif.V2.Conn
