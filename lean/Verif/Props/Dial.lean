import Verif.Model.Dial
import Verif.Props.UConn
import Verif.Props.V2Conn
import Verif.Props.V2Request
/-
C65: dialling (gtpv2/conn.go `Dial`, gtpv1/u-conn.go `DialUPlane`).
-/
namespace Verif

theorem take_one {b : Bytes} {n : Nat} (hn : 1 < n) : (b.take n)[1]? = b[1]? := by
  rw [List.getElem?_take]; simp [hn]

namespace V2.Conn
open Res Send

/-- the connection made by Dial -/
def dialled (localIf counter : UInt8) : Conn := newConn localIf counter (fun _ => ⟨[], "", false, [], [], [], [], [], [], 0⟩)

/-- what a new connection says to a message -/
theorem fresh_handles (g : UInt8 → Bool) (localIf counter : UInt8) (a : Addr) (b : Bytes) (m : Message) (w : Bool)
    (hm : parseMsg g b = ok m) :
    ((handleMessage g (dialled localIf counter) a m w).2 = ok () ↔
      m.hdr.teidAcc = 0 ∧ (b[1]? = some 2 ∨ b[1]? = some 1 ∧ w = true)) ∧
    Returns (handleMessage g (dialled localIf counter) a m w).2 := by
  obtain ⟨t, ht, _, hs, _⟩ := parseMsg_ok g hm
  obtain ⟨⟨t', h1, htyp, _⟩, _⟩ := C12_dispatch_faithful g b m hm
  rw [ht] at h1; simp only [Option.some.injEq] at h1; subst h1
  have hd := dispatch_returns g (dialled localIf counter) a m w
  have hv : (dialled localIf counter).validation = true := rfl
  unfold handleMessage
  rw [hv]
  simp only [if_true, validate_eq]
  by_cases h0 : m.hdr.teidAcc = 0
  · simp only [h0, ne_eq, not_true_eq_false, if_false, true_and, ht, Option.some.injEq]
    refine ⟨?_, hd⟩
    unfold dispatch
    rw [htyp]
    by_cases e1 : t = 1
    · subst e1
      have hname : ¬ m.schema.name ≠ "EchoRequest" := by rw [hs]; decide
      have hl : (dialled localIf counter).handlers.load 1 = some .echoRequest := rfl
      rw [hl]
      simp only [handle, if_neg hname]
      obtain ⟨m', bb, h⟩ := echoReply_ok g counter m
      show (respondTo g a m (echoReply g counter) w).2 = ok () ↔ _
      unfold respondTo
      rw [h]
      cases w <;> simp
    · by_cases e2 : t = 2
      · subst e2
        have hname : ¬ m.schema.name ≠ "EchoResponse" := by rw [hs]; decide
        have hl : (dialled localIf counter).handlers.load 2 = some .echoResponse := rfl
        rw [hl]
        simp only [handle, if_neg hname]
        simp
      · simp only [e1, e2, false_and, or_false, iff_false]
        by_cases e3 : t = 3
        · subst e3
          have hl : (dialled localIf counter).handlers.load 3 = some .versionNotSupported := rfl
          rw [hl]
          simp only [handle]
          split <;> simp
        · have hl : (dialled localIf counter).handlers.load t = none := by
            show SyncMap.load defaultHandlers t = none
            unfold SyncMap.load defaultHandlers
            simp [Ne.symm e1, Ne.symm e2, Ne.symm e3]
          rw [hl]
          simp
  · have hl : getSessionByTEID (dialled localIf counter) m.hdr.teidAcc a = err .notFound := rfl
    simp [h0, hl, Returns]

/-- C65: Dial of the control plane gives up a connection exactly when its Echo Request could be sent and the first datagram
that arrives before the deadline - from whichever address, with whichever sequence number - parses to a message with TEID 0
(or without) and type Echo Response, or Echo Request if the reply to it can be written.  In all other cases it returns an error;
it does not panic and does not hang.
Missing for the full claim (only an Echo Response of raddr to this Echo Request): see the witnesses below. -/
theorem C65_v2_partial (g : UInt8 → Bool) (hg : g 3 = false) (localIf counter : UInt8) (raddr : Addr) (sent setDl : Bool)
    (r : Arrival) (clearDl w : Bool) :
    ((dial g localIf counter raddr sent setDl r clearDl w).2 = ok () ↔
      sent = true ∧ setDl = true ∧ clearDl = true ∧ ∃ a b m, r = .datagram a b ∧ parseMsg g (b.take 1500) = ok m ∧
        m.hdr.teidAcc = 0 ∧ (b[1]? = some 2 ∨ b[1]? = some 1 ∧ w = true)) ∧
    Returns (dial g localIf counter raddr sent setDl r clearDl w).2 := by
  have hsend : ∃ e : UInt32 × List Ev, echoRequest (dialled localIf counter) g 0 raddr true = (e.1, e.2, ok (inc 0)) := by
    obtain ⟨out, m, h, _⟩ := C63_echo g hg (dialled localIf counter) 0 raddr
    exact ⟨(inc 0, [.sent raddr out]), h⟩
  obtain ⟨e, he⟩ := hsend
  have hno : sent = false → ∃ e x, echoRequest (dialled localIf counter) g 0 raddr sent = (e, [], err x) := by
    rintro rfl
    obtain ⟨out, m, h, _⟩ := C63_echo g hg (dialled localIf counter) 0 raddr
    unfold echoRequest sendMessageTo at h ⊢
    cases hm : marshalMsg g (setSeq (newMessage g Tab.echoRequest 0 0 [some (newIE 3 0 [(dialled localIf counter).restart])]) (inc 0)) with
    | ok p => exact ⟨_, _, rfl⟩
    | err x => rw [hm] at h; simp at h
    | panic => rw [hm] at h; simp at h
    | diverge => rw [hm] at h; simp at h
  have hd : dial g localIf counter raddr sent setDl r clearDl w =
      (match echoRequest (dialled localIf counter) g 0 raddr sent with
      | (_, ev, ok _) =>
        if setDl = false then (ev, err .other) else
        match r with
        | .datagram a b =>
          if clearDl = false then (ev, err .other) else
          match parseMsg g (b.take 1500) with
          | ok m => (ev ++ (handleMessage g (dialled localIf counter) a m w).1,
              (handleMessage g (dialled localIf counter) a m w).2)
          | err e => (ev, err e)
          | .panic => (ev, .panic)
          | .diverge => (ev, .diverge)
        | _ => (ev, err .other)
      | (_, ev, err e) => (ev, err e)
      | (_, ev, .panic) => (ev, .panic)
      | (_, ev, .diverge) => (ev, .diverge)) := rfl
  rw [hd]
  cases sent with
  | false =>
    obtain ⟨e', x, h⟩ := hno rfl
    rw [h]; simp [Returns]
  | true =>
    rw [he]
    cases setDl with
    | false => simp [Returns]
    | true =>
      cases r with
      | fails => simp [Returns]
      | never => simp [Returns]
      | datagram a b =>
        cases clearDl with
        | false => simp [Returns]
        | true =>
          have hp := C11_parse_total g (b.take 1500)
          cases hm : parseMsg g (b.take 1500) with
          | err e => simp [Returns, hm]
          | panic => exact absurd hm hp.1
          | diverge => exact absurd hm hp.2
          | ok m =>
            obtain ⟨h1, h2⟩ := fresh_handles g localIf counter a (b.take 1500) m w hm
            rw [take_one (by omega)] at h1
            simp only [Bool.true_eq_false, if_false, true_and, Arrival.datagram.injEq, hm]
            refine ⟨?_, h2⟩
            rw [h1]
            constructor
            · intro h; exact ⟨a, b, m, ⟨rfl, rfl⟩, hm, h⟩
            · rintro ⟨a', b', m', ⟨rfl, rfl⟩, hm', h⟩
              rw [hm] at hm'
              simp only [ok.injEq] at hm'
              subst hm'; exact h

/-- C65: what Dial sends before it reads: one Echo Request with sequence number 1 and the restart counter, to raddr -/
theorem C65_v2_sends (g : UInt8 → Bool) (hg : g 3 = false) (localIf counter : UInt8) (raddr : Addr) (setDl : Bool)
    (r : Arrival) (clearDl w : Bool) :
    ∃ out m rest, (dial g localIf counter raddr true setDl r clearDl w).1 = .sent raddr out :: rest ∧
      parseMsg g out = ok m ∧ m.schema = Tab.echoRequest ∧ m.hdr.sequence = 1 ∧ m.hdr.teidAcc = 0 ∧
      m.fields 0 = [.mk 3 1 0 [counter] []] ∧
      (∀ a b, .sent a b ∈ rest → r ≠ .never ∧ r ≠ .fails ∧ clearDl = true) := by
  obtain ⟨out, m, h, h1, h2, h3, h4, h5⟩ := C63_echo g hg (dialled localIf counter) 0 raddr
  have hd : dial g localIf counter raddr true setDl r clearDl w =
      (match echoRequest (dialled localIf counter) g 0 raddr true with
      | (_, ev, ok _) =>
        if setDl = false then (ev, err .other) else
        match r with
        | .datagram a b =>
          if clearDl = false then (ev, err .other) else
          match parseMsg g (b.take 1500) with
          | ok m => (ev ++ (handleMessage g (dialled localIf counter) a m w).1,
              (handleMessage g (dialled localIf counter) a m w).2)
          | err e => (ev, err e)
          | .panic => (ev, .panic)
          | .diverge => (ev, .diverge)
        | _ => (ev, err .other)
      | (_, ev, err e) => (ev, err e)
      | (_, ev, .panic) => (ev, .panic)
      | (_, ev, .diverge) => (ev, .diverge)) := rfl
  have hf : m.fields 0 = [.mk 3 1 0 [counter] []] := by
    rw [h5]
    have ht : (ieOps g).typ (.mk 3 1 0 [counter] []) = 3 := rfl
    have hi : (ieOps g).inst (.mk 3 1 0 [counter] []) = 0 := (by decide : (0 : UInt8) &&& 0x0f = 0)
    show Msg.newFields (ieOps g) Tab.echoRequest [some (.mk 3 1 0 [counter] [])] 0 = _
    simp only [Msg.newFields, List.filterMap_cons, id, List.filterMap_nil, Msg.classify, List.foldl_cons, List.foldl_nil, ht, hi]
    have hs : Msg.sel Tab.echoRequest.newRules Tab.echoRequest.newDefault (3 : UInt8).toNat (0 : UInt8).toNat = .set 0 := by
      decide
    rw [hs]
    simp [Msg.Act.apply, Msg.upd]
  suffices hx : ∃ rest, (dial g localIf counter raddr true setDl r clearDl w).1 = .sent raddr out :: rest ∧
      (∀ a b, .sent a b ∈ rest → r ≠ .never ∧ r ≠ .fails ∧ clearDl = true) by
    obtain ⟨rest, hx, hy⟩ := hx
    exact ⟨out, m, rest, hx, h1, h2, h3, h4, hf, hy⟩
  rw [hd, h]
  cases setDl with
  | false => exact ⟨[], by simp⟩
  | true =>
    cases r with
    | fails => exact ⟨[], by simp⟩
    | never => exact ⟨[], by simp⟩
    | datagram a b =>
      cases clearDl with
      | false => exact ⟨[], by simp⟩
      | true =>
        cases hm : parseMsg g (b.take 1500) with
        | ok m' => exact ⟨_, by simp only [Bool.true_eq_false, if_false, hm]; rfl, by simp⟩
        | err e => exact ⟨[], by simp [hm]⟩
        | panic => exact ⟨[], by simp [hm]⟩
        | diverge => exact ⟨[], by simp [hm]⟩

/-- C65 fails: Dial to "peer" succeeds on an Echo Response of somebody else, with a sequence number that was not sent -/
theorem C65_v2_any_sender :
    (dial defaultGrouped 0 7 "peer" true true (.datagram "stranger" [0x40, 2, 0, 9, 0, 0, 99, 0, 3, 0, 1, 0, 5]) true true).2 = ok () := by
  decide +kernel

/-- C65 fails: Dial succeeds on an Echo Request, which the other side has sent on its own -/
theorem C65_v2_echo_request :
    (dial defaultGrouped 0 7 "peer" true true (.datagram "peer" [0x40, 1, 0, 9, 0, 0, 99, 0, 3, 0, 1, 0, 5]) true true).2 = ok () := by
  decide +kernel

/-- C65 fails: Dial gives up on the first other message, here a Delete Session Request for an old session, although the
Echo Response is the next datagram -/
theorem C65_v2_gives_up :
    (dial defaultGrouped 0 7 "peer" true true (.datagram "peer" [0x48, 36, 0, 8, 0, 0, 0, 1, 0, 0, 99, 0]) true true).2 = err .notFound := by
  decide +kernel

example : (match dial defaultGrouped 0 7 "peer" true true (.datagram "peer" [0x40, 2, 0, 9, 0, 0, 1, 0, 3, 0, 1, 0, 5]) true true with
    | ([.sent a b], r) => some (a, b, r) | _ => none) =
    some ("peer", [0x40, 1, 0, 9, 0, 0, 1, 0, 3, 0, 1, 0, 7], ok ()) := by decide +kernel
example : (dial defaultGrouped 0 7 "peer" true true .never true true).2 = err .other := by decide +kernel

end V2.Conn

namespace V1.UConn
open Res

/-- a turn of the loop in which a datagram is received and parsed -/
def Receives (r : Round) (b : Bytes) : Prop :=
  r.ctxDone = false ∧ r.sent = true ∧ r.clearDl = true ∧ ∃ a m, r.arrival = .datagram a b ∧ parseMsg (b.take 1600) = ok m

/-- a turn in which a message arrives that is not an Echo Response -/
def Skips (r : Round) : Prop := ∃ b, Receives r b ∧ b[1]? ≠ some 2

/-- a turn in which an Echo Response arrives -/
def Accepts (r : Round) : Prop := ∃ b, Receives r b ∧ b[1]? = some 2

theorem schema_echoResponse : ∀ t : Fin 256, ((schemaOf ⟨⟨t⟩⟩).name == "EchoResponse") = decide (t.val = 2) := by
  decide +kernel

theorem isEcho_iff {b : Bytes} {m : AnyMsg} (h : parseMsg b = ok m) : isEchoResponse m = true ↔ b[1]? = some 2 := by
  cases m with
  | msg x =>
    obtain ⟨t, hi, _, hum⟩ := parseMsg_msg h
    obtain ⟨_, hsch, _⟩ := Msg.unmarshal_ok hum
    have hb : b[1]? = some t := by
      unfold idx at hi
      cases hx : b[1]? with
      | none => rw [hx] at hi; cases hi
      | some y => rw [hx] at hi; simp only [ok.injEq] at hi; rw [hi]
    rw [hb]
    have := schema_echoResponse ⟨t.toNat, t.toNat_lt⟩
    simp only [isEchoResponse, hsch, Option.some.injEq]
    have e : (⟨⟨⟨t.toNat, t.toNat_lt⟩⟩⟩ : UInt8) = t := rfl
    rw [e] at this
    rw [this]
    simp only [decide_eq_true_eq]
    constructor
    · intro h; exact UInt8.toNat_inj.1 h
    · rintro rfl; rfl
  | tpdu x =>
    have : b[1]? = some 255 := by
      unfold parseMsg at h
      split at h
      · cases h
      · rw [bind_eq_ok] at h
        obtain ⟨t, ht, h⟩ := h
        split at h
        · rename_i e
          unfold idx at ht
          cases hx : b[1]? with
          | none => rw [hx] at ht; cases ht
          | some y => rw [hx] at ht; simp only [ok.injEq] at ht; rw [ht]; simpa using e
        · rw [bind_eq_ok] at h
          obtain ⟨_, _, h⟩ := h
          simp at h
    rw [this]
    simp [isEchoResponse]

/-- the Echo Request -/
def echoBytes : Bytes := [0x32, 1, 0, 4, 0, 0, 0, 0, 0, 0, 0, 0]

theorem echoRequest_eq (self : Nat) (a : Addr) (w : Bool) :
    echoRequest self a w = if w then ([.sent self a echoBytes], ok ()) else ([], err .other) := by
  have h : (match marshalMsg (newMessage Tab.echoRequest 0 0 []) with | ok (_, b) => some b | _ => none) = some echoBytes := by
    decide +kernel
  unfold echoRequest
  cases hm : marshalMsg (newMessage Tab.echoRequest 0 0 []) with
  | ok x => rw [hm] at h; simp only [Option.some.injEq] at h; simp [h]
  | err e => rw [hm] at h; simp at h
  | panic => rw [hm] at h; simp at h
  | diverge => rw [hm] at h; simp at h

/-- a turn goes on iff its message is skipped -/
theorem dialLoop_cons (self : Nat) (raddr : Addr) (dl : Bool) (r : Round) (l : List Round) :
    (Skips r ∧ dialLoop self raddr dl (r :: l) =
      (.sent self raddr echoBytes :: (dialLoop self raddr false l).1, (dialLoop self raddr false l).2)) ∨
    (Accepts r ∧ dialLoop self raddr dl (r :: l) = ([.sent self raddr echoBytes], .conn)) ∨
    (r.ctxDone = true ∧ dialLoop self raddr dl (r :: l) = ([], .nothing)) ∨
    (r.ctxDone = false ∧ r.sent = true ∧ r.arrival = .never ∧ dl = false ∧
      dialLoop self raddr dl (r :: l) = ([.sent self raddr echoBytes], .blocked)) ∨
    (r.ctxDone = false ∧ ¬ Skips r ∧ ¬ Accepts r ∧ (r.sent = true → r.arrival = .never → dl = true) ∧
      (dialLoop self raddr dl (r :: l)).2 = .error ∧
      (dialLoop self raddr dl (r :: l)).1 = if r.sent then [.sent self raddr echoBytes] else []) := by
  obtain ⟨ctx, sent, arr, clr⟩ := r
  cases ctx with
  | true => right; right; left; simp [dialLoop]
  | false =>
    cases sent with
    | false =>
      right; right; right; right
      simp [dialLoop, echoRequest_eq, Skips, Accepts, Receives]
    | true =>
      cases arr with
      | fails =>
        right; right; right; right
        simp [dialLoop, echoRequest_eq, Skips, Accepts, Receives]
      | never =>
        cases dl with
        | true =>
          right; right; right; right
          simp [dialLoop, echoRequest_eq, Skips, Accepts, Receives]
        | false =>
          right; right; right; left
          simp [dialLoop, echoRequest_eq]
      | datagram a b =>
        cases clr with
        | false =>
          right; right; right; right
          simp [dialLoop, echoRequest_eq, Skips, Accepts, Receives]
        | true =>
          have hp := C22_message_partial (b.take 1600) (by rw [List.length_take]; omega)
          cases hm : parseMsg (b.take 1600) with
          | panic => exact absurd hm hp.1
          | diverge => exact absurd hm hp.2
          | err e =>
            right; right; right; right
            simp [dialLoop, echoRequest_eq, Skips, Accepts, Receives, hm]
          | ok m =>
            have hi := isEcho_iff hm
            rw [take_one (by omega)] at hi
            by_cases h2 : b[1]? = some 2
            · right; left
              refine ⟨⟨b, ⟨rfl, rfl, rfl, a, m, rfl, hm⟩, h2⟩, ?_⟩
              simp [dialLoop, echoRequest_eq, hm, hi.2 h2]
            · left
              refine ⟨⟨b, ⟨rfl, rfl, rfl, a, m, rfl, hm⟩, h2⟩, ?_⟩
              have : isEchoResponse m = false := by
                cases hx : isEchoResponse m with
                | false => rfl
                | true => exact absurd (hi.1 hx) h2
              simp [dialLoop, echoRequest_eq, hm, this]

theorem skips_not {r : Round} (h : Skips r) : ¬ Accepts r ∧ r.ctxDone = false ∧ r.arrival ≠ .never := by
  obtain ⟨b, ⟨h1, h2, h3, a, m, h4, h5⟩, h6⟩ := h
  refine ⟨?_, h1, by rw [h4]; simp⟩
  rintro ⟨b', ⟨_, _, _, a', m', h4', _⟩, h6'⟩
  rw [h4] at h4'
  simp only [Arrival.datagram.injEq] at h4'
  exact h6 (h4'.2 ▸ h6')

/-- after a skipped message the loop goes on without a deadline -/
theorem dialLoop_skip (self : Nat) (raddr : Addr) (dl : Bool) {r : Round} (l : List Round) (hs : Skips r) :
    dialLoop self raddr dl (r :: l) =
      (.sent self raddr echoBytes :: (dialLoop self raddr false l).1, (dialLoop self raddr false l).2) := by
  rcases dialLoop_cons self raddr dl r l with h | h | h | h | h
  · exact h.2
  · exact absurd h.1 (skips_not hs).1
  · exact absurd h.1 (by rw [(skips_not hs).2.1]; simp)
  · exact absurd h.2.2.1 (skips_not hs).2.2
  · exact absurd hs h.2.1

/-- the loop ends with `o` iff the first turn that is not a skipped message does -/
theorem loop_ends (self : Nat) (raddr : Addr) (o : Dialled) (P : Bool → Round → Prop) (ho : o ≠ .running)
    (hP : ∀ dl r l, ¬ Skips r → ((dialLoop self raddr dl (r :: l)).2 = o ↔ P dl r)) (hs : ∀ dl r, P dl r → ¬ Skips r)
    (l : List Round) (dl : Bool) :
    (dialLoop self raddr dl l).2 = o ↔
      ∃ pre r post, l = pre ++ r :: post ∧ (∀ x ∈ pre, Skips x) ∧ P (dl && pre.isEmpty) r := by
  induction l generalizing dl with
  | nil =>
    simp only [dialLoop]
    constructor
    · intro h; exact absurd h.symm ho
    · rintro ⟨pre, r, post, h, _⟩; simp at h
  | cons x l ih =>
    by_cases hx : Skips x
    · rw [dialLoop_skip self raddr dl l hx]
      show (dialLoop self raddr false l).2 = o ↔ _
      rw [ih]
      constructor
      · rintro ⟨pre, r, post, rfl, h2, h3⟩
        refine ⟨x :: pre, r, post, rfl, ?_, by simpa using h3⟩
        intro y hy
        rcases List.mem_cons.1 hy with rfl | hy
        · exact hx
        · exact h2 y hy
      · rintro ⟨pre, r, post, h1, h2, h3⟩
        cases pre with
        | nil =>
          simp only [List.nil_append, List.cons.injEq] at h1
          obtain ⟨rfl, rfl⟩ := h1
          exact absurd hx (hs _ _ h3)
        | cons y pre =>
          simp only [List.cons_append, List.cons.injEq] at h1
          obtain ⟨rfl, rfl⟩ := h1
          refine ⟨pre, r, post, rfl, fun z hz => h2 z (List.mem_cons_of_mem _ hz), by simpa using h3⟩
    · rw [hP dl x l hx]
      constructor
      · intro h; exact ⟨[], x, l, rfl, by simp, by simpa using h⟩
      · rintro ⟨pre, r, post, h1, h2, h3⟩
        cases pre with
        | nil =>
          simp only [List.nil_append, List.cons.injEq] at h1
          obtain ⟨rfl, rfl⟩ := h1
          simpa using h3
        | cons y pre =>
          simp only [List.cons_append, List.cons.injEq] at h1
          obtain ⟨rfl, rfl⟩ := h1
          exact absurd (h2 x (by simp)) hx

/-- C65: DialUPlane returns a connection exactly when some datagram is an Echo Response, everything before it was a parsable
message of another type, the context was not done and nothing failed.  Every turn sends one Echo Request to raddr and nothing else
is ever sent.  It does not panic.
Missing for the full claim: it returns neither connection nor error when the context is done, and waits for ever when no
datagram follows a skipped one (the last two statements say exactly when); any sender and sequence number will do. -/
theorem C65_v1_partial (self : Nat) (raddr : Addr) (setDl : Bool) (l : List Round) :
    ((dial self raddr setDl l).2 = .conn ↔ setDl = true ∧
      ∃ pre r post, l = pre ++ r :: post ∧ (∀ x ∈ pre, Skips x) ∧ Accepts r) ∧
    (∀ e ∈ (dial self raddr setDl l).1, e = .sent self raddr echoBytes) ∧
    (dial self raddr setDl l).2 ≠ .panic ∧
    ((dial self raddr setDl l).2 = .nothing ↔ setDl = true ∧
      ∃ pre r post, l = pre ++ r :: post ∧ (∀ x ∈ pre, Skips x) ∧ r.ctxDone = true) ∧
    ((dial self raddr setDl l).2 = .blocked ↔ setDl = true ∧
      ∃ pre r post, l = pre ++ r :: post ∧ pre ≠ [] ∧ (∀ x ∈ pre, Skips x) ∧
        r.ctxDone = false ∧ r.sent = true ∧ r.arrival = .never) := by
  cases setDl with
  | false => simp [dial]
  | true =>
    simp only [dial, if_true, true_and]
    refine ⟨?_, ?_, ?_, ?_, ?_⟩
    · refine loop_ends self raddr .conn (fun _ r => Accepts r) (by simp) ?_ ?_ l true
      · intro dl r l hs
        rcases dialLoop_cons self raddr dl r l with h | h | h | h | h
        · exact absurd h.1 hs
        · simp [h.2, h.1]
        · rw [h.2]; simp only [reduceCtorEq, false_iff]
          rintro ⟨b, ⟨h1, _⟩, _⟩; rw [h.1] at h1; cases h1
        · rw [h.2.2.2.2]; simp only [reduceCtorEq, false_iff]
          rintro ⟨b, ⟨_, _, _, a, m, h1, _⟩, _⟩; rw [h.2.2.1] at h1; cases h1
        · rw [h.2.2.2.2.1]; simp [h.2.2.1]
      · intro _ r h hs; exact (skips_not hs).1 h
    · suffices h : ∀ dl, ∀ e ∈ (dialLoop self raddr dl l).1, e = .sent self raddr echoBytes from h true
      induction l with
      | nil => simp [dialLoop]
      | cons r l ih =>
        intro dl
        rcases dialLoop_cons self raddr dl r l with h | h | h | h | h
        · rw [h.2]
          intro e he
          rcases List.mem_cons.1 he with rfl | he
          · rfl
          · exact ih false e he
        · rw [h.2]; simp
        · rw [h.2]; simp
        · rw [h.2.2.2.2]; simp
        · rw [h.2.2.2.2.2]; split <;> simp
    · suffices h : ∀ dl, (dialLoop self raddr dl l).2 ≠ .panic from h true
      induction l with
      | nil => simp [dialLoop]
      | cons r l ih =>
        intro dl
        rcases dialLoop_cons self raddr dl r l with h | h | h | h | h
        · rw [h.2]; exact ih false
        · rw [h.2]; simp
        · rw [h.2]; simp
        · rw [h.2.2.2.2]; simp
        · rw [h.2.2.2.2.1]; simp
    · refine loop_ends self raddr .nothing (fun _ r => r.ctxDone = true) (by simp) ?_ ?_ l true
      · intro dl r l hs
        rcases dialLoop_cons self raddr dl r l with h | h | h | h | h
        · exact absurd h.1 hs
        · rw [h.2]; obtain ⟨b, ⟨h1, _⟩, _⟩ := h.1; simp [h1]
        · simp [h.2, h.1]
        · rw [h.2.2.2.2]; simp [h.1]
        · rw [h.2.2.2.2.1]; simp [h.1]
      · intro _ r h hs; rw [(skips_not hs).2.1] at h; cases h
    · have := loop_ends self raddr .blocked
        (fun dl r => r.ctxDone = false ∧ r.sent = true ∧ r.arrival = .never ∧ dl = false) (by simp) (by
          intro dl r l hs
          rcases dialLoop_cons self raddr dl r l with h | h | h | h | h
          · exact absurd h.1 hs
          · rw [h.2]; obtain ⟨b, ⟨_, _, _, a, m, h1, _⟩, _⟩ := h.1; simp [h1]
          · simp [h.2, h.1]
          · rw [h.2.2.2.2]; simp [h.1, h.2.1, h.2.2.1, h.2.2.2.1]
          · rw [h.2.2.2.2.1]; simp only [reduceCtorEq, false_iff]
            rintro ⟨_, h1, h2, h3⟩
            have := h.2.2.2.1 h1 h2
            rw [h3] at this; cases this) (by
          intro dl r h hs; exact (skips_not hs).2.2 h.2.2.1) l true
      rw [this]
      constructor
      · rintro ⟨pre, r, post, h1, h2, h3, h4, h5, h6⟩
        refine ⟨pre, r, post, h1, ?_, h2, h3, h4, h5⟩
        rintro rfl; simp at h6
      · rintro ⟨pre, r, post, h1, h0, h2, h3, h4, h5⟩
        refine ⟨pre, r, post, h1, h2, h3, h4, h5, ?_⟩
        cases pre with
        | nil => exact absurd rfl h0
        | cons y pre => simp

/-- C65: what is sent is an Echo Request with TEID and sequence number 0 -/
theorem C65_v1_request : ∃ m, parseMsg echoBytes = ok (.msg m) ∧ m.schema = Tab.echoRequest ∧ m.hdr.teid = 0 ∧ m.hdr.seq = 0 := by
  cases h : parseMsg echoBytes with
  | ok m =>
    cases m with
    | msg m =>
      obtain ⟨t, hi, _, hum⟩ := parseMsg_msg h
      obtain ⟨hh, hsch, _⟩ := Msg.unmarshal_ok hum
      have ht : t = 1 := by
        have : idx echoBytes 1 = ok 1 := rfl
        rw [this] at hi; simpa using hi.symm
      subst ht
      have hp : (match Header.parse echoBytes with | ok h => some (h.teid, h.seq) | _ => none) = some (0, 0) := by decide +kernel
      have hh : Header.parse echoBytes = ok m.hdr := hh
      rw [hh] at hp
      simp only [Option.some.injEq, Prod.mk.injEq] at hp
      exact ⟨m, rfl, by rw [hsch]; rfl, hp.1, hp.2⟩
    | tpdu x => have := (parseMsg_tpdu h).2.1; simp [echoBytes] at this
  | err e => exfalso; revert h; have : (match parseMsg echoBytes with | ok _ => true | _ => false) = true := by decide +kernel
             intro h; rw [h] at this; cases this
  | panic => exfalso; revert h; have : (match parseMsg echoBytes with | ok _ => true | _ => false) = true := by decide +kernel
             intro h; rw [h] at this; cases this
  | diverge => exfalso; revert h; have : (match parseMsg echoBytes with | ok _ => true | _ => false) = true := by decide +kernel
               intro h; rw [h] at this; cases this

/-- C65 fails: neither connection nor error with a cancelled context -/
theorem C65_v1_nil_nil (self : Nat) (raddr : Addr) (r : Round) (l : List Round) (h : r.ctxDone = true) :
    dial self raddr true (r :: l) = ([], .nothing) := by
  simp [dial, dialLoop, h]

/-- C65 fails: after one other message, e.g. an Echo Request of the peer, silence is waited for without end -/
theorem C65_v1_blocks :
    (dial 0 "peer" true [⟨false, true, .datagram "peer" [0x32, 1, 0, 4, 0, 0, 0, 0, 0, 9, 0, 0], true⟩,
      ⟨false, true, .never, true⟩]).2 = .blocked := by decide +kernel

/-- C65 fails: an Echo Response of somebody else, with another sequence number, is taken -/
theorem C65_v1_any_sender :
    (dial 0 "peer" true [⟨false, true, .datagram "stranger" [0x32, 2, 0, 6, 0, 0, 0, 0, 0, 77, 0, 0, 14, 0], true⟩]).2 = .conn := by
  decide +kernel

example : (match dial 0 "peer" true [⟨false, true, .datagram "peer" [0x32, 1, 0, 4, 0, 0, 0, 0, 0, 9, 0, 0], true⟩,
      ⟨false, true, .datagram "peer" [0x32, 2, 0, 6, 0, 0, 0, 0, 0, 0, 0, 0, 14, 0], true⟩] with
    | ([.sent s a b, .sent s' a' b'], r) => some ([(s, a, b), (s', a', b')], r) | _ => none) =
    some ([(0, "peer", echoBytes), (0, "peer", echoBytes)], .conn) := by decide +kernel
example : (dial 0 "peer" true [⟨false, true, .never, true⟩]).2 = .error := by decide +kernel

end V1.UConn
end Verif

namespace Verif
open Res
/-! ### cases that meet the hypotheses -/

example := V2.Conn.C65_v2_partial V2.defaultGrouped (by decide) 0 7 "peer" true true
  (.datagram "peer" [0x40, 2, 0, 9, 0, 0, 1, 0, 3, 0, 1, 0, 5]) true true
example := V2.Conn.C65_v2_sends V2.defaultGrouped (by decide) 0 7 "peer" true
  (.datagram "peer" [0x40, 2, 0, 9, 0, 0, 1, 0, 3, 0, 1, 0, 5]) true true
example := V1.UConn.C65_v1_nil_nil 0 "peer" ⟨true, true, .never, true⟩ [] rfl
end Verif
