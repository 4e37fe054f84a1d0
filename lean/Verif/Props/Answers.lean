import Verif.Model.UAnswers
import Verif.Props.UConn
import Verif.Props.Dialogue
import Verif.Model.Typed.V1
/-
C95: what endpoints answer of their own accord, and where it ends (gtpv1/u-conn.go, gtpv1/handlers.go, gtpv2/conn.go,
gtpv2/handlers.go).
-/
namespace Verif.V1.UConn
open Res Spec

/-- a message that is not a T-PDU is handled whatever the relay table -/
theorem serve_msg (u : UConn) (seen : Bool) (a : Addr) {b : Bytes} {m : Message} (w : Bool) (hmax : b.length ≤ 1500)
    (hp : parseMsg b = ok (.msg m)) : serve u seen a b w = handleMessage u a (.msg m) w := by
  have base : serve u false a b w = handleMessage u a (.msg m) w := by
    unfold serve process
    rw [List.take_of_length_le hmax]
    simp only [Bool.false_eq_true, if_false, parseAndHandle, hp]
  cases seen with
  | false => exact base
  | true =>
    obtain ⟨t, ht, h255, _⟩ := parseMsg_msg hp
    have : b[1]? = some t := by
      unfold idx at ht
      split at ht
      · rename_i x hx; obtain rfl := ok.inj ht; exact hx
      · cases ht
    rw [C37_others u a b w (Or.inl ⟨t, this, h255⟩)]; exact base

/-- nothing but calls of handlers of the application -/
def Quiet (a : Addr) (l : List Ev) : Prop := l = [] ∨ ∃ id m, l = [.call id a m]

/-- an Echo Response or Error Indication of a size that fits the buffers -/
def Answer (b : Bytes) (m : Message) : Prop :=
  parseMsg b = ok (.msg m) ∧ b.length ≤ 36 ∧ (m.schema = Tab.echoResponse ∨ m.schema = Tab.errorIndication)

theorem answer_quiet {b : Bytes} {m : Message} (h : Answer b m) (u : UConn) (seen : Bool) (a : Addr) (w : Bool) :
    Quiet a (serve u seen a b w).1 := by
  obtain ⟨hp, hl, hs⟩ := h
  rw [serve_msg u seen a w (by omega) hp]
  have hn : m.schema.name ≠ "EchoRequest" := by rcases hs with h | h <;> rw [h] <;> decide
  unfold handleMessage
  split
  · exact Or.inl rfl
  · rename_i x _
    cases x with
    | tpdu => exact Or.inl rfl
    | echoRequest => exact Or.inl (by simp [handle, handleEchoRequest, hn])
    | echoResponse => exact Or.inl rfl
    | errorIndication => exact Or.inl rfl
    | app id => exact Or.inr ⟨id, _, rfl⟩

theorem length_le (s : Msg.Schema) (hs : s ∈ Tab.all ∨ ∃ t, s = genericSchema t) (teid : UInt32) (seq : UInt16)
    (ies : List (Option TLV.IE)) (hw : ∀ x, some x ∈ ies → okIE x) {n : Nat}
    (h : (n : Int) = Msg.marshalLen hdrOps ieOps (newMessage s teid seq ies)) :
    n ≤ 12 + ((ies.filterMap id).map (TLV.IE.marshalLen TLV.v1)).sum := by
  obtain ⟨d1, d2, d3⟩ := done_newMessage s hs teid seq ies (fun x hx => ieLaws.wf_sz x (hw x hx))
  rw [d3, d1] at h
  split at h <;> omega

theorem errInd_answer (u : UConn) (hs : u.Sane) (a : Addr) (h : Header) (w : Bool) :
    ∃ b m, sendErrorIndication u a h w = writeTo u a b w ∧ Answer b m ∧ m.schema = Tab.errorIndication ∧ m.hdr.typ = 26 ∧
      m.hdr.seq = h.seq ∧ m.fields = (errorIndication u h.seq h.teid).fields := by
  obtain ⟨m', b, h1, h1l, _, h2, h3, h4, ht, h5, h6⟩ := errInd_ok u hs h.seq h.teid
  refine ⟨b, m', ?_, ⟨h2, ?_, Or.inr h3⟩, h3, ht, h5, h4⟩
  · unfold sendErrorIndication errorIndication; rw [h1]
  · have hle := length_le Tab.errorIndication (Or.inl (by simp [Tab.all])) 0 h.seq
      [some (TLV.newIE TLV.v1 16 (be32 h.teid)), u.localIP.map (TLV.newIE TLV.v1 133)] ?_ h1l
    · have h16 : (TLV.newIE TLV.v1 16 (be32 h.teid)).marshalLen TLV.v1 = 5 := rfl
      cases hip : u.localIP with
      | none => rw [hip] at hle; simp [h16] at hle; omega
      | some ip =>
        have h133 : (TLV.newIE TLV.v1 133 ip).marshalLen TLV.v1 = 3 + ip.length := rfl
        rw [hip] at hle
        simp [h16, h133] at hle
        rcases hs ip hip with h | h <;> omega
    · intro x hx
      simp only [List.mem_cons, Option.some.injEq, List.not_mem_nil, or_false] at hx
      rcases hx with rfl | hx
      · exact okIE_new16 h.teid
      · rw [eq_comm, Option.map_eq_some_iff] at hx
        obtain ⟨ip, h1, rfl⟩ := hx
        exact okIE_new133 ip (hs ip h1)

theorem echo_answer (u : UConn) (a : Addr) (r : AnyMsg) (w : Bool) :
    ∃ b m, respondTo u a r (newMessage Tab.echoResponse 0 0 [some (TLV.newIE TLV.v1 14 [0])]) w = writeTo u a b w ∧ Answer b m ∧
      m.schema = Tab.echoResponse ∧ m.hdr.typ = 2 ∧ m.hdr.seq = msgSeq r ∧ m.fields 0 = [⟨14, 0, [0]⟩] := by
  obtain ⟨m', b, h1, h1l, _, h2, h3, h4, ht, h5, h6⟩ := echo_ok u (msgSeq r)
  obtain ⟨m₂, b₂, k1, k2, k3, k4, k5, k6, k7⟩ := respondTo_echo u a r w
  rw [h1] at k1
  obtain ⟨rfl, rfl⟩ : m' = m₂ ∧ b = b₂ := by simpa using k1
  refine ⟨b, m', k7, ⟨h2, ?_, Or.inl h3⟩, h3, ht, h5, k6⟩
  have hle := length_le Tab.echoResponse (Or.inl (by simp [Tab.all])) 0 (msgSeq r) [some (TLV.newIE TLV.v1 14 [0])] ?_ h1l
  · have h14 : (TLV.newIE TLV.v1 14 [0]).marshalLen TLV.v1 = 2 := rfl
    simp [h14] at hle; omega
  · intro x hx
    simp only [List.mem_singleton, Option.some.injEq] at hx
    subst hx; exact okIE_new14 0

/-- what the default handlers and those of the application do with a message -/
theorem handle_cases (u : UConn) (hs : u.Sane) (a : Addr) (m : AnyMsg) (w : Bool) (h : Handler) :
    Quiet a (handle u a m w h).1 ∨ (∃ t q p, (handle u a m w h).1 = [.offered a t q p]) ∨
      ∃ b x, (handle u a m w h).1 = [.sent u.self a b] ∧ Answer b x ∧
        (u.localIP ≠ none → x.schema = Tab.errorIndication → x.fields 0 ≠ [] ∧ x.fields 1 ≠ []) := by
  cases h with
  | app id => exact Or.inl (Or.inr ⟨id, m, rfl⟩)
  | echoResponse => exact Or.inl (Or.inl rfl)
  | errorIndication => exact Or.inl (Or.inl rfl)
  | echoRequest =>
    cases m with
    | tpdu hd => exact Or.inl (Or.inl rfl)
    | msg x =>
      simp only [handle, handleEchoRequest]
      split
      · exact Or.inl (Or.inl rfl)
      · obtain ⟨b, y, e, ha, hsch, _⟩ := echo_answer u a (.msg x) w
        rw [e]
        cases w with
        | false => exact Or.inl (Or.inl rfl)
        | true =>
          refine Or.inr (Or.inr ⟨b, y, rfl, ha, fun _ h => ?_⟩)
          rw [hsch] at h
          exact absurd (congrArg Msg.Schema.typ h) (by decide)
  | tpdu =>
    cases m with
    | msg x => exact Or.inl (Or.inl rfl)
    | tpdu hd =>
      simp only [handle, handleTPDU]
      split
      · obtain ⟨b, y, e, ha, hsch, _, _, hf⟩ := errInd_answer u hs a hd w
        rw [e]
        cases w with
        | false => exact Or.inl (Or.inl rfl)
        | true =>
          refine Or.inr (Or.inr ⟨b, y, rfl, ha, fun hip _ => ?_⟩)
          rw [hf]
          cases hl : u.localIP with
          | none => exact absurd hl hip
          | some ip => unfold errorIndication; rw [hl]; exact ⟨List.cons_ne_nil _ _, List.cons_ne_nil _ _⟩
      · exact Or.inr (Or.inl ⟨_, _, _, rfl⟩)

/-- an answer does not make its receiver panic, unless it is an Error Indication without one of its elements -/
theorem answer_safe {b : Bytes} {m : Message} (h : Answer b m)
    (hf : m.schema = Tab.errorIndication → m.fields 0 ≠ [] ∧ m.fields 1 ≠ []) (u : UConn) (seen : Bool) (a : Addr) (w : Bool) :
    (serve u seen a b w).2 ≠ .panic ∧ (serve u seen a b w).2 ≠ .diverge := by
  obtain ⟨hp, hl, hs⟩ := h
  rw [serve_msg u seen a w (by omega) hp]
  have hn : m.schema.name ≠ "EchoRequest" := by rcases hs with h | h <;> rw [h] <;> decide
  unfold handleMessage
  split
  · simp
  · rename_i x _
    cases x with
    | tpdu => simp [handle, handleTPDU]
    | echoRequest => simp [handle, handleEchoRequest, hn]
    | echoResponse => simp only [handle, handleEchoResponse]; split <;> simp
    | errorIndication =>
      simp only [handle, handleErrorIndication]
      split
      · simp
      · rename_i hne
        rcases hs with h | h
        · rw [h] at hne; exact absurd (by decide) hne
        · obtain ⟨f0, f1⟩ := hf h
          rw [if_neg (by rintro (h | h); exacts [f0 h, f1 h])]
          simp
    | app id => simp [handle]

theorem split8 {d : Bytes} (hd : d[1]? = some 255) (h8 : 8 ≤ d.length) :
    ∃ f l0 l1 teid r, d = [f, 255, l0, l1] ++ be32 teid ++ r := by
  match d, h8, hd with
  | f :: _ :: l0 :: l1 :: a :: b :: c :: e :: r, _, hd =>
    simp only [List.getElem?_cons_succ, List.getElem?_cons_zero, Option.some.injEq] at hd
    subst hd
    exact ⟨f, l0, l1, _, r, by rw [be32_rd32 a b c e]; rfl⟩
  | [], h, _ => simp at h
  | [_], h, _ => simp at h
  | [_, _], h, _ => simp at h
  | [_, _, _], h, _ => simp at h
  | [_, _, _, _], h, _ => simp at h
  | [_, _, _, _, _], h, _ => simp at h
  | [_, _, _, _, _, _], h, _ => simp at h
  | [_, _, _, _, _, _, _], h, _ => simp at h

/-- a T-PDU for which the table has an entry -/
def Relayed (u : UConn) (d : Bytes) (p : Peer) : Prop :=
  ∃ f l0 l1 teid r, d = [f, 255, l0, l1] ++ be32 teid ++ r ∧ u.relay.load teid = some p

/-- **C95** user plane: whatever datagram arrives, at most one thing is done.  If it is not relayed and a datagram is sent, then it is
one, to the sender, of at most 36 octets, and whoever receives that, in whatever state, sends nothing in turn: nobody can make two
endpoints keep each other busy.  Nor does it make the receiver panic, if the endpoint has an IP address of its own
(`C95_zone_crash`). -/
theorem C95_u_ends (u : UConn) (hs : u.Sane) (seen : Bool) (a : Addr) (d : Bytes) (w : Bool) :
    Quiet a (serve u seen a d w).1 ∨ (∃ t q p, (serve u seen a d w).1 = [.offered a t q p]) ∨
    (∃ p b, (serve u seen a d w).1 = [.sent p.conn p.addr b] ∧ Relayed u (d.take 1500) p ∧ b.length = (d.take 1500).length) ∨
    ∃ b, (serve u seen a d w).1 = [.sent u.self a b] ∧ b.length ≤ 36 ∧
      ∀ u' seen' a' w', Quiet a' (serve u' seen' a' b w').1 ∧
        (u.localIP ≠ none → (serve u' seen' a' b w').2 ≠ .panic ∧ (serve u' seen' a' b w').2 ≠ .diverge) := by
  have main : ∀ raw, Quiet a (parseAndHandle u a raw w).1 ∨ (∃ t q p, (parseAndHandle u a raw w).1 = [.offered a t q p]) ∨
      ∃ b, (parseAndHandle u a raw w).1 = [.sent u.self a b] ∧ b.length ≤ 36 ∧
      ∀ u' seen' a' w', Quiet a' (serve u' seen' a' b w').1 ∧
        (u.localIP ≠ none → (serve u' seen' a' b w').2 ≠ .panic ∧ (serve u' seen' a' b w').2 ≠ .diverge) := by
    intro raw
    unfold parseAndHandle
    split
    · rename_i m _
      unfold handleMessage
      split
      · exact Or.inl (Or.inl rfl)
      · rcases handle_cases u hs a m w _ with h | h | ⟨b, x, h1, h2, h3⟩
        · exact Or.inl h
        · exact Or.inr (Or.inl h)
        · exact Or.inr (Or.inr ⟨b, h1, h2.2.1, fun u' s' a' w' =>
            ⟨answer_quiet h2 u' s' a' w', fun hip => answer_safe h2 (h3 hip) u' s' a' w'⟩⟩)
    all_goals exact Or.inl (Or.inl rfl)
  have main' : ∀ raw, Quiet a (parseAndHandle u a raw w).1 ∨ (∃ t q p, (parseAndHandle u a raw w).1 = [.offered a t q p]) ∨
      (∃ p b, (parseAndHandle u a raw w).1 = [.sent p.conn p.addr b] ∧ Relayed u (d.take 1500) p ∧ b.length = (d.take 1500).length) ∨
      ∃ b, (parseAndHandle u a raw w).1 = [.sent u.self a b] ∧ b.length ≤ 36 ∧
      ∀ u' seen' a' w', Quiet a' (serve u' seen' a' b w').1 ∧
        (u.localIP ≠ none → (serve u' seen' a' b w').2 ≠ .panic ∧ (serve u' seen' a' b w').2 ≠ .diverge) := by
    intro raw
    rcases main raw with h | h | h
    · exact Or.inl h
    · exact Or.inr (Or.inl h)
    · exact Or.inr (Or.inr (Or.inr h))
  unfold serve
  generalize hraw : d.take 1500 = raw at main' ⊢
  unfold process
  split
  · split
    · rename_i t ht
      split
      · rename_i h255
        split
        · exact Or.inl (Or.inl rfl)
        · split
          · rename_i teid hteid
            split
            · exact main' raw
            · rename_i p hp
              have h1 : raw[1]? = some 255 := by
                have : t = 255 := by simpa using h255
                subst this
                unfold idx at ht
                split at ht
                · rename_i x hx; obtain rfl := ok.inj ht; exact hx
                · cases ht
              obtain ⟨f, l0, l1, teid', r, rfl⟩ := split8 h1 (by omega)
              rw [slice_teid] at hteid
              obtain rfl := ok.inj hteid
              unfold relayOut
              rw [copy_teid]
              dsimp only
              split
              · split
                · refine Or.inr (Or.inr (Or.inl ⟨p, _, rfl, ⟨f, l0, l1, teid', r, rfl, hp⟩, ?_⟩))
                  obtain ⟨_, _, _, _, h, _⟩ := V2.be32_cases teid'
                  obtain ⟨_, _, _, _, h', _⟩ := V2.be32_cases p.teid
                  rw [h, h']; simp
                · exact Or.inl (Or.inl rfl)
              · exact Or.inl (Or.inl rfl)
          all_goals exact Or.inl (Or.inl rfl)
      · exact main' raw
    all_goals exact Or.inl (Or.inl rfl)
  · exact main' raw

/-- the datagram `b` calls handler `k`, once, with message `m`, from `a`, whatever the relay table -/
def Told (u : UConn) (k : Nat) (a : Addr) (b : Bytes) (m : Message) : Prop :=
  ∀ seen w, serve u seen a b w = ([.call k a (.msg m)], ok ())

theorem told_of {u : UConn} {k : Nat} {a : Addr} {b : Bytes} {m : Message} (hp : parseMsg b = ok (.msg m)) (hl : b.length ≤ 1500)
    (hk : u.handlers.load m.hdr.typ = some (.app k)) : Told u k a b m := by
  intro seen w
  rw [serve_msg u seen a w hl hp]
  unfold handleMessage
  rw [show msgType (.msg m) = m.hdr.typ from rfl, hk]
  rfl

/-- **C95** EchoRequest sends one datagram; an endpoint with the default handler answers it with one datagram to the sender, and that
calls the requester's handler for Echo Responses, once, with sequence number 0 and Recovery 0.  EchoResponse sends the same. -/
theorem C95_u_echo (A B A' : UConn) (aA aB : Addr) (seen : Bool) (k : Nat) (hB : B.handlers.load 1 = some .echoRequest)
    (hA : A'.handlers.load 2 = some (.app k)) :
    ∃ out b m, echoRequest A.self aB true = ([.sent A.self aB out], ok ()) ∧
      serve B seen aA out true = ([.sent B.self aA b], ok ()) ∧ echoResponse B aA true = ([.sent B.self aA b], ok ()) ∧
      Told A' k aB b m ∧ m.schema = Tab.echoResponse ∧ m.hdr.seq = 0 ∧
      (m.fields 0).map (TLV.Plain.get8 ⟨"Recovery", 14⟩) = [ok 0] := by
  obtain ⟨mq, out, h1, h1l, _, h2, h3, h4, ht, h5, h6⟩ : RoundTrips Tab.echoRequest 0 0 [] := by
    apply C23_round_trip_partial _ (by simp [Tab.all])
    · intro x hx; cases hx
    · intro _; rfl
    · simp
  have hl := length_le Tab.echoRequest (Or.inl (by simp [Tab.all])) 0 0 [] (fun x hx => by cases hx) h1l
  simp at hl
  obtain ⟨b, m, e, ha, hs, hty, hq, hf⟩ := echo_answer B aA (.msg mq) true
  have hseq : msgSeq (.msg mq) = 0 := h5
  refine ⟨out, b, m, ?_, ?_, ?_, told_of ha.1 (by have := ha.2.1; omega) (by rw [hty]; exact hA), hs, hq.trans hseq, ?_⟩
  · unfold echoRequest; rw [h1]; rfl
  · rw [serve_msg B seen aA true (by omega) h2]
    unfold handleMessage
    rw [show msgType (.msg mq) = mq.hdr.typ from rfl, ht, show Tab.echoRequest.typ = 1 from rfl, hB]
    simp only [handle, handleEchoRequest]
    rw [if_neg (by rw [h3]; decide), e]
    rfl
  · obtain ⟨m₂, b₂, k1, _, _, _, _, _, k7⟩ := respondTo_echo B aA (.msg mq) true
    rw [hseq] at k1
    have : b₂ = b := by
      rw [k7] at e
      simp only [writeTo, if_true, Prod.mk.injEq, List.cons.injEq, Ev.sent.injEq, true_and, and_true] at e
      exact e
    unfold echoResponse
    rw [k1, this]
    rfl
  · rw [hf]; rfl

/-- **C95** an Echo Request from anywhere, of any sequence number and with any elements: the answer goes to its sender and carries its
sequence number, which the sender's handler for Echo Responses is told. -/
theorem C95_u_echo_any (B A' : UConn) (aA aB : Addr) (seen : Bool) (k : Nat) (d : Bytes) (mq : Message) (hmax : d.length ≤ 1500)
    (hd : parseMsg d = ok (.msg mq)) (hq : mq.schema = Tab.echoRequest) (ht : mq.hdr.typ = 1)
    (hB : B.handlers.load 1 = some .echoRequest) (hA : A'.handlers.load 2 = some (.app k)) :
    ∃ b m, serve B seen aA d true = ([.sent B.self aA b], ok ()) ∧ Told A' k aB b m ∧ m.schema = Tab.echoResponse ∧
      m.hdr.seq = mq.hdr.seq ∧ (m.fields 0).map (TLV.Plain.get8 ⟨"Recovery", 14⟩) = [ok 0] := by
  obtain ⟨b, m, e, ha, hs, hty, hsq, hf⟩ := echo_answer B aA (.msg mq) true
  refine ⟨b, m, ?_, told_of ha.1 (by have := ha.2.1; omega) (by rw [hty]; exact hA), hs, hsq, ?_⟩
  · rw [serve_msg B seen aA true hmax hd]
    unfold handleMessage
    rw [show msgType (.msg mq) = mq.hdr.typ from rfl, ht, hB]
    simp only [handle, handleEchoRequest]
    rw [if_neg (by rw [hq]; decide), e]
    rfl
  · rw [hf]; rfl

/-- **C95** a payload given to WriteToGTP for a TEID that nobody has at the receiver: the receiver sends one Error Indication to the
sender, whose handler for Error Indications is called with it, once; it tells the TEID and the receiver's IP address.  Partial:
payloads of more than 1492 octets (cut to 1500 octets by the read buffer, hence refused: `C92_v1_partial`),
and below 3 octets while the receiver has some relay (`C37_short_dropped`). -/
theorem C95_u_error_partial (A B A' : UConn) (hs : B.Sane) (aA aB : Addr) (seen : Bool) (k : Nat) (teid : UInt32) (p ip : Bytes)
    (hp : p.length ≤ 1492) (hB : B.handlers.load 255 = some .tpdu) (he : B.errInd = true) (hip : B.localIP = some ip)
    (hn : seen = false ∨ 3 ≤ p.length ∧ B.relay.load teid = none) (hA : A'.handlers.load 26 = some (.app k)) :
    ∃ out b m, writeToGTP A teid p aB true = ([.sent A.self aB out], ok (8 + p.length)) ∧
      serve B seen aA out true = ([.sent B.self aA b], ok ()) ∧ Told A' k aB b m ∧
      m.schema = Tab.errorIndication ∧ (m.fields 0).map TLV.IE.teid = [ok teid] ∧ (m.fields 1).map (TLV.IE.address 133) = [ok ip] := by
  obtain ⟨h', out, h1, h2, _, h3, h4, h5⟩ := C25_partial teid p (by omega)
  obtain ⟨b, m, e, ha, hsch, hty, hq, hf⟩ := errInd_answer B hs aA h' true
  refine ⟨out, b, m, ?_, ?_, told_of ha.1 (by have := ha.2.1; omega) (by rw [hty]; exact hA), hsch, ?_, ?_⟩
  · unfold writeToGTP; rw [h1, ← h2]; rfl
  · rw [serve_tpdu B seen aA out true h' (by omega) h3 hB (by rw [h4]; rcases hn with h | h; exacts [Or.inl h, Or.inr ⟨by omega, h.2⟩])]
    unfold handleTPDU
    simp only [he, if_true, e, writeTo]
  · rw [hf]
    unfold errorIndication
    rw [hip, h4]
    show [TLV.IE.teid (TLV.newIE TLV.v1 16 (be32 teid))] = _
    have : rd32 (be32 teid) = ok teid := by simp
    rw [show TLV.newIE TLV.v1 16 (be32 teid) = ⟨16, 0, be32 teid⟩ from rfl]
    simp [TLV.IE.teid, this]
  · rw [hf]
    unfold errorIndication
    rw [hip]
    show [TLV.IE.address 133 (TLV.newIE TLV.v1 133 ip)] = _
    rw [newIE_133]
    rcases hs ip hip with h | h <;> simp [TLV.IE.address, h]

/-- C95 fails when the receiver has no IP address in the text of its local address (an IPv6 address with a zone, `C86_gsn_wrong`): its
Error Indication lacks the GSN Address, and makes every endpoint with the default handler panic. -/
theorem C95_zone_crash (B A' : UConn) (hs : B.Sane) (aA aB : Addr) (d : Bytes) (h : Header) (hmax : d.length ≤ 1500)
    (hp : parseMsg d = ok (.tpdu h)) (hB : B.handlers.load 255 = some .tpdu) (he : B.errInd = true) (hip : B.localIP = none)
    (hA : A'.handlers.load 26 = some .errorIndication) :
    ∃ b, serve B false aA d true = ([.sent B.self aA b], ok ()) ∧ ∀ seen w, (serve A' seen aB b w).2 = .panic := by
  obtain ⟨b, m, e, ha, hsch, hty, hq, hf⟩ := errInd_answer B hs aA h true
  refine ⟨b, ?_, fun seen w => ?_⟩
  · rw [serve_tpdu B false aA d true h hmax hp hB (Or.inl rfl)]
    unfold handleTPDU
    simp only [he, if_true, e, writeTo]
  · rw [serve_msg A' seen aB w (by have := ha.2.1; omega) ha.1]
    unfold handleMessage
    rw [show msgType (.msg m) = m.hdr.typ from rfl, hty, hA]
    simp only [handle, handleErrorIndication]
    rw [if_neg (by rw [hsch]; decide), if_pos]
    right
    rw [hf]
    unfold errorIndication
    rw [hip]
    rfl

/-- **C95** what a handler gives to RespondTo calls the handler for that type at the other side, once, with the elements in the fields
meant for them and the sequence number of the message it answers.  Partial: messages of no more than 1500 octets, elements that
survive the wire (`C19`), and types whose constructor sets a sequence number: not End Marker, nor Supported Extension Headers
Notification. -/
theorem C95_u_respond_partial (B A' : UConn) (aA aB : Addr) (r : AnyMsg) (s : Msg.Schema) (hs : s ∈ Tab.all) (h32 : s.flags = 0x32)
    (teid : UInt32) (ies : List (Option TLV.IE)) (hw : ∀ x, some x ∈ ies → okIE x)
    (hmax : 12 + ((ies.filterMap id).map (TLV.IE.marshalLen TLV.v1)).sum ≤ 1500) (k : Nat)
    (hA : A'.handlers.load s.typ = some (.app k)) :
    ∃ b m, respondTo B aA r (newMessage s teid 0 ies) true = ([.sent B.self aA b], ok ()) ∧ Told A' k aB b m ∧ m.schema = s ∧
      m.hdr.seq = msgSeq r ∧ m.fields = Msg.newFields ieOps s ies := by
  obtain ⟨m, b, h1, h1l, _, h2, h3, h4, ht, h5, h6⟩ : RoundTrips s teid (msgSeq r) ies := by
    apply C23_round_trip_partial s hs _ _ _ hw
    · intro h
      rcases h with h | h <;> rw [h] at h32 <;> exact absurd h32 (by decide)
    · omega
  have hl := length_le s (Or.inl hs) teid (msgSeq r) ies hw h1l
  refine ⟨b, m, ?_, told_of h2 (by omega) (by rw [ht]; exact hA), h3, h5, h4⟩
  have e : marshalMsg { newMessage s teid 0 ies with hdr := (newMessage s teid 0 ies).hdr.setSequence (msgSeq r) } = ok (m, b) := by
    rw [← h1, ← marshal_length (newMessage s teid (msgSeq r) ies) ((newMessage s teid 0 ies).hdr.setSequence (msgSeq r)).length]
    have e : (newMessage s teid (msgSeq r) ies).hdr.flags = 0x32 := h32
    have e' : (newMessage s teid 0 ies).hdr.flags ||| 0x02 = 0x32 := by
      show s.flags ||| 0x02 = 0x32; rw [h32]; rfl
    unfold Header.setSequence
    rw [e']
    rw [← e]
    rfl
  unfold respondTo
  rw [e]
  rfl

/-- a payload for TEID 0x11111112 that `exU` does not know: an Error Indication of 24 octets goes back to the eNB, whose handler 5 is
told; without a handler of its own the eNB does nothing, and panics if the GSN Address is missing -/
def exWrite : Bytes := match writeToGTP exU 0x11111112 [0xde, 0xad, 0xbe, 0xef] "sgw" true with
  | ([.sent _ _ b], _) => b
  | _ => []
def exBack (ip : Option Bytes) : Bytes := match serve { exU with localIP := ip } true "enb" exWrite true with
  | ([.sent _ "enb" b], _) => b
  | _ => []
def exENB (hs : SyncMap UInt8 Handler) : UConn := { newUConn 7 (some [10, 0, 0, 1]) (fun _ => true) with handlers := hs }

set_option synthInstance.maxSize 2000 in
set_option synthInstance.maxHeartbeats 400000 in
example : exWrite.length = 12 ∧ (exBack (some [10, 0, 0, 9])).length = 24 ∧
    (match serve (exENB [(26, .app 5)]) false "sgw" (exBack (some [10, 0, 0, 9])) true with
      | ([.call k a (.msg m)], r) => some (k, a, (m.fields 0).map TLV.IE.teid, (m.fields 1).map (TLV.IE.address 133), r)
      | _ => none) = some (5, "sgw", [ok 0x11111112], [ok [10, 0, 0, 9]], ok ()) ∧
    (serve (exENB defaultHandlers) false "sgw" (exBack (some [10, 0, 0, 9])) true).1.length = 0 ∧
    (serve (exENB defaultHandlers) false "sgw" (exBack none) true).2 = .panic := by
  decide +kernel

end Verif.V1.UConn

namespace Verif.V2.Conn
open Res Spec Send

/-- nothing but calls of handlers of the application -/
def Quiet (a : Addr) (l : List Ev) : Prop := l = [] ∨ ∃ id m, l = [.call id a m]

theorem echo_reply (g : UInt8 → Bool) (hg : g 3 = false) (c : Conn) (a : Addr) (m : Message) {d : Bytes} (hm : parseMsg g d = ok m)
    (w : Bool) :
    ∃ out r, respondTo g a m (echoReply g c.restart) w = (if w then ([.sent a out], ok ()) else ([], err .other)) ∧
      out.length ≤ 13 ∧ parseMsg g out = ok r ∧ r.schema = Tab.echoResponse ∧ r.hdr.typ = 2 ∧ r.hdr.teidAcc = 0 ∧
      r.hdr.sequence = m.hdr.sequence ∧ r.fields 0 = [IE.mk 3 1 0 [c.restart] []] := by
  have hseq : m.hdr.seq.toNat < 2 ^ 24 := by
    obtain ⟨t, _, hp, _⟩ := parseMsg_ok g hm
    obtain ⟨_, _, _, h, _⟩ := (C10_parse_total_faithful d).2 _ hp
    exact h
  have hnew : newIE 3 0 [c.restart] = IE.mk 3 1 0 [c.restart] [] := rfl
  have hwf : wf g (newIE 3 0 [c.restart]) = true := by
    rw [hnew]; simp [wf, hg]
  obtain ⟨r, out, h2, hl, h3, h4, h5, h6, h7, h8⟩ := C18_echo g Tab.echoResponse (Or.inr rfl) 0 m.hdr.sequence
    [some (newIE 3 0 [c.restart])] ⟨_, List.mem_singleton.2 rfl⟩ (by
      intro x hx; simp only [List.mem_singleton, Option.some.injEq] at hx; subst hx; exact hwf) hseq (by
      simp [hnew, IE.marshalLen, hg])
  have hresp : response g m (echoReply g c.restart) = ok (r, out) := h2
  refine ⟨out, r, ?_, ?_, h3, h4, h6, h8, h7, ?_⟩
  · unfold respondTo
    rw [hresp]
  · have hin : Tab.echoResponse ∈ Tab.all := by simp [Tab.all]
    rw [marshalLen_done g _ (all_lensOK Tab.echoResponse hin), marshalLen_done_hdr,
      show (newMessage g Tab.echoResponse 0 m.hdr.sequence [some (newIE 3 0 [c.restart])]).hdr.flags =
        Tab.echoResponse.flags from rfl, if_neg (show ¬ (Tab.echoResponse.flags.toNat / 8 % 2 = 1) by decide)] at hl
    have := length_newBody g Tab.echoResponse (all_lensOK _ hin) (all_unGood _ hin) [some (newIE 3 0 [c.restart])]
    have e : Msg.body (rawEnc g) (newMessage g Tab.echoResponse 0 m.hdr.sequence [some (newIE 3 0 [c.restart])]).schema
        (newMessage g Tab.echoResponse 0 m.hdr.sequence [some (newIE 3 0 [c.restart])]).fields =
      Msg.body (rawEnc g) Tab.echoResponse (Msg.newFields (ieOps g) Tab.echoResponse [some (newIE 3 0 [c.restart])]) := rfl
    rw [e] at hl
    simp [hnew, IE.marshalLen, hg] at this
    rw [hnew] at hl
    omega
  · rw [h5]
    rfl

/-- **C95** control plane: whatever datagram arrives, at most one thing is done; if a datagram is sent, then it is one, to the sender, of
at most 13 octets, and whoever receives that, in whatever state, sends nothing in turn and does not panic. -/
theorem C95_v2_ends (g : UInt8 → Bool) (hg : g 3 = false) (c : Conn) (a : Addr) (d : Bytes) (w : Bool) :
    Quiet a (serveDatagram g c a d w).1 ∨
    ∃ b, (serveDatagram g c a d w).1 = [.sent a b] ∧ b.length ≤ 13 ∧
      ∀ g' c' a' w', Quiet a' (serveDatagram g' c' a' b w').1 ∧ Returns (serveDatagram g' c' a' b w').2 := by
  have e : serveDatagram g c a d w = match parseMsg g d with
    | ok m => handleMessage g c a m w
    | err e => ([], err e)
    | .panic => ([], .panic)
    | .diverge => ([], .diverge) := rfl
  rw [e]
  split
  case h_1 m hm =>
    have key : Quiet a (dispatch g c a m w).1 ∨ ∃ b, (dispatch g c a m w).1 = [.sent a b] ∧ b.length ≤ 13 ∧
        ∀ g' c' a' w', Quiet a' (serveDatagram g' c' a' b w').1 ∧ Returns (serveDatagram g' c' a' b w').2 := by
      unfold dispatch
      split
      · exact Or.inl (Or.inl rfl)
      · rename_i h _
        cases h with
        | app id => exact Or.inl (Or.inr ⟨id, m, rfl⟩)
        | echoResponse => simp only [handle]; split <;> exact Or.inl (Or.inl rfl)
        | versionNotSupported => simp only [handle]; split <;> exact Or.inl (Or.inl rfl)
        | echoRequest =>
          simp only [handle]
          split
          · exact Or.inl (Or.inl rfl)
          · obtain ⟨out, r, h2, hl, h3, h4, h6, h8, _⟩ := echo_reply g hg c a m hm w
            show Quiet a (respondTo g a m (echoReply g c.restart) w).1 ∨ ∃ b, (respondTo g a m (echoReply g c.restart) w).1 = _ ∧ _
            rw [h2]
            cases w with
            | false => exact Or.inl (Or.inl rfl)
            | true =>
              refine Or.inr ⟨out, rfl, hl, fun g' c' a' w' => ?_⟩
              · obtain ⟨t, ht, hhd, hst, _⟩ := parseMsg_ok g h3
                have h0 : r.hdr.teidAcc = 0 := h8
                have ht2 : t = 2 := by
                  obtain ⟨⟨t', k1, k2, _⟩, _⟩ := C12_dispatch_faithful g out r h3
                  rw [k1] at ht
                  obtain rfl := Option.some.inj ht
                  rw [← k2, h6]
                have same : ∀ m', parseMsg g' out = ok m' → m'.schema = Tab.echoResponse ∧ m'.hdr.teidAcc = 0 := by
                  intro m' hm'
                  obtain ⟨t', ht', hhd', hst', _⟩ := parseMsg_ok g' hm'
                  rw [ht] at ht'
                  obtain rfl := Option.some.inj ht'
                  rw [hhd] at hhd'
                  rw [← ok.inj hhd']
                  exact ⟨by rw [hst', ht2]; rfl, h0⟩
                refine ⟨?_, ?_⟩
                · unfold serveDatagram
                  split
                  · rename_i m' hm'
                    obtain ⟨q1, q2⟩ := same m' hm'
                    have hq : Quiet a' (dispatch g' c' a' m' w').1 := by
                      unfold dispatch
                      split
                      · exact Or.inl rfl
                      · rename_i h _
                        cases h with
                        | app id => exact Or.inr ⟨id, m', rfl⟩
                        | echoRequest => simp only [handle]; rw [if_pos (by rw [q1]; decide)]; exact Or.inl rfl
                        | echoResponse => simp only [handle]; split <;> exact Or.inl rfl
                        | versionNotSupported => simp only [handle]; split <;> exact Or.inl rfl
                    unfold handleMessage
                    have hv : validate g' c' a' m' w' = ([], ok ()) := by rw [validate_eq, if_neg (by rw [q2]; simp)]
                    rw [hv]
                    split
                    · exact hq
                    · exact hq
                  all_goals exact Or.inl rfl
                · obtain ⟨p1, p2⟩ := C34_panics_iff g' c' a' out w'
                  refine ⟨fun h => ?_, p2⟩
                  obtain ⟨_, m', hm', hne, _⟩ := p1.1 h
                  exact hne (same m' hm').2
    unfold handleMessage
    split
    · split
      · rename_i ev _ hv
        have : ev = [] := by
          rw [validate_eq] at hv
          split at hv
          · split at hv <;> simp at hv <;> simp [hv]
          · simp at hv; simp [hv]
        subst this
        rw [List.nil_append]
        exact key
      · rename_i ev x _ hv
        have : ev = [] := by
          rw [validate_eq] at hv
          split at hv
          · split at hv <;> simp at hv <;> simp [hv]
          · simp at hv; simp [hv]
        subst this
        exact Or.inl (Or.inl rfl)
    · exact key
  all_goals exact Or.inl (Or.inl rfl)

/-- **C95** EchoRequest of a control-plane connection sends one datagram; a connection with the default handler answers it with one
datagram to the sender, and that calls the requester's handler for Echo Responses, once, with the sequence number EchoRequest
returned and the restart counter of the answering side in Recovery. -/
theorem C95_v2_echo (g : UInt8 → Bool) (hg : g 3 = false) (A B A' : Conn) (n : UInt32) (aA aB : Addr) (k : Nat)
    (hB : B.handlers.load 1 = some .echoRequest) (hA : A'.handlers.load 2 = some (.app k)) :
    ∃ q out b m, echoRequest A g n aB true = (q, [.sent aB out], ok q) ∧
      serveDatagram g B aA (asRead out) true = ([.sent aA b], ok ()) ∧
      (∀ w, serveDatagram g A' aB (asRead b) w = ([.call k aB m], ok ())) ∧
      m.schema = Tab.echoResponse ∧ m.hdr.sequence = q ∧ (m.fields 0).map (Plain.get8 g ⟨"Recovery", 3, [3]⟩) = [ok B.restart] := by
  have hnew : newIE 3 0 [A.restart] = IE.mk 3 1 0 [A.restart] [] := rfl
  have hwf : wf g (newIE 3 0 [A.restart]) = true := by
    rw [hnew]; simp [wf, hg]
  obtain ⟨r, out, h2, hl, h3, h4, h5, h6, h7, h8⟩ := C18_echo g Tab.echoRequest (Or.inl rfl) 0 (inc n)
    [some (newIE 3 0 [A.restart])] ⟨_, List.mem_singleton.2 rfl⟩ (by
      intro x hx; simp only [List.mem_singleton, Option.some.injEq] at hx; subst hx; exact hwf) (inc_small n) (by
      simp [hnew, IE.marshalLen, hg])
  have hle := roundTrips_length (by simp [Tab.all]) hl
  simp [hnew, IE.marshalLen, hg] at hle
  obtain ⟨b, m, e, hbl, k3, k4, k6, k8, k7, k5⟩ := echo_reply g hg B aA r h3 true
  have r1 : asRead out = out := List.take_of_length_le (by omega)
  have r2 : asRead b = b := List.take_of_length_le (by omega)
  refine ⟨inc n, out, b, m, ?_, ?_, fun w => ?_, k4, k7.trans h7, ?_⟩
  · unfold echoRequest sendMessageTo; rw [setSeq_new, h2]; rfl
  · rw [r1]
    have hd : dispatch g B aA r true = ([.sent aA b], ok ()) := by
      unfold dispatch
      rw [h6, show Tab.echoRequest.typ = 1 from rfl, hB]
      simp only [handle]
      rw [if_neg (by rw [h4]; decide)]
      exact e
    have h0 : r.hdr.teidAcc = 0 := h8
    have hv : validate g B aA r true = ([], ok ()) := by rw [validate_eq, if_neg (by rw [h0]; simp)]
    unfold serveDatagram
    rw [h3]
    dsimp only
    unfold handleMessage
    rw [hv, hd]
    split <;> rfl
  · rw [r2]
    exact serve_reaches k3 (by rw [k6]; exact hA) (Or.inl k8) w
  · rw [k5]
    simp [Plain.get8, Plain.read, IE.valueAsUint8, IE.typ, IE.payload, hg, idx]

/-- the S-GW answers the Echo Request of the MME, the MME's handler 4 is told; the answer sent back to the S-GW causes nothing -/
def exEcho2 : Bytes := ((datagrams (echoRequest { exMME2 with restart := 3 } defaultGrouped 6 "b" true).2.1).map (·.2)).flatten
def exEchoRes2 : Bytes := ((datagrams (serveDatagram defaultGrouped { exSGW2 with handlers := defaultHandlers, restart := 9 } "a"
  exEcho2 true).1).map (·.2)).flatten

example : exEcho2 = [0x40, 1, 0, 9, 0, 0, 7, 0, 3, 0, 1, 0, 3] ∧ exEchoRes2 = [0x40, 2, 0, 9, 0, 0, 7, 0, 3, 0, 1, 0, 9] ∧
    (serveDatagram defaultGrouped { exSGW2 with handlers := defaultHandlers } "a" exEchoRes2 true).1.length = 0 ∧
    seen 0 0 (serveDatagram defaultGrouped { exMME2 with handlers := [(2, .app 4)] } "b" exEchoRes2 true) =
      [((4, "b"), (7, 0), [[[9]], [[9]]])] := by
  decide +kernel

end Verif.V2.Conn

/-! ### cases that meet the hypotheses -/
namespace Verif.V1.UConn
open Res Spec
theorem exU_ip : exU.Sane := by intro ip h; cases h; decide
def exT : Bytes := [0x30, 255, 0, 4, 0x11, 0x11, 0x11, 0x12, 0xde, 0xad, 0xbe, 0xef]
example := C95_u_ends exU exU_ip true "enb" exT true
example := C95_u_echo exU exU (exENB [(2, .app 5)]) "enb" "sgw" true 5 rfl rfl
example := C95_u_echo_any exU (exENB [(2, .app 5)]) "enb" "sgw" true 5 [0x32, 1, 0, 4, 0, 0, 0, 0, 0xab, 0xcd, 0, 0] _ (by decide) rfl rfl rfl rfl rfl
example := C95_u_error_partial (exENB []) exU (exENB [(26, .app 5)]) exU_ip "enb" "sgw" true 5 0x11111112 [0xde, 0xad, 0xbe, 0xef] [10, 0, 0, 9]
  (by decide) rfl rfl rfl (.inr ⟨by decide, by decide⟩) rfl
example := C95_zone_crash { exU with localIP := none } (exENB defaultHandlers) (by intro ip h; cases h) "enb" "sgw" exT _ (by decide) rfl rfl rfl rfl rfl
/-- an Error Indication sent as the answer to the T-PDU -/
example := C95_u_respond_partial exU (exENB [(26, .app 5)]) "enb" "sgw" (.tpdu ⟨0x30, 255, 4, 0x11111112, 0, 0, 0, [], [1, 2, 3, 4]⟩)
  Tab.errorIndication (by simp [Tab.all]) rfl 0 [none, some ⟨16, 0, [0x11, 0x11, 0x11, 0x12]⟩, some ⟨133, 4, [10, 0, 0, 9]⟩]
  (by intro x hx; simp at hx; rcases hx with rfl | rfl <;> decide) (by decide) 5 rfl
end Verif.V1.UConn
namespace Verif.V2.Conn
open Res Spec Send
example := C95_v2_ends defaultGrouped (by decide) { exSGW2 with handlers := defaultHandlers } "a" [0x40, 1, 0, 9, 0, 0, 7, 0, 3, 0, 1, 0, 3] true
example := C95_v2_echo defaultGrouped (by decide) exMME2 { exSGW2 with handlers := defaultHandlers } { exMME2 with handlers := [(2, .app 4)] } 6 "a" "b" 4 rfl rfl
end Verif.V2.Conn
