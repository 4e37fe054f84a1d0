import Verif.Model.UConn
import Verif.Props.V1Msg
import Mathlib.Data.List.Induction
/-
C37, C38, C39, C53: incoming datagrams of the user plane (gtpv1/u-conn.go, handlers.go, tunnel.go).
-/
namespace Verif.V1.UConn
open Res Spec

/-! ### the relay table -/

/-- C37, the table: after any API operations on a new connection the entry for an incoming TEID is the one of the last
RelayTo for it, unless CloseRelay came later. -/
theorem C37_table (self : Nat) (ip : Option Bytes) (opened : Nat → Bool) (ops : List Op) (t : UInt32) (p : Peer) :
    (applyAll (newUConn self ip opened) ops).relay.load t = some p ↔
      ∃ pre post, ops = pre ++ Op.relayTo t p :: post ∧ (∀ q, Op.relayTo t q ∉ post) ∧ Op.closeRelay t ∉ post := by
  induction ops using List.reverseRecOn with
  | nil => simp [applyAll, newUConn, SyncMap.load_nil]
  | append_singleton ops op ih =>
    have e : applyAll (newUConn self ip opened) (ops ++ [op]) = apply (applyAll (newUConn self ip opened) ops) op := by
      simp [applyAll]
    rw [e]
    -- an operation that does not concern t
    have other : (∀ q, op ≠ .relayTo t q) → op ≠ .closeRelay t →
        ((∃ pre post, ops ++ [op] = pre ++ Op.relayTo t p :: post ∧ (∀ q, Op.relayTo t q ∉ post) ∧ Op.closeRelay t ∉ post) ↔
        ∃ pre post, ops = pre ++ Op.relayTo t p :: post ∧ (∀ q, Op.relayTo t q ∉ post) ∧ Op.closeRelay t ∉ post) := by
      intro h1 h2
      constructor
      · rintro ⟨pre, post, he, hr, hc⟩
        rcases List.eq_nil_or_concat post with rfl | ⟨post', x, rfl⟩
        · have := (List.append_inj' (s₁ := ops) (t₁ := [op]) (s₂ := pre) (t₂ := [Op.relayTo t p]) he rfl).2
          simp only [List.cons.injEq, and_true] at this
          exact absurd this (h1 p)
        · rw [List.concat_eq_append] at he hr hc
          have he' : ops ++ [op] = (pre ++ Op.relayTo t p :: post') ++ [x] := by rw [he]; simp
          obtain ⟨a, b⟩ := List.append_inj' he' rfl
          exact ⟨pre, post', a, fun q hq => hr q (List.mem_append_left _ hq), fun h => hc (List.mem_append_left _ h)⟩
      · rintro ⟨pre, post, rfl, hr, hc⟩
        refine ⟨pre, post ++ [op], by simp, ?_, ?_⟩
        · intro q hq
          rcases List.mem_append.1 hq with h | h
          · exact hr q h
          · exact h1 q (List.mem_singleton.1 h).symm
        · intro hq
          rcases List.mem_append.1 hq with h | h
          · exact hc h
          · exact h2 (List.mem_singleton.1 h).symm
    -- the last operation decides
    have last : ∀ (x : Op) (pre post : List Op), ops ++ [x] = pre ++ Op.relayTo t p :: post → x ∈ post ∨ x = .relayTo t p := by
      intro x pre post he
      rcases List.eq_nil_or_concat post with rfl | ⟨post', y, rfl⟩
      · have := (List.append_inj' (s₁ := ops) (t₁ := [x]) (s₂ := pre) (t₂ := [Op.relayTo t p]) he rfl).2
        simp only [List.cons.injEq, and_true] at this
        exact Or.inr this
      · rw [List.concat_eq_append] at he ⊢
        have he' : ops ++ [x] = (pre ++ Op.relayTo t p :: post') ++ [y] := by rw [he]; simp
        have := (List.append_inj' he' rfl).2
        simp only [List.cons.injEq, and_true] at this
        subst this
        exact Or.inl (by simp)
    cases op with
    | relayTo t' q =>
      simp only [apply, SyncMap.load_store]
      by_cases ht : t = t'
      · subst ht
        rw [if_pos rfl]
        constructor
        · intro h
          simp only [Option.some.injEq] at h; subst h
          exact ⟨ops, [], rfl, by simp, by simp⟩
        · rintro ⟨pre, post, he, hr, _⟩
          rcases last _ pre post he with h | h
          · exact absurd h (hr q)
          · simp only [Op.relayTo.injEq, true_and] at h; rw [h]
      · rw [if_neg ht, ih, other (by intro q' h; simp only [Op.relayTo.injEq] at h; exact ht h.1.symm) (by simp)]
    | closeRelay t' =>
      simp only [apply, SyncMap.load_delete]
      by_cases ht : t = t'
      · subst ht
        rw [if_pos rfl]
        constructor
        · intro h; cases h
        · rintro ⟨pre, post, he, _, hc⟩
          rcases last _ pre post he with h | h
          · exact absurd h hc
          · cases h
      · rw [if_neg ht, ih, other (by simp) (by intro h; simp only [Op.closeRelay.injEq] at h; exact ht h.symm)]
    | addHandler _ _ => exact ih.trans (other (by simp) (by simp)).symm
    | enableErrInd => exact ih.trans (other (by simp) (by simp)).symm
    | disableErrInd => exact ih.trans (other (by simp) (by simp)).symm

/-! ### relaying -/

theorem slice_teid (f t l0 l1 : UInt8) (teid : UInt32) (r : Bytes) :
    slice ([f, t, l0, l1] ++ be32 teid ++ r) 4 8 >>= rd32 = ok teid := by
  obtain ⟨a, b, c, d, h, _⟩ := V2.be32_cases teid
  have : rd32 (be32 teid) = ok teid := by simpa using rd32_be32 teid []
  rw [h] at this ⊢
  rw [show slice ([f, t, l0, l1] ++ [a, b, c, d] ++ r) 4 8 = ok [a, b, c, d] by
    unfold slice; rw [if_pos ⟨by omega, by simp⟩]; rfl]
  exact this

theorem copy_teid (f t l0 l1 : UInt8) (teid out : UInt32) (r : Bytes) :
    copyAt ([f, t, l0, l1] ++ be32 teid ++ r) 4 8 (be32 out) = ok ([f, t, l0, l1] ++ be32 out ++ r) := by
  obtain ⟨a, b, c, d, h, _⟩ := V2.be32_cases teid
  obtain ⟨a', b', c', d', h', _⟩ := V2.be32_cases out
  rw [h, h']
  unfold copyAt
  rw [if_pos ⟨by omega, by simp⟩]
  rfl

/-- C37, the part that holds.  A G-PDU of 11 to 1500 octets received with a TEID that has a relay entry leaves on the entry's
connection, to the entry's address, identical but for the TEID, which is the entry's; nothing else happens, in
particular no local delivery, no handler call, no reply.  Missing: 8 to 10 octets (`C37_short_dropped`) and more than
1500 (`C37_long_truncated`). -/
theorem C37_relay_partial (u : UConn) (a : Addr) (f l0 l1 : UInt8) (teid : UInt32) (r : Bytes) (p : Peer)
    (hp : u.relay.load teid = some p) (ho : u.opened p.conn = true) (hmin : 3 ≤ r.length) (hmax : r.length ≤ 1492) :
    serve u true a ([f, 255, l0, l1] ++ be32 teid ++ r) true =
      ([.sent p.conn p.addr ([f, 255, l0, l1] ++ be32 p.teid ++ r)], ok ()) ∧
    serve u true a ([f, 255, l0, l1] ++ be32 teid ++ r) false = ([], err .other) := by
  have hlen : ([f, 255, l0, l1] ++ be32 teid ++ r).length = r.length + 8 := by
    obtain ⟨_, _, _, _, h, _⟩ := V2.be32_cases teid
    rw [h]; simp
  have key : ∀ w, serve u true a ([f, 255, l0, l1] ++ be32 teid ++ r) w =
      relayOut u p ([f, 255, l0, l1] ++ be32 teid ++ r) w := by
    intro w
    unfold serve
    rw [List.take_of_length_le (by omega)]
    unfold process
    have hi : idx ([f, 255, l0, l1] ++ be32 teid ++ r) 1 = ok 255 := rfl
    rw [if_pos rfl, hi, slice_teid]
    simp only [beq_self_eq_true, if_true, hp]
    rw [if_neg (by omega)]
  rw [key, key]
  unfold relayOut
  rw [copy_teid]
  simp [ho]

/-- C37 fails for G-PDUs with 0 to 2 octets after the mandatory header: they are dropped, whether their TEID has a relay entry or
not. -/
theorem C37_short_dropped (u : UConn) (a : Addr) (f l0 l1 : UInt8) (teid : UInt32) (r : Bytes) (w : Bool)
    (hr : r.length ≤ 2) : serve u true a ([f, 255, l0, l1] ++ be32 teid ++ r) w = ([], ok ()) := by
  have hlen : ([f, 255, l0, l1] ++ be32 teid ++ r).length = r.length + 8 := by
    obtain ⟨_, _, _, _, h, _⟩ := V2.be32_cases teid
    rw [h]; simp
  unfold serve
  rw [List.take_of_length_le (by omega)]
  unfold process
  have hi : idx ([f, 255, l0, l1] ++ be32 teid ++ r) 1 = ok 255 := rfl
  rw [if_pos rfl, hi]
  simp only [beq_self_eq_true, if_true]
  rw [if_pos (by omega)]

/-- C37 fails for G-PDUs of more than 1500 octets: what is relayed is cut to 1500. -/
theorem C37_long_truncated (u : UConn) (a : Addr) (f l0 l1 : UInt8) (teid : UInt32) (r : Bytes) (p : Peer)
    (hp : u.relay.load teid = some p) (ho : u.opened p.conn = true) (hr : 1492 < r.length) :
    serve u true a ([f, 255, l0, l1] ++ be32 teid ++ r) true =
      ([.sent p.conn p.addr ([f, 255, l0, l1] ++ be32 p.teid ++ r.take 1492)], ok ()) := by
  have : serve u true a ([f, 255, l0, l1] ++ be32 teid ++ r) true =
      serve u true a ([f, 255, l0, l1] ++ be32 teid ++ r.take 1492) true := by
    unfold serve
    congr 1
    obtain ⟨_, _, _, _, h, _⟩ := V2.be32_cases teid
    rw [h]
    simp [List.take_take]
  rw [this]
  exact (C37_relay_partial u a f l0 l1 teid (r.take 1492) p hp ho (by simp; omega) (by simp; omega)).1

/-- Messages of any other type are never relayed, and nothing is without a relay entry: processing is then the same as
without relaying. -/
theorem C37_others (u : UConn) (a : Addr) (d : Bytes) (w : Bool)
    (h : (∃ t, d[1]? = some t ∧ t ≠ 255) ∨
      ∃ f l0 l1 teid r, d = [f, 255, l0, l1] ++ be32 teid ++ r ∧ 3 ≤ r.length ∧ u.relay.load teid = none) :
    serve u true a d w = serve u false a d w := by
  rcases h with ⟨t, ht, hne⟩ | ⟨f, l0, l1, teid, r, rfl, hr, hl⟩
  · unfold serve process
    have hi : idx (d.take 1500) 1 = ok t := by
      unfold idx
      rw [List.getElem?_take_of_lt (by omega), ht]
    rw [if_pos rfl, hi]
    simp [hne]
  · have hlen : ([f, 255, l0, l1] ++ be32 teid ++ r).length = r.length + 8 := by
      obtain ⟨_, _, _, _, h, _⟩ := V2.be32_cases teid
      rw [h]; simp
    unfold serve
    have e : ([f, 255, l0, l1] ++ be32 teid ++ r).take 1500 = [f, 255, l0, l1] ++ be32 teid ++ r.take 1492 := by
      obtain ⟨_, _, _, _, h, _⟩ := V2.be32_cases teid
      rw [h]; simp
    rw [e]
    unfold process
    have hi : idx ([f, 255, l0, l1] ++ be32 teid ++ r.take 1492) 1 = ok 255 := rfl
    rw [if_pos rfl, hi, slice_teid]
    simp only [beq_self_eq_true, if_true, hl]
    rw [if_neg]
    · rfl
    · obtain ⟨_, _, _, _, h, _⟩ := V2.be32_cases teid
      rw [h]; simp; omega

/-- a connection with one relay entry, next to an open connection 1 -/
def exU : UConn := applyAll (newUConn 0 (some [10, 0, 0, 9]) (fun _ => true)) [.relayTo 0x11111111 ⟨0x22222222, "sgw", 1⟩]

example : (match serve exU true "enb" [0x30, 255, 0, 4, 0x11, 0x11, 0x11, 0x11, 0xde, 0xad, 0xbe, 0xef] true with
    | ([.sent c a b], r) => some (c, a, b, r) | _ => none) =
    some (1, "sgw", [0x30, 255, 0, 4, 0x22, 0x22, 0x22, 0x22, 0xde, 0xad, 0xbe, 0xef], ok ()) := by decide +kernel

/-! ### replies -/

theorem marshal_length (m : Message) (n : UInt16) :
    marshalMsg { m with hdr := { m.hdr with length := n } } = marshalMsg m := by
  obtain ⟨s, h, F⟩ := m
  simp only [marshalMsg, Msg.marshal, Msg.marshalTo]
  cases hr : s.reset
  · simp only [Bool.false_eq_true, if_false]; rfl
  · simp only [if_true]; rfl

theorem okIE_new16 (x : UInt32) : okIE (TLV.newIE TLV.v1 16 (be32 x)) := by
  obtain ⟨a, b, c, d, h, _⟩ := V2.be32_cases x
  rw [h]
  exact ⟨by rfl, by rfl⟩

theorem okIE_new14 (x : UInt8) : okIE (TLV.newIE TLV.v1 14 [x]) := ⟨by rfl, by rfl⟩

theorem newIE_133 (ip : Bytes) : TLV.newIE TLV.v1 133 ip = ⟨133, UInt16.ofNat ip.length, ip⟩ := rfl

theorem okIE_new133 (ip : Bytes) (h : ip.length = 4 ∨ ip.length = 16) : okIE (TLV.newIE TLV.v1 133 ip) := by
  rw [newIE_133]
  have hs : TLV.Spec.v1.short 133 = false := by decide +kernel
  constructor
  · simp only [TLV.Spec.wf]
    rw [if_neg (by decide), hs]
    rcases h with h | h <;> rw [h] <;> rfl
  · simp [TLV.Spec.hasValue]

/-- the local address is an IPv4 or IPv6 address (or none) -/
def UConn.Sane (u : UConn) : Prop := ∀ ip, u.localIP = some ip → ip.length = 4 ∨ ip.length = 16

theorem errInd_ok (u : UConn) (hs : u.Sane) (seq : UInt16) (teid : UInt32) :
    RoundTrips Tab.errorIndication 0 seq [some (TLV.newIE TLV.v1 16 (be32 teid)), u.localIP.map (TLV.newIE TLV.v1 133)] := by
  apply C23_round_trip_partial _ (by simp [Tab.all])
  · intro x hx
    simp only [List.mem_cons, Option.some.injEq, List.not_mem_nil, or_false] at hx
    rcases hx with rfl | hx
    · exact okIE_new16 teid
    · rw [eq_comm, Option.map_eq_some_iff] at hx
      obtain ⟨ip, h1, rfl⟩ := hx
      exact okIE_new133 ip (hs ip h1)
  · intro h
    rcases h with h | h
    · exact absurd (congrArg Msg.Schema.typ h) (by decide)
    · exact absurd (congrArg Msg.Schema.typ h) (by decide)
  · have h16 : (TLV.newIE TLV.v1 16 (be32 teid)).marshalLen TLV.v1 = 5 := rfl
    cases hip : u.localIP with
    | none => simp [h16]
    | some ip =>
      have h133 : (TLV.newIE TLV.v1 133 ip).marshalLen TLV.v1 = 3 + ip.length := rfl
      rcases hs ip hip with h | h <;> simp [h16, h133, h]

theorem echo_ok (u : UConn) (seq : UInt16) :
    RoundTrips Tab.echoResponse 0 seq [some (TLV.newIE TLV.v1 14 [0])] := by
  apply C23_round_trip_partial _ (by simp [Tab.all])
  · intro x hx
    simp only [List.mem_singleton, Option.some.injEq] at hx
    subst hx; exact okIE_new14 0
  · intro h
    rcases h with h | h
    · exact absurd (congrArg Msg.Schema.typ h) (by decide)
    · exact absurd (congrArg Msg.Schema.typ h) (by decide)
  · have h14 : (TLV.newIE TLV.v1 14 [0]).marshalLen TLV.v1 = 2 := rfl
    simp [h14]

theorem respondTo_echo (u : UConn) (a : Addr) (m : AnyMsg) (w : Bool) :
    ∃ m' b, marshalMsg (newMessage Tab.echoResponse 0 (msgSeq m) [some (TLV.newIE TLV.v1 14 [0])]) = ok (m', b) ∧
      parseMsg b = ok (.msg m') ∧ m'.schema = Tab.echoResponse ∧ m'.hdr.seq = msgSeq m ∧ m'.hdr.teid = 0 ∧
      m'.fields 0 = [⟨14, 0, [0]⟩] ∧
      respondTo u a m (newMessage Tab.echoResponse 0 0 [some (TLV.newIE TLV.v1 14 [0])]) w = writeTo u a b w := by
  obtain ⟨m', b, h1, _, _, h2, h3, h4, _, h5, h6⟩ := echo_ok u (msgSeq m)
  refine ⟨m', b, h1, h2, h3, h5, h6, ?_, ?_⟩
  · rw [h4]; rfl
  · have e : marshalMsg { newMessage Tab.echoResponse 0 0 [some (TLV.newIE TLV.v1 14 [0])] with
        hdr := (newMessage Tab.echoResponse 0 0 [some (TLV.newIE TLV.v1 14 [0])]).hdr.setSequence (msgSeq m) } = ok (m', b) := by
      rw [← h1, ← marshal_length (newMessage Tab.echoResponse 0 (msgSeq m) [some (TLV.newIE TLV.v1 14 [0])])
        ((newMessage Tab.echoResponse 0 0 [some (TLV.newIE TLV.v1 14 [0])]).hdr.setSequence (msgSeq m)).length]
      rfl
    unfold respondTo
    rw [e]

/-! ### delivery -/

theorem parseMsg_tpdu {b : Bytes} {h : Header} (hp : parseMsg b = ok (.tpdu h)) :
    Header.parse b = ok h ∧ b[1]? = some 255 ∧ h.typ = 255 := by
  unfold parseMsg at hp
  split at hp
  · cases hp
  rw [bind_eq_ok] at hp
  obtain ⟨t, ht, hp⟩ := hp
  have ht' : b[1]? = some t := by
    unfold idx at ht
    split at ht
    · simp only [ok.injEq] at ht; subst ht; assumption
    · cases ht
  split at hp
  · rename_i h255
    rw [bind_eq_ok] at hp
    obtain ⟨h', hh, hp⟩ := hp
    simp only [ok.injEq, AnyMsg.tpdu.injEq] at hp
    subst hp
    have : t = 255 := by simpa using h255
    subst this
    obtain ⟨_, _, _, _, _, _, _, _, f9, _⟩ := C22_header_faithful b h' hh
    rw [ht'] at f9
    simp only [Option.some.injEq] at f9
    exact ⟨hh, ht', f9.symm⟩
  · rw [bind_eq_ok] at hp
    obtain ⟨_, _, hp⟩ := hp
    cases hp

/-- the octets of a G-PDU, cut behind the TEID -/
theorem split_tpdu {b : Bytes} {h : Header} (hp : parseMsg b = ok (.tpdu h)) :
    ∃ f l0 l1 r, b = [f, 255, l0, l1] ++ be32 h.teid ++ r := by
  obtain ⟨hh, h1, _⟩ := parseMsg_tpdu hp
  obtain ⟨f0, _, _, _, _, _, _, _, _, _, f11, _⟩ := C22_header_faithful b h hh
  match b, f0, h1, f11 with
  | x0 :: x1 :: x2 :: x3 :: r, _, h1, f11 =>
    simp only [List.getElem?_cons_succ, List.getElem?_cons_zero, Option.some.injEq] at h1
    subst h1
    refine ⟨x0, x2, x3, r.drop 4, ?_⟩
    have : (r.drop 0).take 4 = be32 h.teid := f11
    rw [← this]
    simp
  | [], f0, _, _ => simp at f0
  | [_], f0, _, _ => simp at f0
  | [_, _], f0, _, _ => simp at f0
  | [_, _, _], f0, _, _ => simp at f0

theorem serve_tpdu (u : UConn) (seen : Bool) (a : Addr) (d : Bytes) (w : Bool) (h : Header) (hmax : d.length ≤ 1500)
    (hp : parseMsg d = ok (.tpdu h)) (hh : u.handlers.load 255 = some .tpdu)
    (hn : seen = false ∨ 11 ≤ d.length ∧ u.relay.load h.teid = none) :
    serve u seen a d w = handleTPDU u a (.tpdu h) w := by
  have base : serve u false a d w = handleTPDU u a (.tpdu h) w := by
    unfold serve process
    rw [List.take_of_length_le hmax]
    simp only [Bool.false_eq_true, if_false, parseAndHandle, hp, handleMessage, msgType, (parseMsg_tpdu hp).2.2, hh, handle]
  rcases hn with rfl | ⟨h11, hl⟩
  · exact base
  · cases seen with
    | false => exact base
    | true =>
      obtain ⟨f, l0, l1, r, hd⟩ := split_tpdu hp
      rw [C37_others u a d w (Or.inr ⟨f, l0, l1, h.teid, r, hd, by
        rw [hd] at h11
        obtain ⟨_, _, _, _, h, _⟩ := V2.be32_cases h.teid
        rw [h] at h11; simp at h11; omega, hl⟩)]
      exact base

/-- C38 with error indication enabled, the part that holds: a G-PDU whose TEID has no relay entry is answered with exactly
one Error Indication, to its sender, carrying its sequence number, its TEID and the local address; nothing else happens.
Missing: G-PDUs of 8 to 10 octets while some other relay entry exists, see `C37_short_dropped`. -/
theorem C38_indication_partial (u : UConn) (hs : u.Sane) (seen : Bool) (a : Addr) (d : Bytes) (h : Header) (ip : Bytes)
    (hmax : d.length ≤ 1500) (hp : parseMsg d = ok (.tpdu h)) (hh : u.handlers.load 255 = some .tpdu)
    (hn : seen = false ∨ 11 ≤ d.length ∧ u.relay.load h.teid = none)
    (he : u.errInd = true) (hip : u.localIP = some ip) :
    ∃ b m, serve u seen a d true = ([.sent u.self a b], ok ()) ∧ parseMsg b = ok (.msg m) ∧
      m.schema = Tab.errorIndication ∧ m.hdr.teid = 0 ∧ m.hdr.seq = h.seq ∧
      m.fields 0 = [⟨16, 0, (d.drop 4).take 4⟩] ∧ m.fields 1 = [⟨133, UInt16.ofNat ip.length, ip⟩] ∧
      m.fields 2 = [] ∧ m.fields 3 = [] := by
  obtain ⟨m', b, h1, _, _, h2, h3, h4, _, h5, h6⟩ := errInd_ok u hs h.seq h.teid
  have f11 : (d.drop 4).take 4 = be32 h.teid :=
    (C22_header_faithful d h (parseMsg_tpdu hp).1).2.2.2.2.2.2.2.2.2.2.1
  refine ⟨b, m', ?_, h2, h3, h6, h5, ?_, ?_, ?_, ?_⟩
  · rw [serve_tpdu u seen a d true h hmax hp hh hn]
    have e : sendErrorIndication u a h true = ([.sent u.self a b], ok ()) := by
      unfold sendErrorIndication errorIndication
      rw [h1]; rfl
    unfold handleTPDU
    simp only [he, if_true, e]
  all_goals rw [h4, hip]
  · rw [f11]; rfl
  all_goals rfl

/-- C38 with error indication disabled, the part that holds: a G-PDU whose TEID has no relay entry is offered to the local
reader once, with its sender, TEID and payload, and nothing is sent.  The octets in front of the payload are the
header and the extension headers.  Missing: as above. -/
theorem C38_delivery_partial (u : UConn) (seen : Bool) (a : Addr) (d : Bytes) (h : Header) (w : Bool)
    (hmax : d.length ≤ 1500) (hp : parseMsg d = ok (.tpdu h)) (hh : u.handlers.load 255 = some .tpdu)
    (hn : seen = false ∨ 11 ≤ d.length ∧ u.relay.load h.teid = none) (he : u.errInd = false) :
    serve u seen a d w = ([.offered a h.teid h.seq h.payload], ok ()) ∧
    (d.drop 4).take 4 = be32 h.teid ∧
    encExts h ++ h.payload = (d.take (h.length.toNat + 8)).drop (8 + (encOpt h).length) := by
  obtain ⟨_, _, _, _, _, _, _, _, _, _, f11, f12⟩ := C22_header_faithful d h (parseMsg_tpdu hp).1
  refine ⟨?_, f11, f12⟩
  rw [serve_tpdu u seen a d w h hmax hp hh hn]
  simp [handleTPDU, he]

/-- C38 for G-PDUs the library itself builds (WriteToGTP): the payload given by the sender is the payload offered, with the
TEID given. -/
theorem C38_end_to_end (u : UConn) (a : Addr) (teid : UInt32) (p : Bytes) (w : Bool) (hp : p.length ≤ 1492)
    (hh : u.handlers.load 255 = some .tpdu) (he : u.errInd = false) :
    ∃ h' b, tpduMarshal (newTPDU teid p) = ok (h', b) ∧ serve u false a b w = ([.offered a teid 0 p], ok ()) := by
  obtain ⟨h', b, h1, h2, _, h3, h4, h5⟩ := C25_partial teid p (by omega)
  refine ⟨h', b, h1, ?_⟩
  have hs := (C38_delivery_partial u false a b h' w (by omega) h3 hh (Or.inl rfl) he).1
  have hseq : h'.seq = 0 := by
    rw [tpduMarshal_eq] at h1
    rw [bind_eq_ok] at h1
    obtain ⟨_, _, h1⟩ := h1
    simp only [ok.injEq, Prod.mk.injEq] at h1
    rw [← h1.1]; rfl
  rw [hs, h4, h5, hseq]

/-- the indication a G-PDU for an unknown TEID gets -/
example : (match serve exU true "enb" [0x30, 255, 0, 4, 0x11, 0x11, 0x11, 0x12, 0xde, 0xad, 0xbe, 0xef] true with
    | ([.sent c a b], r) => some (c, a, b, r) | _ => none) =
    some (0, "enb", [0x32, 26, 0, 16, 0, 0, 0, 0, 0, 0, 0, 0, 16, 0x11, 0x11, 0x11, 0x12, 133, 0, 4, 10, 0, 0, 9], ok ()) := by
  decide +kernel

example : (match serve { exU with errInd := false } true "enb" [0x32, 255, 0, 8, 0x11, 0x11, 0x11, 0x12, 0, 7, 0, 0, 0xde, 0xad, 0xbe, 0xef] true with
    | ([.offered a t q p], r) => some (a, t, q, p, r) | _ => none) =
    some ("enb", 0x11111112, 7, [0xde, 0xad, 0xbe, 0xef], ok ()) := by decide +kernel

/-! ### Echo -/

/-- C53: with the default handler an Echo Request is answered with exactly one datagram, to its sender; it is an Echo Response with
the sequence number of the request and Recovery 0; nothing else happens, whatever the relay table. -/
theorem C53_echo (u : UConn) (seen : Bool) (a : Addr) (d : Bytes) (m : Message) (hmax : d.length ≤ 1500)
    (hp : parseMsg d = ok (.msg m)) (ht : d[1]? = some 1) (hh : u.handlers.load 1 = some .echoRequest) :
    ∃ b r, serve u seen a d true = ([.sent u.self a b], ok ()) ∧ parseMsg b = ok (.msg r) ∧
      r.schema = Tab.echoResponse ∧ r.hdr.seq = m.hdr.seq ∧ r.hdr.teid = 0 ∧ r.fields 0 = [⟨14, 0, [0]⟩] := by
  obtain ⟨m', b, _, h2, h3, h4, h5, h6, h7⟩ := respondTo_echo u a (.msg m) true
  refine ⟨b, m', ?_, h2, h3, h4, h5, h6⟩
  obtain ⟨t, hi, _, hum⟩ := parseMsg_msg hp
  have ht1 : t = 1 := by
    unfold idx at hi
    rw [ht] at hi
    simp only [ok.injEq] at hi; exact hi.symm
  subst ht1
  obtain ⟨hhd, hsch, _⟩ := Msg.unmarshal_ok hum
  have htyp : m.hdr.typ = 1 := by
    have hhd : Header.parse d = ok m.hdr := hhd
    obtain ⟨_, _, _, _, _, _, _, _, f9, _⟩ := C22_header_faithful d m.hdr hhd
    rw [ht] at f9
    simp only [Option.some.injEq] at f9
    exact f9.symm
  have hname : ¬ m.schema.name ≠ "EchoRequest" := by rw [hsch]; decide
  have base : serve u false a d true = ([.sent u.self a b], ok ()) := by
    unfold serve process
    rw [List.take_of_length_le hmax]
    simp only [Bool.false_eq_true, if_false, parseAndHandle, hp, handleMessage, msgType, htyp, hh, handle,
      handleEchoRequest, if_neg hname, h7, writeTo, if_true]
  cases seen with
  | false => exact base
  | true => rw [C37_others u a d true (Or.inl ⟨1, ht, by decide⟩)]; exact base

example : (match serve exU true "enb" [0x32, 1, 0, 4, 0, 0, 0, 0, 0xab, 0xcd, 0, 0] true with
    | ([.sent c a b], r) => some (c, a, b, r) | _ => none) =
    some (0, "enb", [0x32, 2, 0, 6, 0, 0, 0, 0, 0xab, 0xcd, 0, 0, 14, 0], ok ()) := by decide +kernel

/-! ### crashes -/

theorem parse_returns (d : Bytes) (h : d.length ≤ 1500) : Returns (parseMsg d) := C22_message_partial d (by omega)

theorem handle_panics (u : UConn) (hs : u.Sane) (a : Addr) (m : AnyMsg) (w : Bool) (h : Handler) :
    ((handle u a m w h).2 = .panic ↔
      h = .errorIndication ∧ ∃ x, m = .msg x ∧ x.schema.name = "ErrorIndication" ∧ (x.fields 0 = [] ∨ x.fields 1 = [])) ∧
    (handle u a m w h).2 ≠ .diverge := by
  cases h with
  | app id => simp [handle]
  | tpdu =>
    simp only [handle, handleTPDU, reduceCtorEq, false_and, iff_false]
    cases m with
    | msg x => simp
    | tpdu hd =>
      simp only
      split
      · obtain ⟨m', b, h1, _⟩ := errInd_ok u hs hd.seq hd.teid
        have e : sendErrorIndication u a hd w = writeTo u a b w := by
          unfold sendErrorIndication errorIndication
          rw [h1]
        rw [e]
        cases w <;> simp [writeTo]
      · simp
  | echoRequest =>
    simp only [handle, handleEchoRequest, reduceCtorEq, false_and, iff_false]
    cases m with
    | tpdu hd => simp
    | msg x =>
      simp only
      split
      · simp
      · obtain ⟨_, b, _, _, _, _, _, _, h7⟩ := respondTo_echo u a (.msg x) w
        rw [h7]
        cases w <;> simp [writeTo]
  | echoResponse =>
    simp only [handle, handleEchoResponse, reduceCtorEq, false_and, iff_false]
    cases m with
    | tpdu hd => simp
    | msg x => simp only; split <;> simp
  | errorIndication =>
    simp only [handle, handleErrorIndication, true_and]
    cases m with
    | tpdu hd => simp
    | msg x =>
      simp only [AnyMsg.msg.injEq, exists_eq_left']
      by_cases hn : x.schema.name = "ErrorIndication"
      · simp only [hn, ne_eq, not_true_eq_false, if_false, true_and]
        by_cases hf : x.fields 0 = [] ∨ x.fields 1 = []
        · simp [hf]
        · simp [hf]
      · simp [hn]

/-- a received Error Indication without one of its two mandatory IEs, with the default handler in place -/
def Crashing (u : UConn) (d : Bytes) : Prop :=
  ∃ x, parseMsg d = ok (.msg x) ∧ u.handlers.load x.hdr.typ = some .errorIndication ∧
    x.schema.name = "ErrorIndication" ∧ (x.fields 0 = [] ∨ x.fields 1 = [])

theorem parseAndHandle_panics (u : UConn) (hs : u.Sane) (a : Addr) (d : Bytes) (w : Bool) (hmax : d.length ≤ 1500) :
    ((parseAndHandle u a d w).2 = .panic ↔ Crashing u d) ∧ (parseAndHandle u a d w).2 ≠ .diverge := by
  have hr := parse_returns d hmax
  unfold parseAndHandle Crashing
  cases hp : parseMsg d with
  | err e => simp
  | panic => exact absurd hp hr.1
  | diverge => exact absurd hp hr.2
  | ok m =>
    simp only [handleMessage]
    cases hl : u.handlers.load (msgType m) with
    | none =>
      constructor
      · constructor
        · intro h; cases h
        · rintro ⟨x, hx, hh, _⟩
          simp only [ok.injEq] at hx; subst hx
          rw [show msgType (.msg x) = x.hdr.typ from rfl, hh] at hl; cases hl
      · simp
    | some h =>
      obtain ⟨h1, h2⟩ := handle_panics u hs a m w h
      refine ⟨h1.trans ?_, h2⟩
      constructor
      · rintro ⟨rfl, x, rfl, hx⟩
        exact ⟨x, rfl, hl, hx⟩
      · rintro ⟨x, hx, hh, hx'⟩
        simp only [ok.injEq] at hx; subst hx
        rw [show msgType (.msg x) = x.hdr.typ from rfl, hh] at hl
        simp only [Option.some.injEq] at hl
        exact ⟨hl.symm, x, rfl, hx'⟩

/-- C39, exactly when it fails: processing a datagram of at most 1500 octets panics iff
* the relay table is not empty and the datagram has fewer than two octets, or
* the datagram is a G-PDU of 11 octets or more whose relay entry names a connection that is not open, or
* it is an Error Indication without TEID Data I or GSN Address and the default handler is in place;
it always terminates. -/
theorem C39_panics_iff (u : UConn) (hs : u.Sane) (seen : Bool) (a : Addr) (d : Bytes) (w : Bool) (hmax : d.length ≤ 1500) :
    ((serve u seen a d w).2 = .panic ↔
      (seen = true ∧ d.length < 2) ∨
      (seen = true ∧ ∃ f l0 l1 teid r p, d = [f, 255, l0, l1] ++ be32 teid ++ r ∧ 3 ≤ r.length ∧
        u.relay.load teid = some p ∧ u.opened p.conn = false) ∨
      (Crashing u d)) ∧
    (serve u seen a d w).2 ≠ .diverge := by
  obtain ⟨p1, p2⟩ := parseAndHandle_panics u hs a d w hmax
  unfold serve
  rw [List.take_of_length_le hmax]
  have crash_len : Crashing u d → 2 ≤ d.length := by
    rintro ⟨x, hx, _⟩
    unfold parseMsg at hx
    split at hx
    · cases hx
    · omega
  have crash_typ : Crashing u d → ∃ t, d[1]? = some t ∧ t ≠ 255 := by
    rintro ⟨x, hx, _⟩
    obtain ⟨t, ht, h255, _⟩ := parseMsg_msg hx
    unfold idx at ht
    cases hd : d[1]? with
    | none => rw [hd] at ht; cases ht
    | some t' =>
      rw [hd] at ht
      simp only [ok.injEq] at ht
      exact ⟨t', rfl, by rw [ht]; exact h255⟩
  cases seen with
  | false =>
    simp only [process, Bool.false_eq_true, if_false, false_and, false_or]
    exact ⟨p1, p2⟩
  | true =>
    simp only [process, if_true, true_and]
    cases hd : d[1]? with
    | none =>
      have hl : d.length < 2 := by
        rw [List.getElem?_eq_none_iff] at hd; omega
      have hi : idx d 1 = .panic := by unfold idx; rw [hd]
      rw [hi]
      simp [hl]
    | some t =>
      have hl : ¬ d.length < 2 := by
        have := (List.getElem?_eq_some_iff.1 hd).1; omega
      have hi : idx d 1 = ok t := by unfold idx; rw [hd]
      rw [hi]
      simp only [hl, false_or]
      by_cases h255 : t = 255
      · subst h255
        have hnc : ¬ Crashing u d := by
          intro hc
          obtain ⟨t, h1, h2⟩ := crash_typ hc
          rw [hd] at h1; simp only [Option.some.injEq] at h1; exact h2 h1.symm
        simp only [beq_self_eq_true, if_true, hnc, or_false]
        by_cases h11 : d.length < 11
        · rw [if_pos h11]
          refine ⟨⟨fun h => (by cases h), ?_⟩, by simp⟩
          rintro ⟨f, l0, l1, teid, r, p, rfl, hr, _⟩
          exfalso
          obtain ⟨_, _, _, _, h, _⟩ := V2.be32_cases teid
          rw [h] at h11; simp at h11; omega
        · rw [if_neg h11]
          obtain ⟨f, l0, l1, teid, r, rfl⟩ : ∃ f l0 l1 teid r, d = [f, 255, l0, l1] ++ be32 teid ++ r := by
            match d, h11, hd with
            | f :: _ :: l0 :: l1 :: a :: b :: c :: e :: r, _, hd =>
              simp only [List.getElem?_cons_succ, List.getElem?_cons_zero, Option.some.injEq] at hd
              subst hd
              exact ⟨f, l0, l1, _, r, by rw [be32_rd32 a b c e]; rfl⟩
            | [], h, _ => simp at h
            | [_], h, _ => simp at h
            | [_, _], h, _ => simp at h
            | [_, _, _], h, _ => simp at h
            | [_, _, _, _], h, _ => simp at h
            | [_, _, _, _, _], h, _ => simp at h
            | [_, _, _, _, _, _], h, _ => simp at h
            | [_, _, _, _, _, _, _], h, _ => simp at h
          have hr : 3 ≤ r.length := by
            obtain ⟨_, _, _, _, h, _⟩ := V2.be32_cases teid
            rw [h] at h11; simp at h11; omega
          have uniq : ∀ f' l0' l1' teid' r', [f, 255, l0, l1] ++ be32 teid ++ r = [f', 255, l0', l1'] ++ be32 teid' ++ r' →
              teid' = teid := by
            intro f' l0' l1' teid' r' he
            have h1 := slice_teid f 255 l0 l1 teid r
            rw [he, slice_teid] at h1
            simpa using h1
          rw [slice_teid]
          simp only
          cases hlk : u.relay.load teid with
          | none =>
            simp only
            refine ⟨⟨fun h => absurd (p1.1 h) hnc, ?_⟩, p2⟩
            rintro ⟨f', l0', l1', teid', r', p, he, _, hl', _⟩
            rw [uniq _ _ _ _ _ he, hlk] at hl'; cases hl'
          | some p =>
            simp only [relayOut, copy_teid]
            cases ho : u.opened p.conn with
            | true =>
              constructor
              · constructor
                · intro h; cases w <;> simp at h
                · rintro ⟨f', l0', l1', teid', r', p', he, _, hl', ho'⟩
                  rw [uniq _ _ _ _ _ he, hlk] at hl'
                  simp only [Option.some.injEq] at hl'
                  rw [← hl', ho] at ho'; cases ho'
              · cases w <;> simp
            | false =>
              simp only [Bool.false_eq_true, if_false, ne_eq, reduceCtorEq, not_false_eq_true, and_true, true_iff]
              exact ⟨f, l0, l1, teid, r, p, rfl, hr, hlk, ho⟩
      · have hb : (t == 255) = false := by simpa using h255
        simp only [hb, Bool.false_eq_true, if_false]
        refine ⟨p1.trans ⟨Or.inr, ?_⟩, p2⟩
        rintro (⟨f, l0, l1, teid, r, p, rfl, _⟩ | h)
        · simp only [List.cons_append, List.getElem?_cons_succ, List.getElem?_cons_zero, Option.some.injEq] at hd
          exact absurd hd.symm h255
        · exact h

/-- C39, the part that holds: without relay entries to connections that are not open, no datagram of 2 to 1500 octets that
is not an Error Indication (type 26) makes the endpoint panic. -/
theorem C39_no_crash_partial (u : UConn) (hs : u.Sane) (seen : Bool) (a : Addr) (d : Bytes) (w : Bool)
    (hmin : 2 ≤ d.length) (hmax : d.length ≤ 1500) (ho : ∀ t p, u.relay.load t = some p → u.opened p.conn = true)
    (ht : d[1]? ≠ some 26) : Returns (serve u seen a d w).2 := by
  obtain ⟨h1, h2⟩ := C39_panics_iff u hs seen a d w hmax
  refine ⟨fun h => ?_, h2⟩
  rcases h1.1 h with ⟨_, h⟩ | ⟨_, f, l0, l1, teid, r, p, _, _, hl, hc⟩ | ⟨x, hx, _, hn, _⟩
  · omega
  · rw [ho _ _ hl] at hc; cases hc
  · obtain ⟨t, hi, _, hum⟩ := parseMsg_msg hx
    have hsch := (Msg.unmarshal_ok hum).2.1
    have ht' : d[1]? = some t := by
      unfold idx at hi
      cases hd : d[1]? with
      | none => rw [hd] at hi; cases hi
      | some t' => rw [hd] at hi; simp only [ok.injEq] at hi; rw [hi]
    rw [hsch] at hn
    rw [ht'] at ht
    have : ∀ n : Fin 256, (schemaOf (UInt8.ofNat n)).name = "ErrorIndication" → n.val = 26 := by decide +kernel
    have h26 := this ⟨t.toNat, t.toNat_lt⟩ (by simpa using hn)
    apply ht
    congr 1
    exact UInt8.toNat_inj.1 h26

/-- C39 fails: eight octets from anyone crash a connection as it comes from NewUPlaneConn. -/
theorem C39_error_indication_crashes (self : Nat) (ip : Option Bytes) (opened : Nat → Bool) (a : Addr) (w : Bool) :
    (serve (newUConn self ip opened) false a [0x30, 26, 0, 0, 0, 0, 0, 0] w).2 = .panic := rfl

/-- C39 fails: with any relay entry, a datagram with less than two octets (even none) crashes the connection. -/
theorem C39_tiny_crashes (u : UConn) (a : Addr) (d : Bytes) (w : Bool) (h : d.length < 2) :
    (serve u true a d w).2 = .panic := by
  unfold serve process
  rw [List.take_of_length_le (by omega), if_pos rfl]
  have : idx d 1 = .panic := by
    unfold idx
    rw [List.getElem?_eq_none_iff.2 (by omega)]
  rw [this]

end Verif.V1.UConn

namespace Verif.V1.UConn
open Res Spec
/-! ### cases that meet the hypotheses -/

theorem exU_sane : exU.Sane := by intro ip h; cases h; decide
def exTPDU : Bytes := [0x30, 255, 0, 4, 0x11, 0x11, 0x11, 0x12, 0xde, 0xad, 0xbe, 0xef]
example := C37_relay_partial exU "enb" 0x30 0 4 0x11111111 [0xde, 0xad, 0xbe, 0xef] ⟨0x22222222, "sgw", 1⟩ (by decide) rfl (by decide) (by decide)
example := C37_short_dropped exU "enb" 0x30 0 2 0x11111111 [0xde, 0xad] true (by decide)
example := C37_long_truncated exU "enb" 0x30 0 4 0x11111111 (List.replicate 1493 7) ⟨0x22222222, "sgw", 1⟩ (by decide) rfl
  (by rw [List.length_replicate]; decide)
example := C37_others exU "enb" exTPDU true (.inr ⟨0x30, 0, 4, 0x11111112, [0xde, 0xad, 0xbe, 0xef], rfl, by decide, by decide⟩)
example := C37_others exU "enb" [0x32, 1, 0, 4, 0, 0, 0, 0, 0xab, 0xcd, 0, 0] true (.inl ⟨1, rfl, by decide⟩)
example := C38_indication_partial exU exU_sane true "enb" exTPDU _ [10, 0, 0, 9] (by decide) rfl rfl (.inr ⟨by decide, by decide⟩) rfl rfl
example := C38_delivery_partial { exU with errInd := false } true "enb" exTPDU _ true (by decide) rfl rfl (.inr ⟨by decide, by decide⟩) rfl
example := C38_end_to_end { exU with errInd := false } "enb" 0x11111112 [0xde, 0xad, 0xbe, 0xef] true (by decide) rfl rfl
example := C53_echo exU true "enb" [0x32, 1, 0, 4, 0, 0, 0, 0, 0xab, 0xcd, 0, 0] _ (by decide) rfl rfl rfl
example := C39_panics_iff exU exU_sane true "enb" exTPDU true (by decide)
example := C39_no_crash_partial exU exU_sane true "enb" exTPDU true (by decide) (by decide) (fun _ _ _ => rfl) (by decide)
example := C39_tiny_crashes exU "enb" [0x30] true (by decide)
end Verif.V1.UConn
