import Verif.Props.V2Registry
import Verif.Props.V2Send
/-
C34, C35 and the reply of C31: incoming messages of the control plane (gtpv2/conn.go, gtpv2/handlers.go).
-/
namespace Verif.V2.Conn
open Res Spec Send

/-- the Echo Response that answers an Echo Request -/
def echoReply (g : UInt8 → Bool) (restart : UInt8) : Message := newMessage g Tab.echoResponse 0 0 [some (newIE 3 0 [restart])]

theorem echoReply_fields (g : UInt8 → Bool) (r : UInt8) (f : Nat) (hf : f ∉ Tab.echoResponse.multi) :
    ((echoReply g r).fields f).length ≤ 1 := by
  show (Msg.newFields (ieOps g) Tab.echoResponse [some (newIE 3 0 [r])] f).length ≤ 1
  have ht : (ieOps g).typ (newIE 3 0 [r]) = 3 := rfl
  have hi : (ieOps g).inst (newIE 3 0 [r]) = 0 := (by decide : (0 : UInt8) &&& 0x0f = 0)
  simp only [Msg.newFields, List.filterMap_cons, id, List.filterMap_nil, Msg.classify, List.foldl_cons, List.foldl_nil, ht, hi]
  have hs : Msg.sel Tab.echoResponse.newRules Tab.echoResponse.newDefault (3 : UInt8).toNat (0 : UInt8).toNat = .set 0 := by
    decide
  rw [hs]
  simp only [Msg.Act.apply, Msg.upd, Msg.Fields.empty]
  split <;> simp

/-- the reply to an Echo Request can always be serialised -/
theorem echoReply_ok (g : UInt8 → Bool) (r : UInt8) (received : Message) :
    ∃ m' b, response g received (echoReply g r) = ok (m', b) := by
  have hs : (setSeq (echoReply g r) received.hdr.sequence).schema = Tab.echoResponse := rfl
  obtain ⟨m', b, h, _⟩ := C16_exact_size_partial g (setSeq (echoReply g r) received.hdr.sequence)
    (by rw [hs]; simp [Tab.all]) (fun f hf => echoReply_fields g r f hf)
    (fun e => absurd (congrArg Msg.Schema.typ e) (by rw [hs]; decide))
  exact ⟨m', b, h⟩

theorem respondTo_returns (g : UInt8 → Bool) (a : Addr) (r : UInt8) (m : Message) (w : Bool) :
    Returns (respondTo g a m (echoReply g r) w).2 := by
  obtain ⟨m', b, h⟩ := echoReply_ok g r m
  unfold respondTo
  rw [h]
  cases w <;> simp [Returns]

theorem handle_returns (g : UInt8 → Bool) (c : Conn) (a : Addr) (m : Message) (w : Bool) (h : Handler) :
    Returns (handle g c a m w h).2 := by
  cases h with
  | echoRequest =>
    simp only [handle]; split
    · simp [Returns]
    · exact respondTo_returns g a c.restart m w
  | echoResponse => simp only [handle]; split <;> simp [Returns]
  | versionNotSupported => simp only [handle]; split <;> simp [Returns]
  | app id => simp [handle, Returns]

theorem dispatch_returns (g : UInt8 → Bool) (c : Conn) (a : Addr) (m : Message) (w : Bool) : Returns (dispatch g c a m w).2 := by
  unfold dispatch; split
  · simp [Returns]
  · exact handle_returns g c a m w _

theorem validate_eq (g : UInt8 → Bool) (c : Conn) (a : Addr) (m : Message) (w : Bool) :
    validate g c a m w = (if m.hdr.teidAcc ≠ 0 then
      match getSessionByTEID c m.hdr.teidAcc a with
      | ok _ => ([], ok ())
      | err _ => ([], err .notFound)
      | .panic => ([], .panic)
      | .diverge => ([], .diverge)
    else ([], ok ())) := by
  unfold validate
  have : m.hdr.version = 2 := rfl
  rw [if_neg (by rw [this]; decide)]
  split
  · cases getSessionByTEID c m.hdr.teidAcc a <;> rfl
  · rfl

/-- C34, exactly when it fails: processing a datagram panics iff validation is on and the datagram parses to a message whose
non-zero TEID is one that NewSenderFTEID has reserved and no session is registered under; in every other case it
returns.  (For any connection state, any datagram of any length from any peer, whether or not writing a reply works.) -/
theorem C34_panics_iff (g : UInt8 → Bool) (c : Conn) (a : Addr) (b : Bytes) (w : Bool) :
    ((serveDatagram g c a b w).2 = .panic ↔
      c.validation = true ∧ ∃ m, parseMsg g b = ok m ∧ m.hdr.teidAcc ≠ 0 ∧ c.byTeid.load m.hdr.teidAcc = some none) ∧
    (serveDatagram g c a b w).2 ≠ .diverge := by
  have hp := C11_parse_total g b
  unfold serveDatagram
  cases hm : parseMsg g b with
  | err e => simp
  | panic => exact absurd hm hp.1
  | diverge => exact absurd hm hp.2
  | ok m =>
    have hd := dispatch_returns g c a m w
    simp only [ok.injEq, exists_eq_left', handleMessage]
    cases hv : c.validation with
    | false => simpa [Returns] using hd
    | true =>
      simp only [if_true, true_and, validate_eq]
      by_cases ht : m.hdr.teidAcc = 0
      · simp only [ht, ne_eq, not_true_eq_false, if_false, false_and]
        refine ⟨⟨fun h => absurd h hd.1, False.elim⟩, hd.2⟩
      · simp only [ht, ne_eq, not_false_eq_true, if_true, true_and]
        unfold getSessionByTEID
        cases hl : c.byTeid.load m.hdr.teidAcc with
        | none => simp
        | some x =>
          cases x with
          | none => simp
          | some s =>
            simp only
            by_cases hpe : a = (c.heap s).peer
            · simp only [hpe, ne_eq, not_true_eq_false, if_false]
              rw [← hpe]
              simpa [Returns] using hd
            · simp [hpe]

/-- C34, the part that holds: after any sequence of API operations on a new connection in which every TEID handed out by
NewSenderFTEID has been registered afterwards, no datagram makes the endpoint panic.  Missing: the time between
NewSenderFTEID and RegisterSession, see `C34_reserved_crashes`. -/
theorem C34_no_crash_partial (g : UInt8 → Bool) (localIf counter : UInt8) (heap : Nat → Sess) (ops : List Op) (c : Conn)
    (h : applyAll (newConn localIf counter heap) ops = ok c)
    (hres : ∀ k, Op.reserve k ∈ ops → ∃ pre s post, ops = pre ++ Op.register k s :: post ∧ Op.reserve k ∉ post)
    (a : Addr) (b : Bytes) (w : Bool) : Returns (serveDatagram g c a b w).2 := by
  obtain ⟨h1, h2⟩ := C34_panics_iff g c a b w
  refine ⟨?_, h2⟩
  intro hp
  obtain ⟨_, m, _, _, hl⟩ := h1.1 hp
  obtain ⟨r1, r2⟩ := (tables_run localIf counter heap ops c h).res _ hl
  obtain ⟨pre, s, post, e, hn⟩ := hres _ r1
  exact hn (r2 pre s post e)

/-- C34 fails: between NewSenderFTEID (TEID 0x00000008 here) and RegisterSession, a 12-octet datagram from any peer with
that TEID crashes the process. -/
theorem C34_reserved_crashes (heap : Nat → Sess) (peer : Addr) :
    ∃ c, applyAll (newConn 10 0 heap) [.reserve 8] = ok c ∧
      (serveDatagram defaultGrouped c peer [0x48, 33, 0, 8, 0, 0, 0, 8, 0, 0, 1, 0] true).2 = .panic := by
  refine ⟨_, rfl, ?_⟩
  rw [(C34_panics_iff _ _ _ _ _).1]
  refine ⟨rfl, ?_⟩
  cases hm : parseMsg defaultGrouped [0x48, 33, 0, 8, 0, 0, 0, 8, 0, 0, 1, 0] with
  | ok m =>
    have ht : m.hdr.teidAcc = 8 := by
      have : (match parseMsg defaultGrouped [0x48, 33, 0, 8, 0, 0, 0, 8, 0, 0, 1, 0] with
        | ok m => m.hdr.teidAcc | _ => 0) = 8 := by decide +kernel
      rw [hm] at this; exact this
    exact ⟨m, rfl, by rw [ht]; decide, by rw [ht]; rfl⟩
  | _ =>
    exfalso
    have : (match parseMsg defaultGrouped [0x48, 33, 0, 8, 0, 0, 0, 8, 0, 0, 1, 0] with
        | ok _ => true | _ => false) = true := by decide +kernel
    rw [hm] at this; cases this

/-! ### which messages reach the application -/

theorem respondTo_calls (g : UInt8 → Bool) (a : Addr) (m r : Message) (w : Bool) (id : Nat) (a' : Addr) (m' : Message) :
    Ev.call id a' m' ∉ (respondTo g a m r w).1 := by
  unfold respondTo
  split
  · split <;> simp
  all_goals simp

theorem dispatch_calls (g : UInt8 → Bool) (c : Conn) (a : Addr) (m : Message) (w : Bool) :
    (∀ id, c.handlers.load m.hdr.typ = some (.app id) → dispatch g c a m w = ([.call id a m], ok ())) ∧
    ((∀ id, c.handlers.load m.hdr.typ ≠ some (.app id)) → ∀ id a' m', Ev.call id a' m' ∉ (dispatch g c a m w).1) := by
  constructor
  · intro id h; simp only [dispatch, h, handle]
  · intro h id a' m'
    unfold dispatch
    split
    · simp
    · rename_i hd hh
      cases hd with
      | app id' => exact absurd hh (h id')
      | echoRequest =>
        simp only [handle]; split
        · simp
        · exact respondTo_calls g a m _ w id a' m'
      | echoResponse => simp only [handle]; split <;> simp
      | versionNotSupported => simp only [handle]; split <;> simp

/-- C35, the part that holds.  Application handler `id` is called for a datagram with message m and sender a iff the
datagram parses to m, a is its sender, `id` is registered for its type, and (with validation on) its TEID is 0 or
belongs to a session registered under it with a as peer; in that case it is called exactly once and nothing else
happens.  Missing: the version check, see `C35_version_ignored`. -/
theorem C35_reaches_partial (g : UInt8 → Bool) (c : Conn) (a : Addr) (b : Bytes) (w : Bool) (id : Nat) (a' : Addr) (m : Message) :
    (Ev.call id a' m ∈ (serveDatagram g c a b w).1 ↔
      parseMsg g b = ok m ∧ a' = a ∧ c.handlers.load m.hdr.typ = some (.app id) ∧
      (c.validation = true → m.hdr.teidAcc = 0 ∨
        ∃ s, c.byTeid.load m.hdr.teidAcc = some (some s) ∧ (c.heap s).peer = a)) ∧
    (Ev.call id a' m ∈ (serveDatagram g c a b w).1 → serveDatagram g c a b w = ([.call id a m], ok ())) := by
  have key : ∀ m0, parseMsg g b = ok m0 → (c.validation = true → m0.hdr.teidAcc = 0 ∨
        ∃ s, c.byTeid.load m0.hdr.teidAcc = some (some s) ∧ (c.heap s).peer = a) →
      serveDatagram g c a b w = dispatch g c a m0 w := by
    intro m0 hm hv
    unfold serveDatagram
    rw [hm]
    simp only [handleMessage]
    cases hval : c.validation with
    | false => simp
    | true =>
      simp only [if_true, validate_eq]
      rcases hv hval with h0 | ⟨s, hs, hp⟩
      · simp [h0]
      · by_cases h0 : m0.hdr.teidAcc = 0
        · simp [h0]
        · simp [h0, getSessionByTEID, hs, hp]
  have none : ∀ m0, parseMsg g b = ok m0 → ¬ (c.validation = true → m0.hdr.teidAcc = 0 ∨
        ∃ s, c.byTeid.load m0.hdr.teidAcc = some (some s) ∧ (c.heap s).peer = a) →
      (serveDatagram g c a b w).1 = [] := by
    intro m0 hm hv
    obtain ⟨hval, hv⟩ := Classical.not_imp.1 hv
    rw [not_or] at hv
    unfold serveDatagram
    rw [hm]
    simp only [handleMessage, hval, if_true, validate_eq, if_pos hv.1]
    unfold getSessionByTEID
    cases hl : c.byTeid.load m0.hdr.teidAcc with
    | none => simp
    | some x =>
      cases x with
      | none => simp
      | some s =>
        have : ¬ a = (c.heap s).peer := fun e => hv.2 ⟨s, hl, e.symm⟩
        simp [this]
  have fwd : Ev.call id a' m ∈ (serveDatagram g c a b w).1 →
      (parseMsg g b = ok m ∧ a' = a ∧ c.handlers.load m.hdr.typ = some (.app id) ∧
      (c.validation = true → m.hdr.teidAcc = 0 ∨
        ∃ s, c.byTeid.load m.hdr.teidAcc = some (some s) ∧ (c.heap s).peer = a)) ∧
      serveDatagram g c a b w = ([.call id a m], ok ()) := by
    intro h
    cases hm : parseMsg g b with
    | ok m0 =>
      by_cases hv : (c.validation = true → m0.hdr.teidAcc = 0 ∨
          ∃ s, c.byTeid.load m0.hdr.teidAcc = some (some s) ∧ (c.heap s).peer = a)
      · rw [key m0 hm hv] at h ⊢
        obtain ⟨d1, d2⟩ := dispatch_calls g c a m0 w
        by_cases hh : ∀ id, c.handlers.load m0.hdr.typ ≠ some (.app id)
        · exact absurd h (d2 hh id a' m)
        · obtain ⟨id', hid⟩ := Classical.not_forall.1 hh
          have hid := Classical.not_not.1 hid
          rw [d1 id' hid] at h ⊢
          simp only [List.mem_singleton, Ev.call.injEq] at h
          obtain ⟨rfl, rfl, rfl⟩ := h
          exact ⟨⟨rfl, rfl, hid, hv⟩, rfl⟩
      · rw [none m0 hm hv] at h; cases h
    | err e => unfold serveDatagram at h; rw [hm] at h; cases h
    | panic => unfold serveDatagram at h; rw [hm] at h; cases h
    | diverge => unfold serveDatagram at h; rw [hm] at h; cases h
  refine ⟨⟨fun h => (fwd h).1, ?_⟩, fun h => (fwd h).2⟩
  rintro ⟨hm, rfl, hh, hv⟩
  rw [key m hm hv, (dispatch_calls g c a' m w).1 id hh]
  simp

/-- C35 after any API operations: with validation on, a message with a non-zero TEID that reaches the application carries a
TEID under which a session was registered whose current peer is the sender. -/
theorem C35_registered (g : UInt8 → Bool) (localIf counter : UInt8) (heap : Nat → Sess) (ops : List Op) (c : Conn)
    (h : applyAll (newConn localIf counter heap) ops = ok c) (hv : c.validation = true)
    (a : Addr) (b : Bytes) (w : Bool) (id : Nat) (a' : Addr) (m : Message) (ht : m.hdr.teidAcc ≠ 0)
    (hc : Ev.call id a' m ∈ (serveDatagram g c a b w).1) :
    ∃ s, (c.heap s).peer = a ∧ Op.register m.hdr.teidAcc s ∈ ops := by
  obtain ⟨_, _, _, hr⟩ := (C35_reaches_partial g c a b w id a' m).1.1 hc
  rcases hr hv with h0 | ⟨s, hs, hp⟩
  · exact absurd h0 ht
  · obtain ⟨pre, post, e, _⟩ := (tables_run localIf counter heap ops c h).reg _ s hs
    exact ⟨s, hp, by rw [e]; simp⟩

/-- C35 fails for the version: a datagram whose first octet says version 1 (or 5) is handed to the application, with
validation on; the version check compares the constant 2. -/
theorem C35_version_ignored :
    (match serveDatagram defaultGrouped { exConn with handlers := [(33, .app 4)] } "peer" [0x28, 33, 0, 8, 0, 0, 0, 0, 0, 0, 1, 0] true with
      | ([.call id a m], _) => some (id, a, m.hdr.flags.toNat / 32)
      | _ => none) = some (4, "peer", 1) ∧
    (match serveDatagram defaultGrouped { exConn with handlers := [(33, .app 4)] } "peer" [0xa8, 33, 0, 8, 0, 0, 0, 0, 0, 0, 1, 0] true with
      | ([.call id a m], _) => some (id, a, m.hdr.flags.toNat / 32)
      | _ => none) = some (4, "peer", 5) := by decide +kernel

example : (match serveDatagram defaultGrouped { exConn with handlers := [(33, .app 4)], byTeid := [(9, some 0)] } "peer"
      [0x48, 33, 0, 8, 0, 0, 0, 9, 0, 0, 1, 0] true with
    | ([.call id a m], r) => some (id, a, m.hdr.teidAcc, r) | _ => none) = some (4, "peer", 9, ok ()) := by decide +kernel
example : (match serveDatagram defaultGrouped { exConn with handlers := [(33, .app 4)], byTeid := [(9, some 0)] } "stranger"
      [0x48, 33, 0, 8, 0, 0, 0, 9, 0, 0, 1, 0] true with
    | ([], r) => some r | _ => none) = some (err .notFound) := by decide +kernel

/-! ### Echo -/

/-- C31 end to end: an Echo Request (that passes validation, the default handler being in place) is answered with
exactly one datagram, to its sender; that datagram parses to an Echo Response with the sequence number of the request
and a Recovery IE holding the restart counter. -/
theorem C31_echo (g : UInt8 → Bool) (hg : g 3 = false) (c : Conn) (a : Addr) (b : Bytes) (m : Message)
    (hm : parseMsg g b = ok m) (ht : b[1]? = some 1) (hh : c.handlers.load 1 = some .echoRequest)
    (hv : c.validation = true → m.hdr.teidAcc = 0 ∨
      ∃ s, c.byTeid.load m.hdr.teidAcc = some (some s) ∧ (c.heap s).peer = a) :
    ∃ out r, serveDatagram g c a b true = ([.sent a out], ok ()) ∧ parseMsg g out = ok r ∧
      r.schema = Tab.echoResponse ∧ r.hdr.sequence = m.hdr.sequence ∧ seqField out = seqField b ∧
      r.fields 0 = [IE.mk 3 1 0 [c.restart] []] := by
  obtain ⟨t, ht', hp, hs, _⟩ := parseMsg_ok g hm
  rw [ht] at ht'
  simp only [Option.some.injEq] at ht'; subst ht'
  obtain ⟨⟨t, h1, htyp, _⟩, _⟩ := C12_dispatch_faithful g b m hm
  rw [ht] at h1; simp only [Option.some.injEq] at h1; subst h1
  have hseq : m.hdr.seq.toNat < 2 ^ 24 := by
    obtain ⟨_, _, _, h, _⟩ := (C10_parse_total_faithful b).2 _ hp
    exact h
  have hschema : m.schema = Tab.echoRequest := by rw [hs]; rfl
  have hname : ¬ m.schema.name ≠ "EchoRequest" := by rw [hschema]; decide
  have heq : setSeq (echoReply g c.restart) m.hdr.sequence =
      newMessage g Tab.echoResponse 0 m.hdr.sequence [some (newIE 3 0 [c.restart])] := rfl
  have hnew : newIE 3 0 [c.restart] = IE.mk 3 1 0 [c.restart] [] := rfl
  have hwf : wf g (newIE 3 0 [c.restart]) = true := by
    rw [hnew]; simp [wf, hg]
  obtain ⟨r, out, h2, _, h3, h4, h5, _, h6, _⟩ := C18_echo g Tab.echoResponse (Or.inr rfl) 0 m.hdr.sequence
    [some (newIE 3 0 [c.restart])] ⟨_, List.mem_singleton.2 rfl⟩ (by
      intro x hx; simp only [List.mem_singleton, Option.some.injEq] at hx; subst hx; exact hwf) hseq (by
      simp [hnew, IE.marshalLen, hg])
  have hresp : response g m (echoReply g c.restart) = ok (r, out) := by
    unfold response; rw [heq]; exact h2
  refine ⟨out, r, ?_, h3, h4, h6, ?_, ?_⟩
  · have hd : dispatch g c a m true = ([.sent a out], ok ()) := by
      unfold dispatch
      rw [htyp, hh]
      simp only [handle, if_neg hname]
      show respondTo g a m (echoReply g c.restart) true = _
      unfold respondTo; rw [hresp]; simp
    unfold serveDatagram
    rw [hm]
    simp only [handleMessage]
    cases hval : c.validation with
    | false => simp [hd]
    | true =>
      simp only [if_true, validate_eq]
      rcases hv hval with h0 | ⟨s, hs, hp⟩
      · simp [h0, hd]
      · by_cases h0 : m.hdr.teidAcc = 0
        · simp [h0, hd]
        · simp [h0, getSessionByTEID, hs, hp, hd]
  · exact (C31_octets g (init 0) a b m (echoReply g c.restart) r out hm hresp).2
  · rw [h5]
    show Msg.newFields (ieOps g) Tab.echoResponse [some (newIE 3 0 [c.restart])] 0 = _
    have ht : (ieOps g).typ (newIE 3 0 [c.restart]) = 3 := rfl
    have hi : (ieOps g).inst (newIE 3 0 [c.restart]) = 0 := (by decide : (0 : UInt8) &&& 0x0f = 0)
    simp only [Msg.newFields, List.filterMap_cons, id, List.filterMap_nil, Msg.classify, List.foldl_cons, List.foldl_nil, ht, hi]
    have hs : Msg.sel Tab.echoResponse.newRules Tab.echoResponse.newDefault (3 : UInt8).toNat (0 : UInt8).toNat = .set 0 := by
      decide
    rw [hs]
    simp [Msg.Act.apply, Msg.upd, hnew]

example : (match serveDatagram defaultGrouped exConn "peer" [0x40, 1, 0, 9, 0xab, 0xcd, 0xef, 0, 3, 0, 1, 0, 5] true with
    | ([.sent a b], r) => some (a, b, r) | _ => none) =
    some ("peer", [0x40, 2, 0, 9, 0xab, 0xcd, 0xef, 0, 3, 0, 1, 0, 0], ok ()) := by decide +kernel

end Verif.V2.Conn

namespace Verif.V2.Conn
open Res Spec Send
/-! ### cases that meet the hypotheses -/

/-- a session with TEID 5 is registered, TEID 8 is reserved and then registered, and a handler is installed -/
def exCalls : List Op := [.register 5 0, .activate 0, .reserve 8, .register 8 2]
example := C34_no_crash_partial defaultGrouped 10 0 exHeap exCalls _ rfl
  (by intro k hk; simp [exCalls] at hk; subst hk; exact ⟨[.register 5 0, .activate 0, .reserve 8], 2, [], rfl, by simp⟩)
  "peer" [0x48, 33, 0, 8, 0, 0, 0, 9, 0, 0, 1, 0] true
example := C31_echo defaultGrouped (by decide) exConn "peer" [0x40, 1, 0, 9, 0xab, 0xcd, 0xef, 0, 3, 0, 1, 0, 5] _ rfl (by decide) rfl
  (fun _ => .inl rfl)
/-- the message with TEID 5 from the session's peer reaches the handler -/
example := C35_registered defaultGrouped 10 0 exHeap (.addHandler 33 4 :: exCalls) _ rfl rfl
  ((exHeap 0).peer) [0x48, 33, 0, 8, 0, 0, 0, 5, 0, 0, 1, 0] true 4 _ _ (by decide +kernel) (List.mem_singleton.2 rfl)
end Verif.V2.Conn
