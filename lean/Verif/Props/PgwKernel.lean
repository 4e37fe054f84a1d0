import Verif.Props.Pgw
import Verif.Proofs.PgwKernel
/-
C106: the user plane of the P-GW of examples/gw-tester with kernel tunnels, between the datagrams on S5-C and what the kernel does with
packets of the subscribers.  Model: Model/PgwKernel.lean; what is assumed of the kernel is said there and in Model/Tunnel.lean.
-/
namespace Verif.V2.Pgw
open Res Send Conn NetIP V1.Tunnel Spec IPSpec

/-- the states of the P-GW and of the kernel after any number of datagrams, from anyone, with any octets, any kernel calls failing.
Writes succeed; the TEIDs drawn are not in use (`C32_unique` and gtpv1/u-conn.go:696).  Of the kernel nothing is assumed at the start but
that no device named gtp-pgw is in the way. -/
inductive RunsK (g : UInt8 → Bool) (p : Cfg) : Conn → Kern → Prop
  | start (heap : Nat → Sess) (sys : Sys) (f : EnableFaults) (down : List (Bytes × String)) (up : Bool) (rules : List Bytes) :
      sys.Ok → (enable f sys "gtp-pgw").2 = true → RunsK g p (start heap) ⟨(enable f sys "gtp-pgw").1, down, up, rules⟩
  | datagram (c : Conn) (n : Kern) (s b : Nat) (k ku : UInt32) (a : Addr) (d : Bytes) (f : Faults) : RunsK g p c n → Fresh c s →
      Drawn g c s b a d k → ku.toNat ∉ n.sys.reserved →
      RunsK g p (serveK g p f c n s b (some k) ku a d true).1.1 (serveK g p f c n s b (some k) ku a d true).1.2

theorem runsK_inv {g : UInt8 → Bool} (hg : Usual g) {p : Cfg} {cAddr uAddr : Bytes} (hp : OnV4 p cAddr uAddr) {c : Conn} {n : Kern}
    (h : RunsK g p c n) : Runs g p c ∧ KInv n := by
  induction h with
  | start heap sys f down up rules h1 h2 => exact ⟨.start heap, enable_inv f sys h1 h2 down up rules⟩
  | datagram c n s b k ku a d f _ hs hd hu ih =>
    obtain ⟨h1, h2⟩ := ih
    refine ⟨?_, ?_⟩
    · rw [(serveK_control g p f c n s b (some k) ku a d true).1]
      exact .datagram c s b k ku a d h1 hs hd
    · rcases serveK_kern g p f (runs_inv hg hp.control h1) n s b (some k) ku a d true with e | ⟨m, _, _, _, ⟨v, hv⟩, e | e⟩
      · rw [e]; exact h2
      · rw [e]; exact reserve_inv h2 ku
      · rw [e]
        refine setup_inv f (reserve_inv h2 ku) _ ?_
        rw [tunnelOf_eq hv]
        exact List.mem_cons_self

/-- **C106** no datagram crashes the P-GW with kernel tunnels, whatever kernel calls fail. -/
theorem C106_safe (g : UInt8 → Bool) (hg : Usual g) (p : Cfg) (cAddr uAddr : Bytes) (hp : OnV4 p cAddr uAddr) (c : Conn) (n : Kern)
    (h : RunsK g p c n) (s b : Nat) (k ku : UInt32) (a : Addr) (d : Bytes) (hs : Fresh c s) (hd : Drawn g c s b a d k) (f : Faults) :
    Returns (serveK g p f c n s b (some k) ku a d true).2.2 :=
  (serveK_control g p f c n s b (some k) ku a d true).2.2.2 (C98_safe g hg p cAddr uAddr hp c (runsK_inv hg hp h).1 s b k ku a d hs hd)

/-- the last F-TEID in a list of elements -/
def LastFTEID (l : List IE) (i : IE) : Prop := ∃ pre post, l = pre ++ i :: post ∧ i.typ = 87 ∧ ∀ j ∈ post, j.typ ≠ 87

/-- **C106** a complete Create Session Request for the address `ms` is answered as without the kernel (`C98_create_partial`), and when no
kernel call fails, then packets to `ms` are sent to the address and with the TEID of the last F-TEID in the Bearer Context, and packets
from `ms`, and no others, are taken out of datagrams with the TEID that was sent to the S-GW for user data, which no packets of `ms` are
taken out of with another TEID.  The other subscribers keep what they had.  Partial: IPv4, and as `C98_create_partial`.  A departure is
visible: the handler returns an error although all is done, if there was a rule for `ms` already. -/
theorem C106_attach_partial (g : UInt8 → Bool) (hg : Usual g) (p : Cfg) (cAddr uAddr : Bytes) (hp : OnV4 p cAddr uAddr) (c : Conn) (n : Kern)
    (h : RunsK g p c n) (s b : Nat) (k ku : UInt32) (a : Addr) (d : Bytes) (hs : Fresh c s) (hd : Drawn g c s b a d k)
    (hku : ku.toNat ∉ n.sys.reserved) (m : Message)
    (hm : parseMsg g d = ok m) (hsc : m.schema = Tab.createSessionRequest) (hr : Reaches c m.hdr.teidAcc a) (v : Request)
    (hv : Asks g m v) (e : UInt8) (he : ∀ i ∈ v.bearer, i.typ = 73 → i.ebi g = ok e) (hx : e = 0 ∨ ∃ i ∈ v.bearer, i.typ = 73)
    (h6 : ∀ i ∈ v.bearer, i.typ = 87 → i.interfaceType ≠ ok 6)
    (i : IE) (hi : LastFTEID v.bearer i) (peer ms : Bytes) (t : UInt32) (hpeer : peer.length = 4) (hms : ms.length = 4)
    (ha : i.ipAddress = ok (ipString peer)) (ht : i.teid = ok t) (hip : v.ip = ipString ms) :
    ∃ c' n' out m' r, serveK g p .zero c n s b (some k) ku a d true = ((c', n'), [.sent a out], r) ∧ (r = ok () ↔ ms ∉ n.rules) ∧
      (∀ A x aP, A.handlers.load 33 = some (.app x) → Reaches A v.teid aP →
        ∀ w, serveDatagram g A aP (asRead out) w = ([.call x aP m'], ok ())) ∧
      m'.schema = Tab.createSessionResponse ∧ m'.hdr.sequence = m.hdr.sequence ∧
      Accepts g m' v e k ku (some cAddr) (some uAddr) ∧ Holds c' s b a v e k ku ∧ Others c c' s v.imsi ∧
      n'.downlink ms = some (peer, t.toNat) ∧ (∀ src, n'.uplink ku.toNat src ↔ src = ms) ∧ (∀ x, n'.uplink x ms ↔ x = ku.toNat) ∧
      (∀ ms', ms' ≠ ms → n'.downlink ms' = n.downlink ms' ∧ ∀ x, n'.uplink x ms' ↔ n.uplink x ms') := by
  obtain ⟨h1, h2⟩ := runsK_inv hg hp h
  obtain ⟨c', out, m', e1, _, e2, e3, _, e4, e5, _, _, e6, e7, _⟩ :=
    C98_create_partial g hg p cAddr uAddr hp c h1 s b k ku a d hs hd m hm hsc hr v hv e he hx h6
  obtain ⟨pre, post, l1, l2, l3⟩ := hi
  have hT : tunnelOf m ku = ⟨peer, ms, t.toNat, ku.toNat⟩ := by
    rw [tunnelOf_eq ((asks_in hsc v).1 hv)]
    have : (v.vals).kids = v.bearer := rfl
    rw [this, userEnd_last l1 l2 l3 ha ht]
    show (⟨octets (ipString peer), octets v.ip, t.toNat, ku.toNat⟩ : PDP) = _
    rw [hip, octets_v4 hpeer, octets_v4 hms]
  have hk := serveK_create (f := .zero) (n := n) (runs_inv hg hp.control h1) hm hsc hr e1
  rw [hT] at hk
  obtain ⟨z1, z2, z3, z4, z5⟩ := setup_zero (reserve_inv h2 ku) ⟨peer, ms, t.toNat, ku.toNat⟩
  refine ⟨c', _, out, m', _, hk, ?_, e2, e3, e4, e5, e6, e7, z2, fun src => ⟨z4 src, ?_⟩, fun x => ⟨z5 x, ?_⟩, fun ms' hne => ?_⟩
  · refine Iff.trans ?_ z1
    cases (setup .zero (n.reserve ku) ⟨peer, ms, t.toNat, ku.toNat⟩).2 <;> simp
  · rintro rfl; exact z3
  · rintro rfl; exact z3
  · exact drawn_others .zero h2 ⟨peer, ms, t.toNat, ku.toNat⟩ ku hku rfl ms' hne

/-- **C106** whatever datagram comes and whatever kernel calls fail, the packets of a subscriber go where they went before, unless the
datagram is a complete Create Session Request for the same address. -/
theorem C106_undisturbed (g : UInt8 → Bool) (hg : Usual g) (p : Cfg) (cAddr uAddr : Bytes) (hp : OnV4 p cAddr uAddr) (c : Conn) (n : Kern)
    (h : RunsK g p c n) (s b : Nat) (k ku : UInt32) (a : Addr) (d : Bytes) (hku : ku.toNat ∉ n.sys.reserved) (f : Faults) (w : Bool)
    (ms : Bytes) (hne : ∀ m v, parseMsg g d = ok m → m.schema = Tab.createSessionRequest → Reaches c m.hdr.teidAcc a → Asks g m v →
      octets v.ip ≠ ms) :
    (serveK g p f c n s b (some k) ku a d w).1.2.downlink ms = n.downlink ms ∧
    ∀ t, (serveK g p f c n s b (some k) ku a d w).1.2.uplink t ms ↔ n.uplink t ms := by
  obtain ⟨h1, h2⟩ := runsK_inv hg hp h
  rcases serveK_kern g p f (runs_inv hg hp.control h1) n s b (some k) ku a d w with e | ⟨m, hm, hsc, hr, hv, e | e⟩
  · rw [e]; exact ⟨rfl, fun _ => Iff.rfl⟩
  · rw [e]; exact ⟨rfl, fun _ => Iff.rfl⟩
  · obtain ⟨v, hv⟩ := (asks_some hsc).1 hv
    have hT := tunnelOf_eq ((asks_in hsc v).1 hv) ku
    rw [e]
    refine drawn_others f h2 _ ku hku (by rw [hT]) ms ?_
    rw [hT]
    exact fun x => hne m v hm hsc hr hv x.symm

/-- departure: a session that is deleted leaves its tunnel, its route and its rule behind.  A Delete Session Request that is accepted
changes nothing in the kernel: packets to and from the subscriber still pass, and the TEID stays in use. -/
theorem C106_detach_wrong (g : UInt8 → Bool) (hg : Usual g) (p : Cfg) (cAddr uAddr : Bytes) (hp : OnV4 p cAddr uAddr) (c : Conn) (n : Kern)
    (h : RunsK g p c n) (s b : Nat) (k ku : UInt32) (a : Addr) (d : Bytes) (f : Faults) (m : Message) (hm : parseMsg g d = ok m)
    (hsc : m.schema = Tab.deleteSessionRequest) (j : Nat) (hj : getSessionByTEID c m.hdr.teidAcc a = ok j) :
    ∃ c' out, serveK g p f c n s b (some k) ku a d true = ((c', n), [.sent a out], ok ()) ∧
      getSessionByIMSI c' (c.heap j).imsi = err .notFound := by
  obtain ⟨h1, h2⟩ := runsK_inv hg hp h
  obtain ⟨c', u, out, m', e1, _, _, _, _, _, _, _, e2, _⟩ := C98_delete g hg p cAddr uAddr hp c h1 s b k ku a d m hm hsc j hj
  have hn : (serveK g p f c n s b (some k) ku a d true).1.2 = n := by
    rcases serveK_kern g p f (runs_inv hg hp.control h1) n s b (some k) ku a d true with e | ⟨m₂, hm₂, hsc₂, _⟩
    · exact e
    · rw [hm] at hm₂; cases hm₂
      rw [hsc] at hsc₂
      exact absurd (congrArg Msg.Schema.name hsc₂) (by decide)
  obtain ⟨k1, k2, k3, k4⟩ := serveK_control g p f c n s b (some k) ku a d true
  refine ⟨c', out, ?_, e2⟩
  have k5 : (serveK g p f c n s b (some k) ku a d true).2.2 = ok () := by
    have ht : m.hdr.typ = 36 := by rw [typ_of hm, hsc]; rfl
    have hi := runs_inv hg hp.control h1
    rw [serve_delete hi s b (some k) (some ku) true hm hsc (Or.inr ⟨j, hj⟩)] at e1
    unfold serveK
    rw [serve_reaches hm ((handlers_app hi m.hdr.typ 1).2 (Or.inr ⟨ht, rfl⟩)) (Or.inr ⟨j, hj⟩) true]
    simp only
    rw [e1]
  rw [e1] at k1 k2
  exact Prod.ext (Prod.ext k1 hn) (Prod.ext k2 k5)

/-- departure: the answer says Request Accepted, and the session is there, before the tunnel is made; if that fails, nobody is told, and
there is no tunnel with the TEID in the answer -/
theorem C106_unset_wrong (g : UInt8 → Bool) (hg : Usual g) (p : Cfg) (cAddr uAddr : Bytes) (hp : OnV4 p cAddr uAddr) (c : Conn) (n : Kern)
    (h : RunsK g p c n) (s b : Nat) (k ku : UInt32) (a : Addr) (d : Bytes) (hs : Fresh c s) (hd : Drawn g c s b a d k)
    (hku : ku.toNat ∉ n.sys.reserved) (m : Message)
    (hm : parseMsg g d = ok m) (hsc : m.schema = Tab.createSessionRequest) (hr : Reaches c m.hdr.teidAcc a) (v : Request)
    (hv : Asks g m v) (e : UInt8) (he : ∀ i ∈ v.bearer, i.typ = 73 → i.ebi g = ok e) (hx : e = 0 ∨ ∃ i ∈ v.bearer, i.typ = 73)
    (h6 : ∀ i ∈ v.bearer, i.typ = 87 → i.interfaceType ≠ ok 6) (f : Faults) (hf : ∀ i, f.tun i = true) :
    ∃ c' n' out m', serveK g p f c n s b (some k) ku a d true = ((c', n'), [.sent a out], err .other) ∧
      (∀ A x aP, A.handlers.load 33 = some (.app x) → Reaches A v.teid aP →
        ∀ w, serveDatagram g A aP (asRead out) w = ([.call x aP m'], ok ())) ∧
      Accepts g m' v e k ku (some cAddr) (some uAddr) ∧ Holds c' s b a v e k ku ∧ (∀ src, ¬ n'.uplink ku.toNat src) ∧
      ∀ ms, n'.downlink ms = n.downlink ms := by
  obtain ⟨h1, h2⟩ := runsK_inv hg hp h
  obtain ⟨c', out, m', e1, _, e2, e3, _, e4, e5, _, _, e6, e7, _⟩ :=
    C98_create_partial g hg p cAddr uAddr hp c h1 s b k ku a d hs hd m hm hsc hr v hv e he hx h6
  have hk := serveK_create (f := f) (n := n) (runs_inv hg hp.control h1) hm hsc hr e1
  have hcall : ∀ (s : Sys) (q : PDP), s.enabled = true → call f.tun s (.override q) = (s, .done false) := by
    intro s q hen
    simp [V1.Tunnel.call, enter, hen, V1.Tunnel.step, kByMS, kByITEI, kAdd, hf]
  have hset : setup f (n.reserve ku) (tunnelOf m ku) = (n.reserve ku, false) := by
    unfold setup
    rw [hcall _ _ (reserve_inv h2 ku).enabled]
  rw [hset] at hk
  refine ⟨c', _, out, m', hk, e2, e5, e6, ?_, fun ms => rfl⟩
  rintro src ⟨l, k1, q, k2, k3, k4⟩
  obtain ⟨l', hl', hr'⟩ := h2.tuns
  have : n.sys.dev "gtp-pgw" = some l := k1
  rw [h2.dev hl'] at this; cases this
  exact hku (by rw [← k3]; exact hr' q k2)

/-- departure: whoever asks for an address gets its packets.  The request of another subscriber for the address `ms` of a session takes
its packets over, and the session is still there and active. -/
theorem C106_taken_wrong (g : UInt8 → Bool) (hg : Usual g) (p : Cfg) (cAddr uAddr : Bytes) (hp : OnV4 p cAddr uAddr) (c : Conn) (n : Kern)
    (h : RunsK g p c n) (s b : Nat) (k ku : UInt32) (a : Addr) (d : Bytes) (hs : Fresh c s) (hd : Drawn g c s b a d k)
    (hku : ku.toNat ∉ n.sys.reserved) (m : Message)
    (hm : parseMsg g d = ok m) (hsc : m.schema = Tab.createSessionRequest) (hr : Reaches c m.hdr.teidAcc a) (v : Request)
    (hv : Asks g m v) (e : UInt8) (he : ∀ i ∈ v.bearer, i.typ = 73 → i.ebi g = ok e) (hx : e = 0 ∨ ∃ i ∈ v.bearer, i.typ = 73)
    (h6 : ∀ i ∈ v.bearer, i.typ = 87 → i.interfaceType ≠ ok 6)
    (i : IE) (hi : LastFTEID v.bearer i) (peer ms : Bytes) (t : UInt32) (hpeer : peer.length = 4) (hms : ms.length = 4)
    (ha : i.ipAddress = ok (ipString peer)) (ht : i.teid = ok t) (hip : v.ip = ipString ms)
    (j : Nat) (imsi : Bytes) (hj : getSessionByIMSI c imsi = ok j) (hne : imsi ≠ v.imsi) (hjs : j ≠ s) (x : Nat) (hup : n.uplink x ms) :
    ∃ c' n' out r, serveK g p .zero c n s b (some k) ku a d true = ((c', n'), [.sent a out], r) ∧
      getSessionByIMSI c' imsi = ok j ∧ c'.heap j = c.heap j ∧ n'.downlink ms = some (peer, t.toNat) ∧ ¬ n'.uplink x ms := by
  obtain ⟨c', n', out, m', r, e1, _, _, _, _, _, _, ⟨o1, o2, _⟩, z1, z2, z3, _⟩ :=
    C106_attach_partial g hg p cAddr uAddr hp c n h s b k ku a d hs hd hku m hm hsc hr v hv e he hx h6 i hi peer ms t hpeer hms ha ht hip
  refine ⟨c', n', out, r, e1, by rw [o1 imsi hne]; exact hj, o2 j hjs, z1, fun hx => ?_⟩
  have : x = ku.toNat := (z3 x).1 hx
  obtain ⟨l, hl, hr'⟩ := (runsK_inv hg hp h).2.tuns
  obtain ⟨l1, k1, q, k2, k3, k4⟩ := hup
  rw [(runsK_inv hg hp h).2.dev hl] at k1; cases k1
  exact hku (by rw [← this, ← k3]; exact hr' q k2)

/-! ### examples -/

def exK : Kern := ⟨(enable .zero ⟨fun _ => none, false, none, false, [], []⟩ "gtp-pgw").1, [], false, []⟩
def exKGot (f : Faults) (x : Conn × Kern) (s : Nat) (k : UInt32) (d : Bytes) : (Conn × Kern) × Res Unit :=
  let r := serveK defaultGrouped exP f x.1 x.2 s s (some k) (k + 1) "s" d true
  (r.1, r.2.2)
def exKOn : (Conn × Kern) × Res Unit := exKGot .zero (start fun _ => exS0, exK) 0 7 exReq
def exKOff : (Conn × Kern) × Res Unit := exKGot .zero exKOn.1 1 8 (exDatagram Tab.deleteSessionRequest 7 10 [])
def exKAgain : (Conn × Kern) × Res Unit := exKGot .zero exKOff.1 2 9 exReq

example : RunsK defaultGrouped exP (start fun _ => exS0) exK :=
  .start _ _ .zero _ _ _ (by intro d l h; cases h) (by decide +kernel)

-- the subscriber is attached, detached, and attached again: the tunnel to the S-GW's TEID 101 is there from then on; the second time
-- there is an error although the tunnel has the new TEID
example : exKOn.2 = ok () ∧ exKOn.1.2.downlink [10, 9, 0, 1] = some ([10, 0, 0, 9], 101) ∧ exKOn.1.2.downlink [10, 9, 0, 2] = none ∧
    exKOn.1.2.sys.dev "gtp-pgw" = some [⟨[10, 0, 0, 9], [10, 9, 0, 1], 101, 8⟩] ∧
    exKOff.2 = ok () ∧ getSessionByIMSI exKOff.1.1 exIMSI = err .notFound ∧ exKOff.1.2.downlink [10, 9, 0, 1] = some ([10, 0, 0, 9], 101) ∧
    exKAgain.2 = err .other ∧ getSessionByIMSI exKAgain.1.1 exIMSI = ok 2 ∧ exKAgain.1.2.downlink [10, 9, 0, 1] = some ([10, 0, 0, 9], 101) ∧
    exKAgain.1.2.sys.dev "gtp-pgw" = some [⟨[10, 0, 0, 9], [10, 9, 0, 1], 101, 10⟩] := by
  decide +kernel

-- the tunnel cannot be made
example : let x := exKGot { Faults.zero with tun := fun _ => true } (start fun _ => exS0, exK) 0 7 exReq
    x.2 = err .other ∧ getSessionByIMSI x.1.1 exIMSI = ok 0 ∧ x.1.2.downlink [10, 9, 0, 1] = none ∧ x.1.2.sys.dev "gtp-pgw" = some [] := by
  decide +kernel

end Verif.V2.Pgw

/-! ### cases that meet the hypotheses -/

namespace Verif.V2.Pgw
open Res Send Conn NetIP V1.Tunnel Spec IPSpec

theorem exRunsK0 : RunsK defaultGrouped exP (start fun _ => exS0) exK :=
  .start _ _ .zero _ _ _ (by intro d l h; cases h) (by decide +kernel)
theorem exRunsK1 : RunsK defaultGrouped exP exKOn.1.1 exKOn.1.2 := by
  dsimp only [exKOn, exKGot]
  exact RunsK.datagram (start fun _ => exS0) exK 0 0 7 (7 + 1) "s" exReq .zero exRunsK0 exFresh0 exDrawn0 (by decide +kernel)
theorem exLast : LastFTEID exV.bearer (newIE 87 2 [0x84, 0, 0, 0, 101, 10, 0, 0, 9]) :=
  ⟨[newIE 73 0 [5]], [], rfl, rfl, fun _ h => by cases h⟩

example := C106_safe _ exUsual exP _ _ exOnV4 exKOn.1.1 exKOn.1.2 exRunsK1 1 1 9 10 "t" exReq (exFresh (by decide +kernel) (by decide +kernel))
  (exDrawn exReq_ok (by decide) (by decide +kernel)) .zero
example := C106_attach_partial _ exUsual exP _ _ exOnV4 _ _ exRunsK0 0 0 7 8 "s" exReq exFresh0 exDrawn0 (by decide +kernel) _ exReq_ok exReq_schema
  (.inl exReq_teid) exV exReq_asks 5 exEBI (.inr ⟨_, List.mem_cons_self, rfl⟩) exNot6 _ exLast [10, 0, 0, 9] [10, 9, 0, 1] 101 rfl rfl (by decide +kernel)
  (by decide +kernel) (by decide +kernel)
/-- a request for 10.9.0.1 does nothing to 10.9.0.2 -/
example := C106_undisturbed _ exUsual exP _ _ exOnV4 exKOn.1.1 exKOn.1.2 exRunsK1 1 1 9 10 "t" exReq (by decide +kernel) .zero true [10, 9, 0, 2] (by
  intro m v hm hs _ hv
  obtain rfl := ok.inj (exReq_ok.symm.trans hm)
  obtain ⟨i, r, e, h⟩ := ((asks_in exReq_schema v).1 hv).ip
  obtain ⟨i', r', e', h'⟩ := ((asks_in exReq_schema exV).1 exReq_asks).ip
  obtain ⟨rfl, rfl⟩ := List.cons.inj (e.symm.trans e')
  have hv : v.ip = exV.ip := ok.inj (h.symm.trans h')
  rw [hv]; decide +kernel)
example := C106_detach_wrong _ exUsual exP _ _ exOnV4 exKOn.1.1 exKOn.1.2 exRunsK1 1 1 9 10 "s" (exDelete 7) .zero _ exDelete_ok exDelete_schema 0 (by decide +kernel)
example := C106_unset_wrong _ exUsual exP _ _ exOnV4 _ _ exRunsK0 0 0 7 8 "s" exReq exFresh0 exDrawn0 (by decide +kernel) _ exReq_ok exReq_schema
  (.inl exReq_teid) exV exReq_asks 5 exEBI (.inr ⟨_, List.mem_cons_self, rfl⟩) exNot6 { Faults.zero with tun := fun _ => true } fun _ => rfl
/-- another subscriber asks for the same address -/
def exReq' : Bytes := exDatagram Tab.createSessionRequest 0 9 (exIEs.set 0 (some (newIE 1 0 [0x00, 0x01, 0x11, 0x32, 0x54, 0x76, 0x98, 0xf2])))
def exV' : Request := { exV with imsi := [48, 48, 49, 48, 49, 49, 50, 51, 52, 53, 54, 55, 56, 57, 50] }
theorem exReq'_ok : parseMsg defaultGrouped exReq' = ok (exMsg exReq') := exMsg_ok (by decide +kernel)
theorem exReq'_schema : (exMsg exReq').schema = Tab.createSessionRequest := exSchema _ (by simp [Tab.all]) exReq'_ok (by decide +kernel)
theorem exReq'_asks : Asks defaultGrouped (exMsg exReq') exV' := by
  have x := (asks_in exReq_schema exV).1 exReq_asks
  have hf : ∀ j ∈ (List.range 20).drop 1, (exMsg exReq').fields j = (exMsg exReq).fields j := by decide +kernel
  refine (asks_in exReq'_schema _).2 ⟨⟨newIE 1 0 [0x00, 0x01, 0x11, 0x32, 0x54, 0x76, 0x98, 0xf2], [], by decide +kernel, by decide +kernel⟩,
    ?_, ?_, ?_, ?_, ?_, ?_, ?_, ?_⟩ <;> rw [hf _ (by decide)]
  exacts [x.msisdn, x.imei, x.apn, x.plmn, x.rat, x.teid, x.kids, x.ip]
example := C106_taken_wrong _ exUsual exP _ _ exOnV4 exKOn.1.1 exKOn.1.2 exRunsK1 1 1 9 10 "s" exReq' (exFresh (by decide +kernel) (by decide +kernel))
  (exDrawn exReq'_ok (by decide) (by decide +kernel)) (by decide +kernel) _ exReq'_ok exReq'_schema
  (.inl (by decide +kernel)) exV' exReq'_asks 5 exEBI (.inr ⟨_, List.mem_cons_self, rfl⟩) exNot6 _ exLast [10, 0, 0, 9] [10, 9, 0, 1] 101 rfl rfl (by decide +kernel)
  (by decide +kernel) (by decide +kernel) 0 exIMSI (by decide +kernel) (by decide) (by decide) 8
  ⟨[⟨[10, 0, 0, 9], [10, 9, 0, 1], 101, 8⟩], by decide +kernel, _, List.mem_cons_self, rfl, rfl⟩

end Verif.V2.Pgw
