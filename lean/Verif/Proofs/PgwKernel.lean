import Verif.Model.PgwKernel
import Verif.Props.Pgw
import Verif.Props.Tunnel
/-
Helper lemmas for Props/PgwKernel.lean.
-/
namespace Verif.V2.Pgw
open Res Send Conn NetIP V1.Tunnel Spec IPSpec

theorem call_ok (f : Nat → Bool) (s : Sys) (c : Call) (hs : s.Ok) : (call f s c).1.Ok :=
  call_inv (fun s _ => s.Ok) f s c (fun _ _ _ h => step_ok _ _ _ h) hs

theorem find_ms {l : List PDP} (h : Distinct l) (a : Bytes) (q : PDP) : l.find? (fun q => q.ms = a) = some q ↔ q ∈ l ∧ q.ms = a := by
  constructor
  · intro e
    exact ⟨List.mem_of_find?_eq_some e, by simpa using List.find?_some e⟩
  · rintro ⟨hq, hm⟩
    cases e : l.find? (fun q => q.ms = a) with
    | none => have := List.find?_eq_none.1 e q hq; simp [hm] at this
    | some x =>
      have h1 : x.ms = a := by simpa using List.find?_some e
      rw [h x (List.mem_of_find?_eq_some e) q hq (Or.inl (h1.trans hm.symm))]

theorem find_same {l l' : List PDP} (h : Distinct l) (h' : Distinct l') (a : Bytes) (hl : ∀ q, q.ms = a → (q ∈ l' ↔ q ∈ l)) :
    l'.find? (fun q => q.ms = a) = l.find? (fun q => q.ms = a) := by
  apply Option.ext
  intro q
  rw [find_ms h, find_ms h']
  exact ⟨fun ⟨x, y⟩ => ⟨(hl q y).1 x, y⟩, fun ⟨x, y⟩ => ⟨(hl q y).2 x, y⟩⟩

/-- the kernel as the P-GW finds it between two datagrams -/
structure KInv (n : Kern) : Prop where
  ok : n.sys.Ok
  enabled : n.sys.enabled = true
  link : n.sys.link = some ("gtp-pgw", true)
  tuns : ∃ l, n.sys.tuns = some l ∧ ∀ q ∈ l, q.itei ∈ n.sys.reserved

theorem KInv.dev {n : Kern} (h : KInv n) {l : List PDP} (hl : n.sys.tuns = some l) : n.sys.dev "gtp-pgw" = some l := by
  obtain ⟨d, e, k⟩ := tuns_dev hl
  rw [h.link] at e
  cases e; exact k

/-- setupUPlane whatever fails -/
theorem setup_any (f : Faults) {n : Kern} (h : KInv n) (p : PDP) {l : List PDP} (hl : n.sys.tuns = some l) :
    (setup f n p).1.sys = (call f.tun n.sys (.override p)).1 ∧
    (∃ l', (setup f n p).1.sys.tuns = some l' ∧ (∀ q ∈ l', q = p ∨ q ∈ l) ∧ ∀ q ∈ l, q.ms ≠ p.ms → q.itei ≠ p.itei → q ∈ l') ∧
    (∀ x, x ≠ p.ms → (x ∈ (setup f n p).1.rules ↔ x ∈ n.rules)) ∧
    (∀ x, x ≠ p.ms → (setup f n p).1.down.find? (fun y => y.1 = x) = n.down.find? (fun y => y.1 = x)) := by
  have hsys : (setup f n p).1.sys = (call f.tun n.sys (.override p)).1 := by
    unfold setup
    split
    · rename_i s e
      rw [e]
      simp only
      split <;> try rfl
      split <;> try rfl
      split <;> try rfl
      split <;> try rfl
      split <;> rfl
    · rename_i s pc _ e
      rw [e]
  refine ⟨hsys, ?_, ?_, ?_⟩
  · rw [hsys]
    obtain ⟨ok, hok⟩ := C69_returns f.tun n.sys (.override p)
    cases ok with
    | true =>
      obtain ⟨l1, l', e1, e2, e3⟩ := C69_override f.tun n.sys p h.ok hok
      rw [hl] at e1; cases e1
      refine ⟨l', e2, fun q hq => ?_, fun q hq h1 h2 => (e3 q).2 (Or.inr ⟨hq, h1, h2⟩)⟩
      rcases (e3 q).1 hq with e | e
      · exact Or.inl e
      · exact Or.inr e.1
    | false =>
      obtain ⟨l', e1, e2, e3⟩ := C69_override_fails f.tun n.sys p l h.ok hl hok
      exact ⟨l', e1, fun q hq => Or.inr (e2 q hq), e3⟩
  · intro x hx
    unfold setup
    split
    · simp only
      split; · rfl
      split; · rfl
      split; · rfl
      split; · rfl
      split; · rfl
      simp [hx]
    · rfl
  · intro x hx
    have hf : ∀ d : String, ((p.ms, d) :: n.down.filter (fun y => y.1 ≠ p.ms)).find? (fun y => y.1 = x) = n.down.find? (fun y => y.1 = x) := by
      intro d
      rw [List.find?_cons_of_neg (by simpa using fun e => hx e.symm), List.find?_filter]
      congr 1
      funext y
      by_cases e : y.1 = x
      · simp [e, hx]
      · simp [e]
    unfold setup
    split
    · simp only
      split; · rfl
      split; · exact hf _
      split; · exact hf _
      split; · exact hf _
      split; · exact hf _
      exact hf _
    · rfl

theorem setup_inv (f : Faults) {n : Kern} (h : KInv n) (p : PDP) (hp : p.itei ∈ n.sys.reserved) : KInv (setup f n p).1 := by
  obtain ⟨l, hl, hr⟩ := h.tuns
  obtain ⟨e, ⟨l', h1, h2, _⟩, _⟩ := setup_any f h p hl
  obtain ⟨f1, f2, _⟩ := C69_frame f.tun n.sys (.override p)
  have f3 := (C69_reserved f.tun n.sys p).2
  refine ⟨by rw [e]; exact call_ok _ _ _ h.ok, by rw [e, f2]; exact h.enabled, by rw [e, f1]; exact h.link, l', h1, fun q hq => ?_⟩
  rw [e, f3]
  rcases h2 q hq with rfl | k
  · exact hp
  · exact hr q k

/-- what another address gets -/
theorem setup_others (f : Faults) {n : Kern} (h : KInv n) (p : PDP) (hp : ∀ l, n.sys.tuns = some l → ∀ q ∈ l, q.itei ≠ p.itei)
    (x : Bytes) (hx : x ≠ p.ms) :
    (setup f n p).1.downlink x = n.downlink x ∧ ∀ t, (setup f n p).1.uplink t x ↔ n.uplink t x := by
  obtain ⟨l, hl, hr⟩ := h.tuns
  obtain ⟨e, ⟨l', h1, h2, h3⟩, h4, h5⟩ := setup_any f h p hl
  obtain ⟨f1, _, _, f4⟩ := C69_frame f.tun n.sys (.override p)
  have hq : ∀ q : PDP, q.ms = x → (q ∈ l' ↔ q ∈ l) := by
    intro q hm
    constructor
    · intro k
      rcases h2 q k with rfl | k
      · exact absurd hm.symm hx
      · exact k
    · intro k
      exact h3 q k (by rw [hm]; exact hx) (hp l hl q k)
  have hok : (setup f n p).1.sys.Ok := by rw [e]; exact call_ok _ _ _ h.ok
  have hd := h.dev hl
  have hd' : (setup f n p).1.sys.dev "gtp-pgw" = some l' := by
    obtain ⟨d, k1, k2⟩ := tuns_dev h1
    rw [e, f1, h.link] at k1
    cases k1; exact k2
  refine ⟨?_, fun t => ?_⟩
  · unfold Kern.downlink
    rw [h5 x hx]
    by_cases hm : x ∈ n.rules
    · rw [if_pos hm, if_pos ((h4 x hx).2 hm)]
      cases n.down.find? (fun y => y.1 = x) with
      | none => rfl
      | some y =>
        simp only
        by_cases hy : y.2 = "gtp-pgw"
        · rw [hy, hd, hd']
          simp only
          rw [find_same (h.ok _ _ hd) (hok _ _ hd') x hq]
        · rw [e, f4 y.2 (fun b k => by rw [h.link] at k; simp only [Option.some.injEq, Prod.mk.injEq] at k; exact hy k.1.symm)]
    · rw [if_neg hm, if_neg (fun k => hm ((h4 x hx).1 k))]
  · unfold Kern.uplink
    rw [hd, hd']
    constructor
    · rintro ⟨l1, e1, q, k1, k2, k3⟩
      cases e1
      exact ⟨l, rfl, q, (hq q k3).1 k1, k2, k3⟩
    · rintro ⟨l1, e1, q, k1, k2, k3⟩
      cases e1
      exact ⟨l', rfl, q, (hq q k3).2 k1, k2, k3⟩

/-- setupUPlane when nothing fails -/
theorem setup_zero {n : Kern} (h : KInv n) (p : PDP) :
    ((setup .zero n p).2 = true ↔ p.ms ∉ n.rules) ∧ (setup .zero n p).1.downlink p.ms = some (p.peer, p.otei) ∧
    (setup .zero n p).1.uplink p.itei p.ms ∧ (∀ src, (setup .zero n p).1.uplink p.itei src → src = p.ms) ∧
    (∀ t, (setup .zero n p).1.uplink t p.ms → t = p.itei) := by
  obtain ⟨l, hl, hr⟩ := h.tuns
  have hs := C69_override_succeeds (fun _ => false) (fun _ => rfl) n.sys p l h.ok hl h.enabled
  obtain ⟨l1, l', e1, e2, e3⟩ := C69_override _ n.sys p h.ok hs
  rw [hl] at e1; cases e1
  obtain ⟨f1, _⟩ := C69_frame (fun _ => false) n.sys (.override p)
  have hok := call_ok (fun _ => false) n.sys (.override p) h.ok
  have hd' : (call (fun _ => false) n.sys (.override p)).1.dev "gtp-pgw" = some l' := by
    obtain ⟨d, k1, k2⟩ := tuns_dev e2
    rw [f1, h.link] at k1
    cases k1; exact k2
  have hp : p ∈ l' := (e3 p).2 (Or.inl rfl)
  have heq : setup .zero n p =
      if p.ms ∈ n.rules then (⟨(call (fun _ => false) n.sys (.override p)).1,
        (p.ms, "gtp-pgw") :: n.down.filter (fun x => x.1 ≠ p.ms), true, n.rules⟩, false)
      else (⟨(call (fun _ => false) n.sys (.override p)).1,
        (p.ms, "gtp-pgw") :: n.down.filter (fun x => x.1 ≠ p.ms), true, p.ms :: n.rules⟩, true) := by
    have hl' : (call (fun _ => false) n.sys (.override p)).1.link = some ("gtp-pgw", true) := by rw [f1]; exact h.link
    unfold setup
    simp only [Faults.zero]
    split
    · rename_i s e
      rw [e] at hl'
      rw [hl', e]
      simp
    · rename_i s pc hne e
      rw [e] at hs
      exact absurd hs hne
  have hu : (setup .zero n p).1.sys.dev "gtp-pgw" = some l' := by rw [heq]; split <;> exact hd'
  have huniq := hok _ _ hd'
  refine ⟨?_, ?_, ⟨l', hu, p, hp, rfl, rfl⟩, ?_, ?_⟩
  · rw [heq]; split <;> simp_all
  · have hr : p.ms ∈ (setup .zero n p).1.rules := by rw [heq]; split <;> simp_all
    have hdn : (setup .zero n p).1.down.find? (fun x => x.1 = p.ms) = some (p.ms, "gtp-pgw") := by rw [heq]; split <;> simp
    unfold Kern.downlink
    rw [if_pos hr, hdn]
    simp only [hu]
    rw [(find_ms huniq p.ms p).2 ⟨hp, rfl⟩]
    rfl
  · rintro src ⟨l1, k1, q, k2, k3, k4⟩
    rw [hu] at k1; cases k1
    rw [← k4, huniq q k2 p hp (Or.inr k3)]
  · rintro t ⟨l1, k1, q, k2, k3, k4⟩
    rw [hu] at k1; cases k1
    rw [← k3, huniq q k2 p hp (Or.inl k4)]

theorem reserve_inv {n : Kern} (h : KInv n) (ku : UInt32) : KInv (n.reserve ku) := by
  obtain ⟨l, hl, hr⟩ := h.tuns
  exact ⟨h.ok, h.enabled, h.link, l, hl, fun q hq => List.mem_cons_of_mem _ (hr q hq)⟩

/-- a tunnel with a TEID just drawn -/
theorem drawn_others (f : Faults) {n : Kern} (h : KInv n) (p : PDP) (ku : UInt32) (hku : ku.toNat ∉ n.sys.reserved) (hp : p.itei = ku.toNat)
    (x : Bytes) (hx : x ≠ p.ms) :
    (setup f (n.reserve ku) p).1.downlink x = n.downlink x ∧ ∀ t, (setup f (n.reserve ku) p).1.uplink t x ↔ n.uplink t x := by
  obtain ⟨l, hl, hr⟩ := h.tuns
  refine setup_others f (reserve_inv h ku) p (fun l' hl' q hq e => ?_) x hx
  have hl'' : n.sys.tuns = some l' := hl'
  rw [hl] at hl''; cases hl''
  exact hku (by rw [← hp, ← e]; exact hr q hq)

theorem enable_inv (f : EnableFaults) (s : Sys) (hs : s.Ok) (h : (enable f s "gtp-pgw").2 = true) (down : List (Bytes × String)) (up : Bool)
    (rules : List Bytes) : KInv ⟨(enable f s "gtp-pgw").1, down, up, rules⟩ := by
  obtain ⟨_, h2, h3, _, _, h6⟩ := C69_enable f s "gtp-pgw" h
  have hl : (enable f s "gtp-pgw").1.link = some ("gtp-pgw", true) := by
    unfold enable at h ⊢
    by_cases c1 : s.sock = false ∧ f.sock = true
    · rw [if_pos c1] at h; simp at h
    · rw [if_neg c1] at h ⊢
      simp only at h ⊢
      by_cases c2 : f.file = true
      · rw [if_pos c2] at h; simp at h
      · rw [if_neg c2] at h ⊢
        by_cases c3 : f.add = true ∨ (s.dev "gtp-pgw").isSome = true
        · rw [if_pos c3] at h; simp at h
        · rw [if_neg c3] at h ⊢
          by_cases c4 : f.setUp = true
          · rw [if_pos c4] at h; simp at h
          · rw [if_neg c4] at h ⊢
            by_cases c5 : f.setMTU = true
            · rw [if_pos c5] at h; simp at h
            · rw [if_neg c5]
  refine ⟨?_, h2, hl, [], h3, by simp⟩
  intro d l hd
  by_cases e : d = "gtp-pgw"
  · obtain ⟨d', k1, k2⟩ := tuns_dev h3
    rw [hl] at k1
    cases k1
    subst e
    have hd' : (enable f s "gtp-pgw").1.dev "gtp-pgw" = some l := hd
    rw [k2] at hd'; cases hd'
    intro p hp; cases hp
  · exact hs d l (by rw [← h6 d e]; exact hd)

theorem draws_of_ok {g : UInt8 → Bool} {p : Cfg} {s b : Nat} {k ku : Option UInt32} {a : Addr} {m : Message} {w : Bool} {c c' : Conn}
    {ev : List Ev} {u : Unit} (h : handleCreate g p s b k ku a m w c = (c', ev, ok u)) : draws g p s b k a m c = true := by
  unfold handleCreate at h
  split at h
  · simp [lift] at h
  · obtain ⟨c1, e1, ip, e2, h1, h2, _⟩ := bind_inv h
    obtain ⟨c3, e3, _, e4, h3, h4, _⟩ := bind_inv h2
    unfold accept at h3
    obtain ⟨c5, e5, cf, e6, h5, h6, _⟩ := bind_inv h3
    unfold draws
    rw [bind_def]
    unfold H.bind
    rw [h1]
    simp only
    rw [h5]

theorem vals_of_draws {g : UInt8 → Bool} {p : Cfg} {s b : Nat} {k : Option UInt32} {a : Addr} {m : Message} {c : Conn}
    (h : draws g p s b k a m c = true) : ∃ v : Vals, v.In g m := by
  unfold draws at h
  split at h
  · rename_i c1 e1 cf hh
    obtain ⟨_, _, ip, _, h1, _, _⟩ := bind_inv hh
    obtain ⟨v, hv, _⟩ := read_inv g s b a m c _ _ ip h1
    exact ⟨v, hv⟩
  · cases h

theorem ret (b : Bool) : Returns (if b then ok () else err .other : Res Unit) := by cases b <;> simp

/-- the control plane does as without the kernel -/
theorem serveK_control (g : UInt8 → Bool) (p : Cfg) (f : Faults) (c : Conn) (n : Kern) (s b : Nat) (k : Option UInt32) (ku : UInt32) (a : Addr)
    (d : Bytes) (w : Bool) : (serveK g p f c n s b k ku a d w).1.1 = (serve g p c s b k (some ku) a d w).1 ∧
    (serveK g p f c n s b k ku a d w).2.1 = (serve g p c s b k (some ku) a d w).2.1 ∧
    ((serve g p c s b k (some ku) a d w).2.2 ≠ ok () → (serveK g p f c n s b k ku a d w).2.2 = (serve g p c s b k (some ku) a d w).2.2) ∧
    (Returns (serve g p c s b k (some ku) a d w).2.2 → Returns (serveK g p f c n s b k ku a d w).2.2) := by
  unfold serveK serve
  split
  · rename_i a' m u e
    rw [e]
    simp only
    split
    · rename_i c' ev u' e'
      rw [e']
      refine ⟨rfl, rfl, fun h => absurd rfl h, fun _ => ?_⟩
      exact ret _
    · rename_i c' ev r _ e'
      rw [e']
      exact ⟨rfl, rfl, fun _ => rfl, fun h => h⟩
  · rename_i a' m u e
    rw [e]
    exact ⟨rfl, rfl, fun _ => rfl, fun h => h⟩
  · rename_i ev r e1 e2 e3
    rw [e3]
    split
    · rename_i e4; exact absurd e4 (by simpa using e1 _ _ _)
    · rename_i e4; exact absurd e4 (by simpa using e2 _ _ _)
    · rename_i ev' r' _ _ e6
      obtain ⟨rfl, rfl⟩ := Prod.mk.inj e6
      exact ⟨rfl, rfl, fun _ => rfl, fun h => h⟩

theorem serveK_create {g : UInt8 → Bool} {p : Cfg} {f : Faults} {c c' : Conn} {n : Kern} {s b : Nat} {k : Option UInt32} {ku : UInt32} {a : Addr}
    {d : Bytes} {w : Bool} (hi : Inv c) {m : Message} (hm : parseMsg g d = ok m) (hsc : m.schema = Tab.createSessionRequest)
    (hr : Reaches c m.hdr.teidAcc a) {ev : List Ev} (h : serve g p c s b k (some ku) a d w = (c', ev, ok ())) :
    serveK g p f c n s b k ku a d w = ((c', (setup f (n.reserve ku) (tunnelOf m ku)).1), ev,
      if (setup f (n.reserve ku) (tunnelOf m ku)).2 then ok () else err .other) := by
  have ht : m.hdr.typ = 32 := by rw [typ_of hm, hsc]; rfl
  rw [serve_create hi s b k (some ku) w hm hsc hr] at h
  unfold serveK
  rw [serve_reaches hm ((handlers_app hi m.hdr.typ 0).2 (Or.inl ⟨ht, rfl⟩)) hr w]
  simp only
  rw [draws_of_ok h, h]
  rfl

/-- what may happen to the kernel -/
theorem serveK_kern (g : UInt8 → Bool) (p : Cfg) (f : Faults) {c : Conn} (hi : Inv c) (n : Kern) (s b : Nat) (k : Option UInt32) (ku : UInt32)
    (a : Addr) (d : Bytes) (w : Bool) :
    (serveK g p f c n s b k ku a d w).1.2 = n ∨
    ∃ m, parseMsg g d = ok m ∧ m.schema = Tab.createSessionRequest ∧ Reaches c m.hdr.teidAcc a ∧ (∃ v : Vals, v.In g m) ∧
      ((serveK g p f c n s b k ku a d w).1.2 = n.reserve ku ∨
       (serveK g p f c n s b k ku a d w).1.2 = (setup f (n.reserve ku) (tunnelOf m ku)).1) := by
  by_cases hc : ∃ a' m, (serveDatagram g c a d w) = ([Ev.call 0 a' m], ok ())
  · obtain ⟨a', m, hc⟩ := hc
    obtain ⟨r1, r2⟩ := C35_reaches_partial g c a d w 0 a' m
    obtain ⟨hp, rfl, hh, hv⟩ := r1.1 (by rw [hc]; simp)
    have hreach : Reaches c m.hdr.teidAcc a' := by
      rcases hv hi.validation with e | ⟨s, h1, h2⟩
      · exact Or.inl e
      · refine Or.inr ⟨s, ?_⟩
        unfold getSessionByTEID
        simp [h1, h2]
    have hsc : m.schema = Tab.createSessionRequest := by
      rcases (handlers_app hi _ _).1 hh with ⟨e1, _⟩ | ⟨_, e⟩
      · exact schema_of hp (by simp [Tab.all]) e1
      · cases e
    cases hd : draws g p s b k a' m c with
    | false =>
      refine Or.inl ?_
      unfold serveK
      rw [hc]
      simp only [hd]
      split
      · rename_i e; rw [draws_of_ok e] at hd; cases hd
      · rfl
    | true =>
      refine Or.inr ⟨m, hp, hsc, hreach, vals_of_draws hd, ?_⟩
      unfold serveK
      rw [hc]
      simp only [hd]
      split
      · exact Or.inr rfl
      · exact Or.inl rfl
  · refine Or.inl ?_
    unfold serveK
    split
    · rename_i a' m _ e; exact absurd ⟨a', m, e⟩ hc
    · rfl
    · rfl

theorem userEnd_last {l pre post : List IE} {i : IE} (hl : l = pre ++ i :: post) (ht : i.typ = 87) (hp : ∀ j ∈ post, j.typ ≠ 87) {x : Bytes}
    {t : UInt32} (hx : i.ipAddress = ok x) (hi : i.teid = ok t) : userEnd l = (x, t) := by
  have hpost : ∀ (q : List IE) (y : Bytes × UInt32), (∀ j ∈ q, j.typ ≠ 87) →
      q.foldl (fun x i => if i.typ = 87 then (valOr i.ipAddress x.1, valOr i.teid x.2) else x) y = y := by
    intro q
    induction q with
    | nil => intro y _; rfl
    | cons j q ih =>
      intro y h
      rw [List.foldl_cons, if_neg (h j (by simp))]
      exact ih y (fun j hj => h j (by simp [hj]))
  subst hl
  unfold userEnd
  rw [List.foldl_append, List.foldl_cons, if_pos ht, hpost post _ hp, hx, hi]
  rfl

theorem octets_v4 {a : Bytes} (h : a.length = 4) : octets (ipString a) = a := by
  unfold octets
  rw [(v4_text h).2.2.2]
  rfl

theorem tunnelOf_eq {g : UInt8 → Bool} {m : Message} {v : Vals} (hv : v.In g m) (ku : UInt32) :
    tunnelOf m ku = ⟨octets (userEnd v.kids).1, octets v.ip, (userEnd v.kids).2.toNat, ku.toNat⟩ := by
  obtain ⟨i, r, h1, h2, _⟩ := hv.kids
  obtain ⟨i', r', h3, h4⟩ := hv.ip
  unfold tunnelOf
  rw [h1, h3]
  simp [h2, h4, valOr]

end Verif.V2.Pgw
