import Verif.Model.UPath
import Verif.Props.UConn
import Verif.Props.USwitch
/-
C84: user data crosses any number of relays unchanged (gtpv1/u-conn.go, tunnel.go).
-/
namespace Verif.V1.UPath
open Res UConn Spec

/-- the tunnels lead from TEID `t` at address `a` to TEID `t'` at address `a'`: at every connection between, RelayTo was called
for the TEID that arrives, with the TEID and the address that come next -/
inductive Route (net : Net) (l : List Step) : Addr → UInt32 → Addr → UInt32 → Prop
  | here (a : Addr) (t : UInt32) : Route net l a t a t
  | hop {a : Addr} {t : UInt32} {a1 : Addr} {t1 : UInt32} {n : Nat} {p : Peer} :
      Route net l a t a1 t1 → net.at_ a1 = some n → Step.op n (.relayTo t1 p) ∈ l → Route net l a t p.addr p.teid

theorem Route.mono {net : Net} {l : List Step} {a t a' t'} (h : Route net l a t a' t') (x : Step) :
    Route net (l ++ [x]) a t a' t' := by
  induction h with
  | here => exact .here _ _
  | hop _ h1 h2 ih => exact .hop ih h1 (List.mem_append_left _ h2)

theorem parseMsg_msg_type {b : Bytes} {m : Message} (hp : parseMsg b = ok (.msg m)) : b[1]? ≠ some 255 := by
  intro h1
  unfold parseMsg at hp
  split at hp
  · cases hp
  · have hi : idx b 1 = ok 255 := by unfold idx; rw [h1]
    rw [hi, bind_ok] at hp
    simp only [beq_self_eq_true, if_true] at hp
    rw [bind_eq_ok] at hp
    obtain ⟨_, _, hp⟩ := hp
    cases hp

theorem be32_inj {t t' : UInt32} (h : be32 t = be32 t') : t = t' := by
  have h1 : rd32 (be32 t) = ok t := by simp
  have h2 : rd32 (be32 t') = ok t' := by simp
  rw [h, h2] at h1
  simpa using h1.symm

theorem retag_teid {f l0 l1 : UInt8} {t : UInt32} {r : Bytes} {h : Header}
    (hp : parseMsg ([f, 255, l0, l1] ++ be32 t ++ r) = ok (.tpdu h)) : h.teid = t := by
  obtain ⟨f', l0', l1', r', e⟩ := split_tpdu hp
  have := congrArg (fun l => (l.drop 4).take 4) e
  obtain ⟨_, _, _, _, e1, _⟩ := V2.be32_cases t
  obtain ⟨_, _, _, _, e2, _⟩ := V2.be32_cases h.teid
  apply be32_inj
  rw [e1, e2] at this ⊢
  simpa using this.symm

theorem parseMsg_gpdu (f l0 l1 : UInt8) (t : UInt32) (r : Bytes) :
    parseMsg ([f, 255, l0, l1] ++ be32 t ++ r) =
      (Header.parse ([f, 255, l0, l1] ++ be32 t ++ r) >>= fun h => ok (.tpdu h)) := by
  obtain ⟨x, y, z, w, e, _⟩ := V2.be32_cases t
  rw [e]
  unfold parseMsg
  rw [if_neg (by simp)]
  rfl

/-- what a T-PDU parses to depends on its TEID only in the TEID -/
theorem parse_retag (f l0 l1 : UInt8) (t t' : UInt32) (r : Bytes) (h : Header)
    (hp : parseMsg ([f, 255, l0, l1] ++ be32 t ++ r) = ok (.tpdu h)) :
    parseMsg ([f, 255, l0, l1] ++ be32 t' ++ r) = ok (.tpdu { h with teid := t' }) := by
  rw [parseMsg_gpdu, bind_eq_ok] at hp
  obtain ⟨h', hh, he⟩ := hp
  simp only [ok.injEq, AnyMsg.tpdu.injEq] at he
  subst he
  rw [parseMsg_gpdu]
  suffices Header.parse ([f, 255, l0, l1] ++ be32 t' ++ r) = ok { h' with teid := t' } by rw [this]; rfl
  rw [Header.parse_eq] at hh ⊢
  obtain ⟨x, y, z, w, e, hv⟩ := V2.be32_cases t
  obtain ⟨x', y', z', w', e', hv'⟩ := V2.be32_cases t'
  rw [e] at hh
  rw [e']
  simp only [Header.parseSpec, List.cons_append, List.nil_append, hv, hv', UInt32.ofNat_toNat] at hh ⊢
  repeat' split at hh
  all_goals try cases hh
  all_goals simp_all
  all_goals (repeat rw [if_neg (by omega)])

theorem handle_events (u : UConn) (hs : u.Sane) (a : Addr) (raw : Bytes) (w : Bool) (e : Ev)
    (he : e ∈ (parseAndHandle u a raw w).1) :
    (∃ h, parseMsg raw = ok (.tpdu h) ∧ e = .offered a h.teid h.seq h.payload) ∨
    (∃ c dst b, e = .sent c dst b ∧ b[1]? ≠ some 255) ∨ ∃ id m, e = .call id a m := by
  unfold parseAndHandle at he
  split at he
  · rename_i m hm
    unfold handleMessage at he
    split at he
    · cases he
    · rename_i hd _
      cases hd with
      | app id =>
        simp only [handle, List.mem_singleton] at he
        exact Or.inr (Or.inr ⟨_, _, he⟩)
      | echoResponse => cases he
      | errorIndication => cases he
      | echoRequest =>
        simp only [handle, handleEchoRequest] at he
        split at he
        · cases he
        · split at he
          · cases he
          · rename_i _ _ x _ _
            obtain ⟨m', b, _, h2, _, _, _, _, h7⟩ := respondTo_echo u a (.msg x) w
            rw [h7] at he
            unfold writeTo at he
            split at he
            · simp only [List.mem_singleton] at he
              exact Or.inr (Or.inl ⟨_, _, b, he, parseMsg_msg_type h2⟩)
            · cases he
      | tpdu =>
        simp only [handle, handleTPDU] at he
        split at he
        · cases he
        · rename_i h _
          split at he
          · obtain ⟨m', b, h1, _, _, h2, _⟩ := errInd_ok u hs h.seq h.teid
            have e : sendErrorIndication u a h w = writeTo u a b w := by
              unfold sendErrorIndication errorIndication
              rw [h1]
            rw [e] at he
            unfold writeTo at he
            cases w with
            | true =>
              simp only [if_true, List.mem_singleton] at he
              exact Or.inr (Or.inl ⟨_, _, b, he, parseMsg_msg_type h2⟩)
            | false => simp at he
          · simp only [List.mem_singleton] at he
            exact Or.inl ⟨h, hm, he⟩
  all_goals cases he

theorem split8 {raw : Bytes} (h1 : idx raw 1 = ok 255) (hl : 11 ≤ raw.length) :
    ∃ f l0 l1 t r, raw = [f, 255, l0, l1] ++ be32 t ++ r ∧ (slice raw 4 8 >>= rd32) = ok t := by
  match raw, hl, h1 with
  | x0 :: x1 :: x2 :: x3 :: y0 :: y1 :: y2 :: y3 :: r, _, h1 =>
    have e1 : x1 = 255 := by simpa [idx] using h1
    subst e1
    have e : x0 :: 255 :: x2 :: x3 :: y0 :: y1 :: y2 :: y3 :: r = [x0, 255, x2, x3] ++ be32 (UInt32.ofNat
        (y0.toNat * 16777216 + y1.toNat * 65536 + y2.toNat * 256 + y3.toNat)) ++ r := by
      rw [be32_rd32]; rfl
    exact ⟨x0, x2, x3, _, r, e, by rw [e]; exact slice_teid _ _ _ _ _ _⟩

theorem serve_events (u : UConn) (hs : u.Sane) (seen : Bool) (a : Addr) (d : Bytes) (w : Bool) (e : Ev)
    (he : e ∈ (serve u seen a d w).1) :
    (∃ h, parseMsg (d.take 1500) = ok (.tpdu h) ∧ e = .offered a h.teid h.seq h.payload) ∨
    (∃ c dst b, e = .sent c dst b ∧ b[1]? ≠ some 255) ∨ (∃ id m, e = .call id a m) ∨
    ∃ f l0 l1 t r p, d.take 1500 = [f, 255, l0, l1] ++ be32 t ++ r ∧ u.relay.load t = some p ∧
      e = .sent p.conn p.addr ([f, 255, l0, l1] ++ be32 p.teid ++ r) := by
  have base : ∀ e ∈ (parseAndHandle u a (d.take 1500) w).1,
    (∃ h, parseMsg (d.take 1500) = ok (.tpdu h) ∧ e = .offered a h.teid h.seq h.payload) ∨
    (∃ c dst b, e = .sent c dst b ∧ b[1]? ≠ some 255) ∨ (∃ id m, e = .call id a m) ∨
    ∃ f l0 l1 t r p, d.take 1500 = [f, 255, l0, l1] ++ be32 t ++ r ∧ u.relay.load t = some p ∧
      e = .sent p.conn p.addr ([f, 255, l0, l1] ++ be32 p.teid ++ r) := by
    intro e he
    rcases handle_events u hs a _ w e he with h | h | h
    · exact Or.inl h
    · exact Or.inr (Or.inl h)
    · exact Or.inr (Or.inr (Or.inl h))
  unfold serve process at he
  split at he
  · split at he
    · rename_i t ht
      split at he
      · rename_i h255
        simp only [beq_iff_eq] at h255
        subst h255
        split at he
        · cases he
        · rename_i hl
          obtain ⟨f, l0, l1, t, r, hd, hsl⟩ := split8 ht (by omega)
          rw [hsl] at he
          simp only at he
          split at he
          · exact base e he
          · rename_i p hp
            refine Or.inr (Or.inr (Or.inr ⟨f, l0, l1, t, r, p, hd, hp, ?_⟩))
            have hc : copyAt (d.take 1500) 4 8 (be32 p.teid) = ok ([f, 255, l0, l1] ++ be32 p.teid ++ r) := by
              rw [hd, copy_teid]
            unfold relayOut at he
            rw [hc] at he
            simp only at he
            split at he
            · split at he
              · simpa using he
              · cases he
            · cases he
      · exact base e he
    all_goals cases he
  · exact base e he

/-- the operations on connection n -/
def opsOf (n : Nat) : List Step → List Op := List.filterMap fun | .op k o => if k = n then some o else none | _ => none

/-- the datagram `b` on its way to `a'` is `d`, which was sent to `a`, but for the TEID and the octets cut off by a buffer, and the
tunnels lead that way -/
def Carried (net : Net) (l : List Step) (a : Addr) (d : Bytes) (a' : Addr) (b : Bytes) : Prop :=
  (a' = a ∧ b = d) ∨
  ∃ f l0 l1 t t' r, d.take 1500 = [f, 255, l0, l1] ++ be32 t ++ r ∧ b = [f, 255, l0, l1] ++ be32 t' ++ r ∧
    Route net l a t a' t'

structure Inv (net : Net) (l : List Step) (s : State) : Prop where
  conns : ∀ n, s.conns n = applyAll (newUConn n (net.ip n) net.opened) (opsOf n l)
  flights : ∀ x ∈ s.flights, x.2.2[1]? ≠ some 255 ∨ ∃ n a d, Step.send n a d ∈ l ∧ Carried net l a d x.2.1 x.2.2
  offered : ∀ x ∈ s.offered, ∃ n a d h a', Step.send n a d ∈ l ∧ parseMsg (d.take 1500) = ok (.tpdu h) ∧
    x.2.2.2.2 = h.payload ∧ x.2.2.2.1 = h.seq ∧ Route net l a h.teid a' x.2.2.1 ∧ net.at_ a' = some x.1

theorem Carried.mono {net : Net} {l : List Step} {a d a' b} (h : Carried net l a d a' b) (x : Step) :
    Carried net (l ++ [x]) a d a' b := by
  rcases h with h | ⟨f, l0, l1, t, t', r, h1, h2, h3⟩
  · exact Or.inl h
  · exact Or.inr ⟨f, l0, l1, t, t', r, h1, h2, h3.mono x⟩

theorem inv_later {net : Net} {l : List Step} {s : State} (h : Inv net l s) (x : Step) (hx : ∀ n o, x ≠ .op n o) :
    Inv net (l ++ [x]) s where
  conns n := by
    rw [h.conns n]
    congr 1
    simp only [opsOf, List.filterMap_append]
    cases x with
    | op n o => exact absurd rfl (hx n o)
    | _ => simp
  flights y hy := by
    rcases h.flights y hy with h1 | ⟨n, a, d, h1, h2⟩
    · exact Or.inl h1
    · exact Or.inr ⟨n, a, d, List.mem_append_left _ h1, h2.mono x⟩
  offered y hy := by
    obtain ⟨n, a, d, hd, a', h1, h2, h3, h4, h5, h6⟩ := h.offered y hy
    exact ⟨n, a, d, hd, a', List.mem_append_left _ h1, h2, h3, h4, h5.mono x, h6⟩

theorem take_carried {net : Net} {l : List Step} {a d a' b} (h : Carried net l a d a' b) {f l0 l1 : UInt8} {t' : UInt32}
    {r : Bytes} (hb : b.take 1500 = [f, 255, l0, l1] ++ be32 t' ++ r) :
    ∃ t, d.take 1500 = [f, 255, l0, l1] ++ be32 t ++ r ∧ Route net l a t a' t' := by
  rcases h with ⟨rfl, rfl⟩ | ⟨f', l0', l1', t, t'', r', h1, h2, h3⟩
  · exact ⟨t', hb, .here _ _⟩
  · have hlen : b.length = (d.take 1500).length := by rw [h1, h2]; simp
    have hb' : b.take 1500 = b := List.take_of_length_le (by rw [hlen, List.length_take]; omega)
    rw [hb', h2] at hb
    have e1 : be32 t'' = be32 t' := by
      have := congrArg (fun l => (l.drop 4).take 4) hb
      obtain ⟨_, _, _, _, e1, _⟩ := V2.be32_cases t'
      obtain ⟨_, _, _, _, e2, _⟩ := V2.be32_cases t''
      rw [e1, e2] at this ⊢
      simpa using this
    have e2 := be32_inj e1
    subst e2
    have e3 := congrArg (fun l => l.take 4) hb
    have e4 := congrArg (fun l => l.drop 8) hb
    obtain ⟨_, _, _, _, e, _⟩ := V2.be32_cases t''
    rw [e] at e3 e4
    simp at e3 e4
    obtain ⟨rfl, rfl, rfl⟩ := e3
    subst e4
    exact ⟨t, h1, h3⟩

theorem sane_all (net : Net) (hip : ∀ n ip, net.ip n = some ip → ip.length = 4 ∨ ip.length = 16) (n : Nat) (ops : List Op) :
    (applyAll (newUConn n (net.ip n) net.opened) ops).Sane := by
  intro ip h
  rw [(static_kept n (net.ip n) net.opened ops).1] at h
  exact hip n ip h

theorem inv_step {net : Net} (hip : ∀ n ip, net.ip n = some ip → ip.length = 4 ∨ ip.length = 16) {l : List Step} {s : State}
    (h : Inv net l s) (x : Step) : Inv net (l ++ [x]) (step net s x) := by
  cases x with
  | op n o =>
    have hl : ∀ k, opsOf k (l ++ [.op n o]) = if n = k then opsOf k l ++ [o] else opsOf k l := by
      intro k
      by_cases e : n = k
      · subst e; simp [opsOf]
      · simp [opsOf, e]
    refine ⟨?_, ?_, ?_⟩
    · intro k
      rw [hl]
      show (if k = n then apply (s.conns n) o else s.conns k) = _
      by_cases e : k = n
      · subst e
        simp only [if_true, h.conns k]
        simp [applyAll]
      · rw [if_neg e, if_neg (fun e' => e e'.symm), h.conns k]
    · intro y hy
      rcases h.flights y hy with h1 | ⟨n, a, d, h1, h2⟩
      · exact Or.inl h1
      · exact Or.inr ⟨n, a, d, List.mem_append_left _ h1, h2.mono _⟩
    · intro y hy
      obtain ⟨n, a, d, hd, a', h1, h2, h3, h4, h5, h6⟩ := h.offered y hy
      exact ⟨n, a, d, hd, a', List.mem_append_left _ h1, h2, h3, h4, h5.mono _, h6⟩
  | send n a d =>
    have h' := inv_later h (.send n a d) (by simp)
    refine ⟨h'.conns, ?_, h'.offered⟩
    intro y hy
    rcases List.mem_append.1 hy with hy | hy
    · exact h'.flights y hy
    · simp only [List.mem_singleton] at hy
      subst hy
      exact Or.inr ⟨n, a, d, by simp, Or.inl ⟨rfl, rfl⟩⟩
  | arrive i seen w =>
    have h' := inv_later h (.arrive i seen w) (by simp)
    simp only [step]
    split
    · exact h'
    · rename_i src a d hi
      split
      · exact h'
      · rename_i n hn
        have hs : (s.conns n).Sane := by rw [h.conns n]; exact sane_all net hip n _
        have hev := serve_events (s.conns n) hs seen (net.addr src) d w
        have hfl := h'.flights _ (List.mem_of_getElem? hi)
        refine ⟨h'.conns, ?_, ?_⟩
        · intro y hy
          rcases List.mem_append.1 hy with hy | hy
          · exact h'.flights y hy
          · obtain ⟨e, he, hy⟩ := List.mem_filterMap.1 hy
            rcases hev e he with ⟨hd, _, rfl⟩ | ⟨c, dst, b, rfl, hb⟩ | ⟨_, _, rfl⟩ | ⟨f, l0, l1, t, r, p, hd, hp, rfl⟩
            · cases hy
            · simp only [sentOf, Option.some.injEq] at hy
              subst hy
              exact Or.inl hb
            · cases hy
            · simp only [sentOf, Option.some.injEq] at hy
              subst hy
              right
              rcases hfl with hfl | ⟨n0, a0, d0, h1, h2⟩
              · exfalso
                apply hfl
                have : (d.take 1500)[1]? = some 255 := by rw [hd]; rfl
                rwa [List.getElem?_take_of_lt (by omega)] at this
              · obtain ⟨t0, e0, r0⟩ := take_carried h2 hd
                refine ⟨n0, a0, d0, h1, Or.inr ⟨f, l0, l1, t0, p.teid, r, e0, rfl, ?_⟩⟩
                rw [h.conns n] at hp
                obtain ⟨pre, post, e, _⟩ := (C37_table _ _ _ _ _ _).1 hp
                have hm : Op.relayTo t p ∈ opsOf n l := by rw [e]; simp
                obtain ⟨z, hz, hz'⟩ := List.mem_filterMap.1 hm
                refine .hop r0 hn (List.mem_append_left _ ?_)
                cases z with
                | op k o =>
                  simp only [Option.ite_none_right_eq_some, Option.some.injEq] at hz'
                  obtain ⟨rfl, rfl⟩ := hz'
                  exact hz
                | _ => cases hz'
        · intro y hy
          rcases List.mem_append.1 hy with hy | hy
          · exact h'.offered y hy
          · obtain ⟨e, he, hy⟩ := List.mem_filterMap.1 hy
            rcases hev e he with ⟨hd, hp, rfl⟩ | ⟨c, dst, b, rfl, hb⟩ | ⟨_, _, rfl⟩ | ⟨f, l0, l1, t, r, p, hd, hp, rfl⟩
            · simp only [offeredOf, Option.some.injEq] at hy
              subst hy
              rcases hfl with hfl | ⟨n0, a0, d0, h1, h2⟩
              · exfalso
                apply hfl
                have := (UConn.parseMsg_tpdu hp).2.1
                rwa [List.getElem?_take_of_lt (by omega)] at this
              · obtain ⟨f, l0, l1, r, hdd⟩ := split_tpdu hp
                obtain ⟨t0, e0, r0⟩ := take_carried h2 hdd
                rw [hdd] at hp
                have hp0 := parse_retag f l0 l1 hd.teid t0 r hd hp
                rw [← e0] at hp0
                exact ⟨n0, a0, d0, _, a, h1, hp0, rfl, rfl, r0, hn⟩
            · cases hy
            · cases hy
            · cases hy

theorem inv_run (net : Net) (hip : ∀ n ip, net.ip n = some ip → ip.length = 4 ∨ ip.length = 16) (l : List Step) :
    Inv net l (run net (init net) l) := by
  have : ∀ (l' l : List Step) (s : State), Inv net l s → Inv net (l ++ l') (run net s l') := by
    intro l'
    induction l' with
    | nil => intro l s h; simpa [run] using h
    | cons x l' ih =>
      intro l s h
      have := ih _ _ (inv_step hip h x)
      simpa [run] using this
  exact this l [] _ ⟨fun n => rfl, by simp [init], by simp [init]⟩

/-- C84, nothing is altered, mixed up or made up: whatever the connections and the network do, a T-PDU offered to
ReadFromGTP is one that somebody sent: payload and sequence number are those the datagram was sent with, and the
tunnels lead from the TEID and the address it was sent with to the TEID it is offered with and the connection that
offers it. -/
theorem C84_origin (net : Net) (hip : ∀ n ip, net.ip n = some ip → ip.length = 4 ∨ ip.length = 16) (l : List Step)
    (n : Nat) (src : Addr) (teid : UInt32) (seq : UInt16) (payload : Bytes)
    (h : (n, src, teid, seq, payload) ∈ (run net (init net) l).offered) :
    ∃ m a d hd a', Step.send m a d ∈ l ∧ parseMsg (d.take 1500) = ok (.tpdu hd) ∧ payload = hd.payload ∧ seq = hd.seq ∧
      Route net l a hd.teid a' teid ∧ net.at_ a' = some n :=
  (inv_run net hip l).offered _ h

/-- the octets of a T-PDU that WriteToGTP writes -/
theorem written_octets (t : UInt32) (p : Bytes) (hp : p.length ≤ 65527) {h : Header} {d : Bytes}
    (hd : tpduMarshal (newTPDU t p) = ok (h, d)) :
    ∃ f l0 l1, d = [f, 255, l0, l1] ++ be32 t ++ p ∧ l0.toNat * 256 + l1.toNat = p.length := by
  have hml : (newTPDU t p).marshalLen = p.length + 8 := by
    rw [Header.marshalLen, hasSeq_eq, hasNPDU_eq, hasExt_eq, show (newTPDU t p).flags = 0x30 from rfl,
      bits30.1, bits30.2.1, bits30.2.2]
    rfl
  rw [tpduMarshal_eq, Header.marshal_eq _ (fun h => by
    have h : bit 0x30 2 = true := h
    rw [bits30.1] at h; cases h), bind_ok] at hd
  simp only [ok.injEq, Prod.mk.injEq] at hd
  obtain ⟨_, rfl⟩ := hd
  have hL : (newTPDU t p).setLength.length = UInt16.ofNat p.length := by
    show UInt16.ofNat ((newTPDU t p).marshalLen - 8) = _
    rw [hml]; rfl
  obtain ⟨x, y, e, hv⟩ := V2.be16_cases (UInt16.ofNat p.length)
  have ho : encOpt (newTPDU t p).setLength = [] := by
    unfold encOpt
    rw [show (newTPDU t p).setLength.flags = 0x30 from rfl, bits30.1, bits30.2.1, bits30.2.2]
    rfl
  have hx : encExts (newTPDU t p).setLength = [] := by
    unfold encExts
    rw [show (newTPDU t p).setLength.flags = 0x30 from rfl, bits30.1]
    rfl
  refine ⟨0x30, x, y, ?_, ?_⟩
  · rw [encH, ho, hx, hL, e]
    rfl
  · rw [hv, toNat_ofNat16 (by omega)]

/-- what of a written T-PDU passes the buffer of the receiver -/
theorem written_taken (t : UInt32) (p : Bytes) (hp : p.length ≤ 65527) {h h2 : Header} {d : Bytes}
    (hd : tpduMarshal (newTPDU t p) = ok (h, d)) (h2d : parseMsg (d.take 1500) = ok (.tpdu h2)) :
    h2.payload = p ∧ h2.seq = 0 ∧ h2.teid = t ∧ p.length ≤ 1492 := by
  obtain ⟨f, l0, l1, e, hl⟩ := written_octets t p hp hd
  obtain ⟨h1, _, _, _, _, _, _, _, _, h10, _⟩ := C22_header_faithful _ _ (UConn.parseMsg_tpdu h2d).1
  have hlen : h2.length.toNat = p.length := by
    have e2 : ((d.take 1500).drop 2).take 2 = [l0, l1] := by rw [e]; rfl
    rw [e2] at h10
    obtain ⟨x, y, e3, hv⟩ := V2.be16_cases h2.length
    rw [e3] at h10
    simp only [List.cons.injEq, and_true] at h10
    rw [← hl, h10.1, h10.2, hv]
  have h1492 : p.length ≤ 1492 := by
    rw [hlen, List.length_take] at h1; omega
  obtain ⟨h', b, g1, g2, _, g4, g5, g6⟩ := C25_partial t p hp
  have hh := hd
  rw [g1] at hd
  simp only [ok.injEq, Prod.mk.injEq] at hd
  obtain ⟨rfl, rfl⟩ := hd
  rw [List.take_of_length_le (by omega), g4] at h2d
  simp only [ok.injEq, AnyMsg.tpdu.injEq] at h2d
  subst h2d
  refine ⟨g6, ?_, g5, h1492⟩
  rw [tpduMarshal_eq, bind_eq_ok] at hh
  obtain ⟨_, _, hh⟩ := hh
  simp only [ok.injEq, Prod.mk.injEq] at hh
  rw [← hh.1]; rfl

/-- C84 for data written with WriteToGTP: if nothing else is sent, what is offered is the payload given to a WriteToGTP,
whole, and the tunnels lead from the TEID and the address given there. -/
theorem C84_written (net : Net) (hip : ∀ n ip, net.ip n = some ip → ip.length = 4 ∨ ip.length = 16) (l : List Step)
    (hw : ∀ m a d, Step.send m a d ∈ l → ∃ t p h, p.length ≤ 65527 ∧ tpduMarshal (newTPDU t p) = ok (h, d))
    (n : Nat) (src : Addr) (teid : UInt32) (seq : UInt16) (payload : Bytes)
    (h : (n, src, teid, seq, payload) ∈ (run net (init net) l).offered) :
    ∃ m a d t hd a', Step.send m a d ∈ l ∧ tpduMarshal (newTPDU t payload) = ok (hd, d) ∧ seq = 0 ∧ payload.length ≤ 1492 ∧
      Route net l a t a' teid ∧ net.at_ a' = some n := by
  obtain ⟨m, a, d, h2, a', h1, hp, e1, e2, hr, hn⟩ := C84_origin net hip l n src teid seq payload h
  obtain ⟨t, p, hd, hl, hm⟩ := hw m a d h1
  obtain ⟨f1, f2, f3, f4⟩ := written_taken t p hl hm hp
  subst e1 e2
  rw [f3] at hr
  exact ⟨m, a, d, t, hd, a', h1, by rw [f1]; exact hm, f2, by rw [f1]; exact f4, hr, hn⟩

/-- the tunnels are in place: `k` connections relay from TEID `t` at address `a` to TEID `t'` at address `a'` -/
inductive Open (net : Net) (s : State) : Nat → Addr → UInt32 → Addr → UInt32 → Prop
  | here (a : Addr) (t : UInt32) : Open net s 0 a t a t
  | hop {k : Nat} {a a' : Addr} {t t' : UInt32} {n : Nat} {p : Peer} : net.at_ a = some n →
      (s.conns n).relay.load t = some p → (s.conns n).opened p.conn = true → Open net s k p.addr p.teid a' t' →
      Open net s (k + 1) a t a' t'

theorem arrive_relay (net : Net) (s : State) (i : Nat) (src : Nat) (a : Addr) (f l0 l1 : UInt8) (t : UInt32) (r : Bytes) (n : Nat)
    (p : Peer) (hi : s.flights[i]? = some (src, a, [f, 255, l0, l1] ++ be32 t ++ r)) (hn : net.at_ a = some n)
    (hp : (s.conns n).relay.load t = some p) (ho : (s.conns n).opened p.conn = true) (hmin : 3 ≤ r.length)
    (hmax : r.length ≤ 1492) :
    step net s (.arrive i true true) =
      { s with flights := s.flights ++ [(p.conn, p.addr, [f, 255, l0, l1] ++ be32 p.teid ++ r)] } := by
  simp only [step, hi, hn, (C37_relay_partial (s.conns n) (net.addr src) f l0 l1 t r p hp ho hmin hmax).1,
    List.filterMap_cons, List.filterMap_nil, sentOf, offeredOf, List.append_nil]

/-- the datagrams of a chain of relays: each arrives once, in turn -/
def chain (i : Nat) : Nat → List Step
  | 0 => []
  | k + 1 => .arrive i true true :: chain (i + 1) k

theorem chain_run (net : Net) (s : State) (k src : Nat) (a a' : Addr) (f l0 l1 : UInt8) (t t' : UInt32) (r : Bytes)
    (pre : List (Nat × Addr × Bytes))
    (hf : s.flights = pre ++ [(src, a, [f, 255, l0, l1] ++ be32 t ++ r)]) (ho : Open net s k a t a' t')
    (hmin : 3 ≤ r.length) (hmax : r.length ≤ 1492) :
    ∃ pre' src', run net s (chain pre.length k) =
      { s with flights := pre' ++ [(src', a', [f, 255, l0, l1] ++ be32 t' ++ r)] } ∧ pre'.length = pre.length + k := by
  induction k generalizing s src a t pre with
  | zero =>
    cases ho
    exact ⟨pre, src, by rw [← hf]; rfl, rfl⟩
  | succ k ih =>
    cases ho with
    | hop hn hp hop hrest =>
      rename_i n p
      have hs := arrive_relay net s pre.length src a f l0 l1 t r n p (by rw [hf]; simp) hn hp hop hmin hmax
      have keep : ∀ {k a t a' t'} fl, Open net s k a t a' t' → Open net { s with flights := fl } k a t a' t' := by
        intro k a t a' t' fl h
        induction h with
        | here => exact .here _ _
        | hop h1 h2 h3 _ ih => exact .hop h1 h2 h3 ih
      obtain ⟨pre', src', e, el⟩ := ih (step net s (.arrive pre.length true true)) p.conn p.addr p.teid
        (pre ++ [(src, a, [f, 255, l0, l1] ++ be32 t ++ r)]) (by rw [hs, hf]) (by rw [hs]; exact keep _ hrest)
      refine ⟨pre', src', ?_, by rw [el]; simp; omega⟩
      show run net (step net s (.arrive pre.length true true)) (chain (pre.length + 1) k) = _
      have : (pre ++ [(src, a, [f, 255, l0, l1] ++ be32 t ++ r)]).length = pre.length + 1 := by simp
      rw [this] at e
      rw [e, hs]

/-- C84, the data gets there, the part that holds: over any number of relays, a payload of 3 to 1492 octets given to WriteToGTP
reaches the connection at the end of the tunnels if every datagram on the way arrives, and is offered to ReadFromGTP there
with the TEID of the last tunnel, once.
Missing: payloads of 0 to 2 octets (`C84_short`) and of more than 1492 (`C84_written`). -/
theorem C84_delivered_partial (net : Net) (s : State) (m k n : Nat) (a a' : Addr) (t t' : UInt32) (p : Bytes) (h : Header)
    (d : Bytes) (hd : tpduMarshal (newTPDU t p) = ok (h, d)) (hmin : 3 ≤ p.length) (hmax : p.length ≤ 1492)
    (ho : Open net s k a t a' t') (hn : net.at_ a' = some n) (hr : (s.conns n).relay.load t' = none)
    (hh : (s.conns n).handlers.load 255 = some .tpdu) (he : (s.conns n).errInd = false) (seen w : Bool) :
    ∃ src, (run net s (.send m a d :: chain s.flights.length k ++ [.arrive (s.flights.length + k) seen w])).offered =
      s.offered ++ [(n, src, t', 0, p)] := by
  obtain ⟨f, l0, l1, e, hl⟩ := written_octets t p (by omega) hd
  have keep : ∀ {k a t a' t'} fl, Open net s k a t a' t' → Open net { s with flights := fl } k a t a' t' := by
    intro k a t a' t' fl h
    induction h with
    | here => exact .here _ _
    | hop h1 h2 h3 _ ih => exact .hop h1 h2 h3 ih
  obtain ⟨pre', src', hr1, hr2⟩ := chain_run net (step net s (.send m a d)) k m a a' f l0 l1 t t' p s.flights
    (by rw [← e]; rfl) (keep _ ho) hmin hmax
  refine ⟨net.addr src', ?_⟩
  have hrun : run net s (.send m a d :: chain s.flights.length k ++ [.arrive (s.flights.length + k) seen w]) =
      step net (run net (step net s (.send m a d)) (chain s.flights.length k)) (.arrive (s.flights.length + k) seen w) := by
    simp [run]
  rw [hrun, hr1]
  obtain ⟨h', b, g1, g2, _, g4, g5, g6⟩ := C25_partial t p (by omega)
  have hd0 := hd
  rw [g1] at hd
  simp only [ok.injEq, Prod.mk.injEq] at hd
  obtain ⟨rfl, hdb⟩ := hd
  rw [hdb, e] at g4
  have g7 := parse_retag f l0 l1 t t' p h' g4
  have hb : ([f, 255, l0, l1] ++ be32 t' ++ p).length = p.length + 8 := by simp; omega
  have hseq : h'.seq = 0 := by
    rw [tpduMarshal_eq, bind_eq_ok] at hd0
    obtain ⟨_, _, hd0⟩ := hd0
    simp only [ok.injEq, Prod.mk.injEq] at hd0
    rw [← hd0.1]; rfl
  have hsv := (C38_delivery_partial (s.conns n) seen (net.addr src') _ _ w (by omega) g7 hh
    (Or.inr ⟨by omega, hr⟩) he).1
  have hi : (pre' ++ [(src', a', [f, 255, l0, l1] ++ be32 t' ++ p)])[s.flights.length + k]? =
      some (src', a', [f, 255, l0, l1] ++ be32 t' ++ p) := by
    rw [← hr2]; simp
  have hc : (step net s (.send m a d)).conns n = s.conns n := rfl
  simp only [step, hi, hn, hsv, List.filterMap_cons, List.filterMap_nil, offeredOf, g6, hseq]

/-- C84 fails for payloads of 0 to 2 octets: the first relay drops them. -/
theorem C84_short (net : Net) (s : State) (m n : Nat) (a : Addr) (t : UInt32) (p : Bytes) (h : Header) (d : Bytes)
    (hd : tpduMarshal (newTPDU t p) = ok (h, d)) (hmax : p.length ≤ 2) (hn : net.at_ a = some n) (w : Bool) :
    run net s [.send m a d, .arrive s.flights.length true w] = { s with flights := s.flights ++ [(m, a, d)] } := by
  obtain ⟨f, l0, l1, e, hl⟩ := written_octets t p (by omega) hd
  have hs := C37_short_dropped (s.conns n) (net.addr m) f l0 l1 t p w hmax
  rw [← e] at hs
  simp [run, step, hn, hs]

/-- No hop limit: a relay whose tunnel leads back to it sends a datagram round for ever. -/
theorem C84_loop (net : Net) (s : State) (n src : Nat) (a : Addr) (f l0 l1 : UInt8) (t : UInt32) (r : Bytes) (p : Peer) (k : Nat)
    (hf : s.flights = [(src, a, [f, 255, l0, l1] ++ be32 t ++ r)]) (hn : net.at_ a = some n)
    (hp : (s.conns n).relay.load t = some p) (ho : (s.conns n).opened p.conn = true) (hback : p.addr = a ∧ p.teid = t)
    (hmin : 3 ≤ r.length) (hmax : r.length ≤ 1492) :
    (run net s (chain 0 k)).flights.length = k + 1 ∧
    ∀ x ∈ (run net s (chain 0 k)).flights, x.2 = (a, [f, 255, l0, l1] ++ be32 t ++ r) := by
  have all : ∀ (k : Nat) (s : State) (i : Nat), i < s.flights.length →
      (∀ x ∈ s.flights, x.2 = (a, [f, 255, l0, l1] ++ be32 t ++ r)) → (s.conns n).relay.load t = some p →
      (s.conns n).opened p.conn = true →
      (run net s (chain i k)).flights.length = s.flights.length + k ∧
      ∀ x ∈ (run net s (chain i k)).flights, x.2 = (a, [f, 255, l0, l1] ++ be32 t ++ r) := by
    intro k
    induction k with
    | zero => intro s i _ h _ _; exact ⟨rfl, h⟩
    | succ k ih =>
      intro s i hi h hp ho
      obtain ⟨x, hx⟩ : ∃ x, s.flights[i]? = some x := ⟨s.flights[i], by simp [hi]⟩
      have hx2 := h x (List.mem_of_getElem? hx)
      obtain ⟨x1, x2, x3⟩ := x
      simp only [Prod.mk.injEq] at hx2
      obtain ⟨rfl, rfl⟩ := hx2
      have hs := arrive_relay net s i x1 _ f l0 l1 t r n p hx hn hp ho hmin hmax
      obtain ⟨i1, i2⟩ := ih (step net s (.arrive i true true)) (i + 1) (by rw [hs]; simp; omega)
        (by
          rw [hs]
          intro y hy
          rcases List.mem_append.1 hy with hy | hy
          · exact h y hy
          · simp only [List.mem_singleton] at hy
            subst hy
            rw [hback.1, hback.2])
        (by rw [hs]; exact hp) (by rw [hs]; exact ho)
      refine ⟨?_, i2⟩
      show (run net (step net s (.arrive i true true)) (chain (i + 1) k)).flights.length = _
      rw [i1, hs]
      simp; omega
  have := all k s 0 (by rw [hf]; simp) (by rw [hf]; simp) hp ho
  rw [hf] at this
  exact ⟨by rw [this.1]; simp; omega, this.2⟩

/-- three connections: 0 sends, 1 relays to 2, which also relays another tunnel back -/
def exNet : Net := ⟨fun a => if a = "b" then some 1 else if a = "c" then some 2 else none,
  fun n => if n = 0 then "a" else if n = 1 then "b" else "c", fun _ => some [127, 0, 0, 1], fun _ => true⟩

example : (match tpduMarshal (newTPDU 7 [1, 2, 3, 4]) with
    | ok (_, d) => (run exNet (init exNet) [.op 1 (.relayTo 7 ⟨8, "c", 1⟩), .op 2 .disableErrInd, .op 2 (.relayTo 9 ⟨7, "b", 2⟩),
        .send 0 "b" d, .arrive 0 true true, .arrive 0 true true, .arrive 1 true true]).offered
    | _ => []) = [(2, "b", 8, 0, [1, 2, 3, 4])] := by decide +kernel

end Verif.V1.UPath

namespace Verif.V1.UPath
open Res UConn Spec
/-! ### cases that meet the hypotheses -/

def exDatagram : Bytes := [0x30, 255, 0, 4, 0, 0, 0, 7, 1, 2, 3, 4]
def exSteps : List Step := [.op 1 (.relayTo 7 ⟨8, "c", 1⟩), .op 2 .disableErrInd, .send 0 "b" exDatagram, .arrive 0 true true,
  .arrive 1 true true]

theorem exDatagram_eq : ∃ h, tpduMarshal (newTPDU 7 [1, 2, 3, 4]) = ok (h, exDatagram) := ⟨_, rfl⟩

example := C84_origin exNet (by simp [exNet]) exSteps 2 "b" 8 0 [1, 2, 3, 4] (by decide +kernel)
example := C84_written exNet (by simp [exNet]) exSteps (by
  intro m a d h
  simp only [exSteps, List.mem_cons, reduceCtorEq, Step.send.injEq, false_or, List.not_mem_nil, or_false] at h
  obtain ⟨-, -, rfl⟩ := h
  exact ⟨7, [1, 2, 3, 4], exDatagram_eq.choose, by decide, exDatagram_eq.choose_spec⟩) 2 "b" 8 0 [1, 2, 3, 4] (by decide +kernel)
/-- one relay on the way -/
example := C84_delivered_partial exNet (run exNet (init exNet) [.op 1 (.relayTo 7 ⟨8, "c", 1⟩), .op 2 .disableErrInd]) 0 1 2 "b" "c"
  7 8 [1, 2, 3, 4] _ exDatagram rfl (by decide) (by decide)
  (.hop (n := 1) (p := ⟨8, "c", 1⟩) (by decide) (by decide) (by decide) (.here _ _)) (by decide) (by decide) (by decide) (by decide)
  true true
example := C84_short exNet (init exNet) 0 1 "b" 7 [1, 2] _ _ rfl (by decide) (by decide) true
/-- a tunnel that leads to itself -/
example := C84_loop exNet (run exNet (init exNet) [.op 1 (.relayTo 7 ⟨7, "b", 1⟩), .send 0 "b" exDatagram]) 1 0 "b" 0x30 0 4 7
  [1, 2, 3, 4] ⟨7, "b", 1⟩ 1000 (by rfl) (by decide) (by decide) (by decide) (by decide) (by decide) (by decide)

end Verif.V1.UPath
