import Verif.Proofs.PgwAnswer
/-
Helper lemmas for Props/Pgw.lean: texts of addresses, field types of a request, and the invariant of the P-GW's tables.
-/
namespace Verif.V2.Pgw
open Res Send Conn NetIP Spec IPSpec

/-! ### `strings.Split(x, ":")[0]` -/

theorem host_append {x r : Bytes} (h : colon ∉ x) : host (x ++ colon :: r) = x := by
  unfold host
  induction x with
  | nil => simp
  | cons y x ih =>
    have hy : y ≠ colon := fun e => h (by simp [e])
    rw [List.cons_append, List.takeWhile_cons_of_pos (by simpa using hy), ih (fun e => h (by simp [e]))]

theorem v4_text {v : Bytes} (h : v.length = 4) : colon ∉ ipString v ∧ to4 v = some v ∧ IsIP (ipString v) (v4Prefix ++ v) ∧
    (parseIP (ipString v)).bind to4 = some v := by
  obtain ⟨p, q, r, s, rfl⟩ : ∃ p q r s, v = [p, q, r, s] := by
    match v, h with
    | [p, q, r, s], _ => exact ⟨p, q, r, s, rfl⟩
  have hi : IsIP (ipString [p, q, r, s]) (v4Prefix ++ [p, q, r, s]) := Or.inl ⟨_, isV4_str4 p q r s, rfl⟩
  refine ⟨?_, rfl, hi, ?_⟩
  · obtain ⟨a, b, c, d, ta, tb, tc, td, -, ha, hb, hc, hd, e⟩ := isV4_str4 p q r s
    have e : ipString [p, q, r, s] = _ := e
    have dg : ∀ {t : Bytes} {n : UInt8}, IsDec t n → colon ∉ t := fun h hc => absurd (h.digits _ hc) (by decide)
    have nd : colon ≠ 46 := by decide
    rw [e]
    simp [dg ha, dg hb, dg hc, dg hd, nd]
  · rw [(parseIP_iff _ _).mpr hi]
    rfl

theorem host_v4 {a : UDPAddr} {v : Bytes} (h : to4 a.ip = some v) (hz : a.zone = []) : host a.string = ipString v := by
  have hp : a.Proper := by
    rcases (NetIP.to4_len h).2 with e | e
    · exact Or.inl (by rw [e]; exact (NetIP.to4_len h).1)
    · exact Or.inr (by rw [e]; simp [(NetIP.to4_len h).1, v4Prefix])
  rw [string_eq hp, if_pos hz, List.append_nil, ← ipString_to4 h]
  have hc := (v4_text (NetIP.to4_len h).1).1
  unfold joinHostPort
  rw [if_neg (by simpa using hc)]
  simpa using host_append hc

theorem host_v6 {a : UDPAddr} (h : to4 a.ip = none) (hl : a.ip.length = 16) : ∃ r, host a.string = lbr :: r := by
  have hp : a.Proper := Or.inr hl
  have hc : colon ∈ ipString a.ip := by
    obtain ⟨x, hx, hi⟩ := isIP_ipString hp
    have e : x = a.ip := by
      unfold to16 at hx
      rw [if_neg (by omega), if_pos hl] at hx
      exact (Option.some.inj hx).symm
    subst e
    rcases hi with ⟨v, hv, e⟩ | hi
    · have := isV4_len hv
      match v, this with
      | [p, q, r, s], _ => rw [e] at h; cases h
    · generalize a.ip = x at *
      generalize ipString x = t at *
      cases hi with
      | full _ _ hf hn =>
        cases hf with
        | last _ _ hg => obtain ⟨n, _, _, rfl⟩ := hg; simp at hn
        | v4 _ _ hg => have := isV4_len hg; omega
        | cons => simp [colon]
      | short => simp [colon]
  rw [string_eq hp]
  unfold joinHostPort
  rw [if_pos (by simp [hc])]
  simp only [List.cons_append, List.nil_append, host]
  rw [List.takeWhile_cons_of_pos (by decide)]
  exact ⟨_, rfl⟩

theorem host_v6_unread {a : UDPAddr} (h : to4 a.ip = none) (hl : a.ip.length = 16) :
    (¬ ∃ x, IsIP (host a.string) x) ∧ ∀ b, Utils.hexDecode (host a.string) ≠ ok b := by
  obtain ⟨r, e⟩ := host_v6 h hl
  rw [e]
  refine ⟨fun ⟨x, hx⟩ => (addrChar_ne ((isIP_chars hx).2 lbr (by simp))).2.1 rfl, fun b hb => ?_⟩
  cases r with
  | nil => cases hb
  | cons y r =>
    have : Utils.hexVal lbr = none := by decide
    simp [Utils.hexDecode, this] at hb

/-! ### the kind of a message and of its elements -/

theorem typ_of {g : UInt8 → Bool} {d : Bytes} {m : Message} (h : parseMsg g d = ok m) : m.hdr.typ = m.schema.typ := by
  obtain ⟨⟨t, _, h1, ⟨_, h2, _⟩ | ⟨h2, _⟩⟩, _⟩ := C12_dispatch_faithful g d m h
  · rw [h1, h2]
  · rw [h1, h2]; rfl

theorem schema_of {g : UInt8 → Bool} {d : Bytes} {m : Message} (h : parseMsg g d = ok m) {sc : Msg.Schema} (hs : sc ∈ Tab.all)
    (ht : m.hdr.typ = sc.typ) : m.schema = sc := by
  obtain ⟨t, h1, _, h2, _⟩ := parseMsg_ok g h
  obtain ⟨⟨t', k1, k2, _⟩, _⟩ := C12_dispatch_faithful g d m h
  rw [h1] at k1
  obtain rfl := Option.some.inj k1
  rw [h2, ← k2, ht, schemaOf_all sc hs]

theorem has_get {m : Message} (h : m.schema = Tab.createSessionRequest) {k : Nat} {name : String} {l : List IE}
    (hk : Tab.createSessionRequest.fields[k]? = some name) (hh : Has m name l) : m.fields k = l := by
  obtain ⟨j, hj, rfl⟩ := hh
  rw [h] at hj
  have nd : Tab.createSessionRequest.fields.Nodup := by decide +kernel
  have hlt : k < Tab.createSessionRequest.fields.length := by
    rcases Nat.lt_or_ge k Tab.createSessionRequest.fields.length with h | h
    · exact h
    · rw [List.getElem?_eq_none h] at hk; cases hk
  rw [(List.getElem?_inj hlt nd).1 (hk.trans hj.symm)]

theorem has_of {m : Message} {sc : Msg.Schema} (h : m.schema = sc) {k : Nat} {name : String} {l : List IE}
    (hk : sc.fields[k]? = some name) (hh : m.fields k = l) : Has m name l := ⟨k, h ▸ hk, hh⟩

theorem paa_typ {g : UInt8 → Bool} {d : Bytes} {m : Message} (h : parseMsg g d = ok m) (hs : m.schema = Tab.createSessionRequest)
    {i : IE} (hi : i ∈ m.fields 12) : i.typ = 79 := by
  have hf := (C77_v2_start g d m h).home 12 i hi
  unfold Msg.Home at hf
  have ht := Msg.apply_target hf
  unfold Msg.unAct at ht
  rw [hs] at ht
  rcases Msg.sel_cases Tab.createSessionRequest.unRules Tab.createSessionRequest.unDefault ((ieOps g).typ i).toNat ((ieOps g).inst i).toNat with e | ⟨r, hr, e1, e⟩
  · rw [e] at ht
    exact absurd ht (by decide)
  · rw [e] at ht
    have key : ∀ r ∈ Tab.createSessionRequest.unRules, 12 ∈ r.act.targets ∨ 12 ∈ r.act.frozen → r.typ = 79 := by decide +kernel
    have := key r hr ht
    rw [this] at e1
    exact UInt8.toNat.inj e1.symm

/-! ### the tables -/

/-- what holds between two datagrams -/
structure Inv (c : Conn) : Prop where
  localIf : c.localIf = 7
  validation : c.validation = true
  handlers : c.handlers = (start c.heap).handlers
  imsi : ∀ i s, c.byImsi.load i = some s → (c.heap s).imsi = i ∧ ∃ t, (c.heap s).teids.load 7 = some t ∧ c.byTeid.load t = some (some s)
  teid : ∀ t x, c.byTeid.load t = some x → t ≠ 0 ∧ ∃ s, x = some s ∧ (c.heap s).teids.load 7 = some t ∧
    (∃ u, (c.heap s).teids.load 6 = some u) ∧ c.byImsi.load (c.heap s).imsi = some s ∧ (c.heap s).active = true

/-- no entry of a table leads to the object -/
def Fresh (c : Conn) (s : Nat) : Prop := (∀ i, c.byImsi.load i ≠ some s) ∧ ∀ t, c.byTeid.load t ≠ some (some s)

theorem Inv.droppable {c : Conn} (h : Inv c) {s : Nat} (hs : Fresh c s) (imsi : Bytes) : Droppable c s imsi := by
  intro s₀ h0
  obtain ⟨_, t, ht, _⟩ := h.imsi _ _ h0
  refine ⟨fun e => hs.1 imsi (e ▸ h0), t, ?_⟩
  rw [h.localIf]; exact ht

theorem inv_start (heap : Nat → Sess) : Inv (start heap) :=
  ⟨rfl, rfl, rfl, fun _ _ h => (by cases h), fun _ _ h => (by cases h)⟩

/-- the tables without a session -/
theorem Inv.without {c : Conn} (h : Inv c) {s : Nat} {t : UInt32} (ht : c.byTeid.load t = some (some s)) :
    Inv { c with byImsi := c.byImsi.delete (c.heap s).imsi, byTeid := c.byTeid.delete t } := by
  obtain ⟨_, s', e, hs7, _, hi, _⟩ := h.teid _ _ ht
  obtain rfl := Option.some.inj e
  refine ⟨h.localIf, h.validation, h.handlers, fun i s1 h1 => ?_, fun t1 x h1 => ?_⟩
  · simp only [SyncMap.load_delete] at h1
    split at h1
    · cases h1
    rename_i hne
    obtain ⟨k1, t1, k2, k3⟩ := h.imsi _ _ h1
    refine ⟨k1, t1, k2, ?_⟩
    simp only [SyncMap.load_delete]
    rw [if_neg, k3]
    rintro rfl
    rw [ht] at k3
    obtain rfl := Option.some.inj (Option.some.inj k3)
    exact hne k1.symm
  · simp only [SyncMap.load_delete] at h1
    split at h1
    · cases h1
    rename_i hne
    obtain ⟨k0, s1, rfl, k1, k2, k3, k4⟩ := h.teid _ _ h1
    refine ⟨k0, s1, rfl, k1, k2, ?_, k4⟩
    simp only [SyncMap.load_delete]
    rw [if_neg, k3]
    intro e
    rw [e, hi] at k3
    obtain rfl := Option.some.inj k3
    rw [hs7] at k1
    exact hne (Option.some.inj k1).symm

theorem Inv.forget {c : Conn} (h : Inv c) (imsi : Bytes) : Inv (forget c imsi) := by
  unfold Pgw.forget
  split
  · exact h
  · rename_i s hs
    obtain ⟨k1, t, k2, k3⟩ := h.imsi _ _ hs
    rw [show (c.heap s).teids.load c.localIf = some t by rw [h.localIf]; exact k2]
    exact h.without k3

theorem forget_fresh {c : Conn} {s : Nat} (hs : Fresh c s) (imsi : Bytes) : Fresh (forget c imsi) s := by
  unfold forget
  split
  · exact hs
  · split
    · exact hs
    · refine ⟨fun i => ?_, fun t => ?_⟩
      · simp only [SyncMap.load_delete]
        split
        · simp
        · exact hs.1 i
      · simp only [SyncMap.load_delete]
        split
        · simp
        · exact hs.2 t

theorem Inv.put {c : Conn} (h : Inv c) {s : Nat} (hs : Fresh c s) (b : Nat) (x : Sess) (y : Bearer) : Inv (put c s b x y) := by
  refine ⟨h.localIf, h.validation, h.handlers, fun i s1 h1 => ?_, fun t x1 h1 => ?_⟩
  · have h1 : c.byImsi.load i = some s1 := h1
    have e1 : s1 ≠ s := fun e => hs.1 i (e ▸ h1)
    rw [put_heap_ne c b x y e1]
    exact h.imsi i s1 h1
  · obtain ⟨k0, s1, rfl, k⟩ := h.teid t x1 h1
    refine ⟨k0, s1, rfl, ?_⟩
    have h1 : c.byTeid.load t = some (some s1) := h1
    have e1 : s1 ≠ s := fun e => hs.2 t (e ▸ h1)
    rw [put_heap_ne c b x y e1]
    exact k

theorem reserve_load (c : Conn) {k : UInt32} (hk : c.byTeid.load k = none) (h0 : k ≠ 0) (t : UInt32) :
    (reserve c k).byTeid.load t = if t = k then some none else c.byTeid.load t := by
  unfold reserve
  rw [if_neg h0]
  simp only [SyncMap.loadOrStore, hk]
  exact SyncMap.load_store _ _ _ _

theorem reserve_fixed (c : Conn) (k : UInt32) : (reserve c k).heap = c.heap ∧ (reserve c k).byImsi = c.byImsi ∧
    (reserve c k).localIf = c.localIf ∧ (reserve c k).validation = c.validation ∧ (reserve c k).handlers = c.handlers ∧
    (reserve c k).brs = c.brs := by
  unfold reserve
  split <;> exact ⟨rfl, rfl, rfl, rfl, rfl, rfl⟩

theorem Inv.admitted {g : UInt8 → Bool} {c : Conn} (h : Inv c) {s : Nat} (hs : Fresh c s) (b : Nat) {k : UInt32} (ku : UInt32) (a : Addr)
    (v : Vals) (h0 : k ≠ 0) (hk : (Pgw.forget c v.imsi).byTeid.load k = none) {u : UInt32}
    (h6 : (v.sess a b).teids.load 6 = some u) : Inv (admitted g c s b k ku a v) := by
  have hf := h.forget v.imsi
  have hsf := forget_fresh hs v.imsi
  obtain ⟨r1, r2, r3, r4, r5, r6⟩ := reserve_fixed (Pgw.forget c v.imsi) k
  have rl := reserve_load _ hk h0
  unfold Pgw.admitted
  refine ⟨r3.trans hf.localIf, r4.trans hf.validation, r5.trans hf.handlers, fun i s1 h1 => ?_, fun t x h1 => ?_⟩
  · simp only [Pgw.put, SyncMap.load_store] at h1
    split at h1
    · rename_i e
      obtain rfl := Option.some.inj h1
      refine ⟨by rw [put_heap]; exact e.symm, k, by rw [put_heap]; simp [SyncMap.load_store], ?_⟩
      simp only [Pgw.put, SyncMap.load_store, if_true]
    · rename_i hne
      rw [r2] at h1
      obtain ⟨k1, t, k2, k3⟩ := hf.imsi i s1 h1
      have e1 : s1 ≠ s := fun e => hsf.1 i (e ▸ h1)
      have e2 : t ≠ k := by rintro rfl; rw [hk] at k3; cases k3
      rw [put_heap_ne _ _ _ _ e1]
      refine ⟨by rw [← k1]; exact congrArg (fun h => (h s1).imsi) r1, t, by rw [← k2]; exact congrArg (fun h => (h s1).teids.load 7) r1, ?_⟩
      simp only [Pgw.put, SyncMap.load_store]
      rw [if_neg e2, rl, if_neg e2, k3]
  · simp only [Pgw.put, SyncMap.load_store] at h1
    split at h1
    · rename_i e
      obtain rfl := Option.some.inj h1
      subst e
      refine ⟨h0, s, rfl, by rw [put_heap]; simp [SyncMap.load_store], ⟨u, ?_⟩, ?_, by rw [put_heap]⟩
      · rw [put_heap]
        simp [SyncMap.load_store, h6]
      · rw [put_heap]
        simp only [Pgw.put, SyncMap.load_store]
        exact if_pos rfl
    · rename_i hne
      rw [rl, if_neg hne] at h1
      obtain ⟨k0, s1, rfl, k1, k2, k3, k4⟩ := hf.teid t x h1
      have e1 : s1 ≠ s := fun e => hsf.2 t (e ▸ h1)
      refine ⟨k0, s1, rfl, ?_⟩
      rw [put_heap_ne _ _ _ _ e1]
      show (((reserve (Pgw.forget c v.imsi) k).heap s1).teids.load 7 = some t) ∧
        (∃ u, ((reserve (Pgw.forget c v.imsi) k).heap s1).teids.load 6 = some u) ∧
        ((reserve (Pgw.forget c v.imsi) k).byImsi.store v.imsi s).load ((reserve (Pgw.forget c v.imsi) k).heap s1).imsi = some s1 ∧
        ((reserve (Pgw.forget c v.imsi) k).heap s1).active = true
      rw [r1, r2]
      refine ⟨k1, k2, ?_, k4⟩
      rw [SyncMap.load_store, if_neg, k3]
      intro e
      rw [e] at k3
      have : (Pgw.forget c v.imsi).byImsi.load v.imsi = none := by
        unfold Pgw.forget
        split
        · assumption
        · rename_i s0 hs0
          obtain ⟨q1, t0, q2, _⟩ := h.imsi _ _ hs0
          rw [show (c.heap s0).teids.load c.localIf = some t0 by rw [h.localIf]; exact q2, q1]
          simp only [SyncMap.load_delete, if_true]
      rw [this] at k3; cases k3

/-! ### which handler runs -/

theorem handlers_app {c : Conn} (h : Inv c) (t : UInt8) (id : Nat) : c.handlers.load t = some (.app id) ↔ t = 32 ∧ id = 0 ∨ t = 36 ∧ id = 1 := by
  rw [h.handlers]
  show ((defaultHandlers.store 32 (.app 0)).store 36 (.app 1)).load t = some (.app id) ↔ _
  rw [SyncMap.load_store, SyncMap.load_store]
  by_cases h1 : t = 36
  · subst h1; simp; exact eq_comm
  by_cases h2 : t = 32
  · subst h2; simp; exact eq_comm
  rw [if_neg h1, if_neg h2]
  simp only [h1, h2, false_and, or_self, iff_false]
  simp only [SyncMap.load, defaultHandlers, List.find?]
  repeat' split
  all_goals simp

/-- a datagram is for one of the two handlers, or changes nothing -/
theorem serve_cases (g : UInt8 → Bool) (p : Cfg) {c : Conn} (h : Inv c) (s b : Nat) (k ku : Option UInt32) (a : Addr) (d : Bytes) (w : Bool) :
    (∃ m, parseMsg g d = ok m ∧ m.schema = Tab.createSessionRequest ∧ Reaches c m.hdr.teidAcc a ∧
      serve g p c s b k ku a d w = handleCreate g p s b k ku a m w c) ∨
    (∃ m, parseMsg g d = ok m ∧ m.schema = Tab.deleteSessionRequest ∧ Reaches c m.hdr.teidAcc a ∧
      serve g p c s b k ku a d w = handleDelete g a m w c) ∨
    (serve g p c s b k ku a d w = (c, serveDatagram g c a d w) ∧ ∀ id a' m, Ev.call id a' m ∉ (serveDatagram g c a d w).1) := by
  by_cases hc : ∃ id a' m, Ev.call id a' m ∈ (serveDatagram g c a d w).1
  · obtain ⟨id, a', m, hc⟩ := hc
    obtain ⟨r1, r2⟩ := C35_reaches_partial g c a d w id a' m
    have hr := r2 hc
    obtain ⟨hp, rfl, hh, hv⟩ := r1.1 hc
    have hreach : Reaches c m.hdr.teidAcc a' := by
      rcases hv h.validation with e | ⟨s, h1, h2⟩
      · exact Or.inl e
      · refine Or.inr ⟨s, ?_⟩
        unfold getSessionByTEID
        simp [h1, h2]
    rcases (handlers_app h _ _).1 hh with ⟨e1, rfl⟩ | ⟨e1, rfl⟩
    · refine Or.inl ⟨m, hp, schema_of hp (by simp [Tab.all]) e1, hreach, ?_⟩
      unfold serve; rw [hr]; rfl
    · refine Or.inr (Or.inl ⟨m, hp, schema_of hp (by simp [Tab.all]) e1, hreach, ?_⟩)
      unfold serve; rw [hr]; rfl
  · refine Or.inr (Or.inr ⟨?_, fun id a' m hm => hc ⟨id, a', m, hm⟩⟩)
    unfold serve
    split
    · rename_i a' m _ e; exact absurd ⟨0, a', m, by rw [e]; simp⟩ hc
    · rename_i a' m _ e; exact absurd ⟨1, a', m, by rw [e]; simp⟩ hc
    · rename_i ev r e1 e2 e3; rw [e3]

theorem serve_create {g : UInt8 → Bool} {p : Cfg} {c : Conn} (h : Inv c) (s b : Nat) (k ku : Option UInt32) {a : Addr} {d : Bytes} (w : Bool)
    {m : Message} (hp : parseMsg g d = ok m) (hs : m.schema = Tab.createSessionRequest) (hr : Reaches c m.hdr.teidAcc a) :
    serve g p c s b k ku a d w = handleCreate g p s b k ku a m w c := by
  have ht : m.hdr.typ = 32 := by rw [typ_of hp, hs]; rfl
  unfold serve
  rw [serve_reaches hp ((handlers_app h m.hdr.typ 0).2 (Or.inl ⟨ht, rfl⟩)) hr w]
  rfl

theorem serve_delete {g : UInt8 → Bool} {p : Cfg} {c : Conn} (h : Inv c) (s b : Nat) (k ku : Option UInt32) {a : Addr} {d : Bytes} (w : Bool)
    {m : Message} (hp : parseMsg g d = ok m) (hs : m.schema = Tab.deleteSessionRequest) (hr : Reaches c m.hdr.teidAcc a) :
    serve g p c s b k ku a d w = handleDelete g a m w c := by
  have ht : m.hdr.typ = 36 := by rw [typ_of hp, hs]; rfl
  unfold serve
  rw [serve_reaches hp ((handlers_app h m.hdr.typ 1).2 (Or.inr ⟨ht, rfl⟩)) hr w]
  rfl

end Verif.V2.Pgw
