import Verif.Proofs.SgwRelay
/-
Helper lemmas for Props/Sgw.lean: the handler of the Create Session Request goes on with the P-GW's answer.
-/
namespace Verif.V2.Sgw
open Res Send Conn NetIP Spec IPSpec
open Pgw (H lift set read need dropIMSI drop respond getTEID deref mustTEID activateH forget Droppable fteidOf fteidOf_reads fteid_text
  mustTEID_of v4_text lift_bind set_to need_bind read_bind put_new put_update put_updateBearer put_addTEID put_reserve put_register put_drop
  put_heap put_brs put_localIf length_encFTEID')

/-- the S11 connection afterwards -/
def ready11 (c : Conn) (s b : Nat) (k k1 : UInt32) : Conn :=
  Pgw.put c s b { c.heap s with teids := ((c.heap s).teids.store 11 k).store 1 k1, active := true } (c.brs b)

theorem finish_step {g : UInt8 → Bool} (hg : Usual g) {p : Cfg} {w11 w5c w1u w5u : Bytes} (hp4 : OnV4 p w11 w5c w1u w5u) {d : Bytes} {m : Message}
    (hp : parseMsg g d = ok m) (hs : m.schema = Tab.createSessionResponse) (hd : d.length ≤ 1459) {bc : IE} {rest : List IE}
    (h11 : m.fields 11 = bc :: rest) (h6 : ∀ i r, m.fields 6 = i :: r → ∃ x, i.ipAddress = ok x) (st : State) (e : Env) (a : Addr) {s s5 b : Nat}
    (req : Message) (hq : req.hdr.sequence.toNat < 2 ^ 24) (k mme : UInt32) {k1 : UInt32} (hk1 : e.k1u = some k1) (hw : e.w = true)
    (hb : getDefaultBearer st.s11 s = some b) (hi : (st.s11.heap s).imsi ≠ []) {t7 t6 : UInt32} (h7 : (st.s5.heap s5).teids.load 7 = some t7)
    (h6' : (st.s5.heap s5).teids.load 6 = some t6) :
    ∃ out m', finishCreate g p e s s5 a req (fteidOf 11 0 k p.s11IP) mme m st = (with11 st (ready11 st.s11 s b k k1), [(.s11, .sent a out)], ok ()) ∧
      out.length ≤ 1500 ∧ parseMsg g out = ok m' ∧ m'.schema = Tab.createSessionResponse ∧ m'.hdr.teidAcc = mme ∧
      m'.hdr.sequence = req.hdr.sequence ∧
      m'.fields = relayedFields g m bc rest (fteidOf 11 0 k p.s11IP) (fteidOf 1 0 k1 p.s1uIP) (csidIE 1 w1u) := by
  obtain ⟨m₁, out, m', k1', k2, k3, k4, k5, k6, k7⟩ := relay_sent hg hp hs hd h11 hp4.s11.1 hp4.s1u.1 k k1 mme req.hdr.sequence hq
  rw [← hp4.s11.2, ← hp4.s1u.2] at k1' k7
  refine ⟨out, m', ?_, k2, k3, k4, k5, k6, k7⟩
  have rel := relayed_eq hg hp4.s1u hp hs h11 (fteidOf 11 0 k p.s11IP) (fteidOf 1 0 k1 p.s1uIP) mme
  unfold finishCreate
  have hn : ¬ m.schema.name ≠ "CreateSessionResponse" := by rw [hs]; decide
  have hsend : ∀ c, orDrop s (respond g a req (setLength g { m with
      fields := relayedFields g m bc rest (fteidOf 11 0 k p.s11IP) (fteidOf 1 0 k1 p.s1uIP) (csidIE 1 w1u), hdr := m.hdr.setTEID mme }) true) c = (c, [.sent a out], ok ()) := by
    intro c
    unfold orDrop respond respondTo response
    rw [k1']
    rfl
  rw [if_neg hn, hk1, hw]
  generalize (setLength g { m with
      fields := relayedFields g m bc rest (fteidOf 11 0 k p.s11IP) (fteidOf 1 0 k1 p.s1uIP) (csidIE 1 w1u), hdr := m.hdr.setTEID mme } : Message) = r at rel hsend
  have tail : ∀ f : Unit → G Unit, f = (fun _ => do
      let uf ← val (userFTEID 1 (some k1) p.s1uIP)
      let r ← val (relayed g p m (fteidOf 11 0 k p.s11IP) uf mme)
      on11 (set (fun c => addTEID c s (mustInterfaceType (fteidOf 11 0 k p.s11IP)) (mustTEID (fteidOf 11 0 k p.s11IP))))
      on11 (set (fun c => addTEID c s (mustInterfaceType uf) (mustTEID uf)))
      on11 (orDrop s (respond g a req r true))
      let pgw ← ask (fun st => (st.s5.heap s5).teids.load 7)
      let sgw ← ask (fun st => (st.s5.heap s5).teids.load 6)
      match pgw, sgw with
      | some _, some _ => on11 (orDrop s (activateH s))
      | _, _ => on11 (orDrop s (lift (err .notFound)))) →
      f () st = (with11 st (ready11 st.s11 s b k k1), [(.s11, .sent a out)], ok ()) := by
    intro f hf
    rw [hf]
    refine (val_bind (user_eq 1 k1 p.s1uIP (by decide)) _ _).trans ?_
    refine (val_bind rel _ _).trans ?_
    rw [mustTEID_of (fteidOf_reads 11 0 k _ (by decide)).r_teid, mustIf_of (fteidOf_reads 11 0 k _ (by decide)).r_ifType,
      mustTEID_of (fteidOf_reads 1 0 k1 _ (by decide)).r_teid, mustIf_of (fteidOf_reads 1 0 k1 _ (by decide)).r_ifType]
    have e1 : addTEID st.s11 s 11 k = Pgw.put st.s11 s b { st.s11.heap s with teids := (st.s11.heap s).teids.store 11 k } (st.s11.brs b) := by
      conv => lhs; rw [← put_self st.s11 s b]
      rw [put_addTEID]
    refine (on11_go (st := st) rfl (set_eq e1) _).trans ?_
    refine (on11_go (by rfl) (set_eq (put_addTEID _ _ _ _ _ _ _)) _).trans ?_
    refine bind_sent (on11_eq (hsend _)) ?_
    refine (ask_go h7 _).trans ?_
    refine (ask_go h6' _).trans ?_
    have hact : orDrop s (activateH s) (Pgw.put st.s11 s b { st.s11.heap s with teids := ((st.s11.heap s).teids.store 11 k).store 1 k1 } (st.s11.brs b)) =
        (ready11 st.s11 s b k k1, [], ok ()) := by
      have hi' : ({ st.s11.heap s with teids := ((st.s11.heap s).teids.store 11 k).store 1 k1 } : Sess).imsi ≠ [] := hi
      have er : ready11 st.s11 s b k k1 = Pgw.put st.s11 s b
          { ({ st.s11.heap s with teids := ((st.s11.heap s).teids.store 11 k).store 1 k1 } : Sess) with active := true } (st.s11.brs b) := rfl
      rw [er]
      generalize ({ st.s11.heap s with teids := ((st.s11.heap s).teids.store 11 k).store 1 k1 } : Sess) = x at hi'
      unfold orDrop activateH
      rw [put_heap, if_neg hi', Pgw.put_activate _ _ _ _ _ hi']
    refine (on11_eq (st := with11 st _) hact).trans ?_
    rfl
  cases hh : (m.fields 6).head? with
  | none =>
    exact tail _ rfl
  | some i =>
    obtain ⟨l, hl⟩ : ∃ l, m.fields 6 = i :: l := by
      cases h : m.fields 6 with
      | nil => rw [h] at hh; cases hh
      | cons j l => rw [h] at hh; cases hh; exact ⟨l, rfl⟩
    obtain ⟨x, hx⟩ := h6 _ _ hl
    refine (ask_go hb _).trans ?_
    refine (val_bind hx _ _).trans ?_
    exact tail _ rfl

end Verif.V2.Sgw
