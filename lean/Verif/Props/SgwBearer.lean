import Verif.Props.Sgw
import Verif.Proofs.SgwBearer
import Verif.Props.SgwRuns
import Verif.Props.Mme
/-
C104: the P-GW deletes a bearer through the S-GW of examples/gw-tester.
-/
namespace Verif.V2.Sgw
open Res Send Conn NetIP Spec IPSpec
open Pgw (Says has_of typ_of getByTEID_ok seq_small)

/-- the request names the bearer in `x`: as the linked one, or as the first of a list -/
def Names (m : Message) (x : IE) : Prop :=
  (Has m "LinkedEBI" [x] ∧ Has m "EBIs" []) ∨ ∃ l, Has m "LinkedEBI" [] ∧ Has m "EBIs" (x :: l)

/-- what the P-GW reads calls its handler of Delete Bearer Responses and answers its request -/
def Answers (g : UInt8 → Bool) (m m' : Message) (kP : UInt32) (out : Bytes) : Prop :=
  (∀ A n aS, A.handlers.load 100 = some (.app n) → Reaches A kP aS → ∀ w, serveDatagram g A aS (asRead out) w = ([.call n aS m'], ok ())) ∧
  m'.schema = Tab.deleteBearerResponse ∧ m'.hdr.teidAcc = kP ∧ m'.hdr.sequence = m.hdr.sequence

/-- the two sessions when the bearer is deleted: they are still found, and the S5 session has no bearer.
Departure: the S11 session still has the same one, and there is no word to the connections for user data -/
structure Stripped (st : State) (s b s5 : Nat) (a aP : Addr) (v : Request) (k k5 kP : UInt32) : Prop where
  found11 : getSessionByTEID st.s11 k a = ok s ∧ getSessionByIMSI st.s11 v.imsi = ok s
  found5 : getSessionByTEID st.s5 k5 aP = ok s5 ∧ getSessionByIMSI st.s5 v.imsi = ok s5
  imsi : (st.s11.heap s).imsi = v.imsi ∧ (st.s5.heap s5).imsi = v.imsi
  pgw : (st.s5.heap s5).teids.load 7 = some kP
  none5 : getDefaultBearer st.s5 s5 = none ∧ ∀ o ebi, lookupBearerByEBI st.s5 s5 o ebi = err .notFound
  bearer11 : getDefaultBearer st.s11 s = some b

variable {g : UInt8 → Bool} {p : Cfg} {st : State} {s b s5 b5 : Nat} {a aP : Addr} {v : Request} {k k5 ku k1 kP kuP : UInt32} {uAddr : Bytes}

theorem stripped_of (hA : Attached st s b s5 b5 a aP v k k5 ku k1 kP kuP uAddr) {st' : State} (h11 : st'.s11 = st.s11) (h5 : st'.s5 = bare st.s5 s5) :
    Stripped st' s b s5 a aP v k k5 kP := by
  have H := bare_heap st.s5 s5 b5 hA.only.2
  have B : ((bare st.s5 s5).heap s5).bearers = [] := by rw [H]
  refine ⟨by rw [h11]; exact hA.found11, ⟨?_, ?_⟩, ⟨?_, ?_⟩, ?_, ⟨?_, fun o ebi => ?_⟩, by rw [h11]; exact hA.bearer11.1⟩
  · rw [h5]
    refine getByTEID_ok.2 ⟨(getByTEID_ok.1 hA.found5.1).1, ?_⟩
    rw [H]; exact (getByTEID_ok.1 hA.found5.1).2
  · rw [h5]; exact hA.found5.2
  · rw [h11]; exact (hA.subscriber _ (Or.inl rfl)).1
  · rw [h5, H]; exact (hA.subscriber _ (Or.inr rfl)).1
  · rw [h5, H]; exact hA.teids5.2.1
  · rw [h5]; unfold getDefaultBearer; rw [B]; rfl
  · rw [h5]; exact find_none B o ebi

theorem found_of (hA : Attached st s b s5 b5 a aP v k k5 ku k1 kP kuP uAddr) {m : Message} (hsc : m.schema = Tab.deleteBearerRequest) (ht : m.hdr.teidAcc = k5) :
    Found g st aP m s5 s kP v.teid :=
  ⟨by rw [ht]; exact hA.found5.1, by rw [(hA.subscriber _ (Or.inr rfl)).1]; exact hA.found11.2, hA.teids5.2.1, hA.teids11.2.1, hsc⟩

theorem names_get {m : Message} (hsc : m.schema = Tab.deleteBearerRequest) {x : IE} (h : Names m x) :
    ∃ f, (f = 0 ∨ f = 1) ∧ x ∈ m.fields f ∧ (((m.fields 0).head? = some x ∧ (m.fields 1).head? = none) ∨ ((m.fields 0).head? = none ∧ (m.fields 1).head? = some x)) ∧
      ∀ m' : Message, m'.schema = Tab.deleteBearerRequest → (∀ j, m'.fields j = if j = f then [x] else []) → Names m' x := by
  have nd : Tab.deleteBearerRequest.fields.Nodup := by decide +kernel
  rcases h with ⟨h0, h1⟩ | ⟨l, h0, h1⟩
  · have h0 := has_field hsc nd (k := 0) (by decide) h0
    have h1 := has_field hsc nd (k := 1) (by decide) h1
    exact ⟨0, Or.inl rfl, by rw [h0]; simp, Or.inl ⟨by rw [h0]; rfl, by rw [h1]; rfl⟩,
      fun m' hs hF => Or.inl ⟨has_of hs (k := 0) (by decide) (hF 0), has_of hs (k := 1) (by decide) (hF 1)⟩⟩
  · have h0 := has_field hsc nd (k := 0) (by decide) h0
    have h1 := has_field hsc nd (k := 1) (by decide) h1
    exact ⟨1, Or.inr rfl, by rw [h1]; simp, Or.inr ⟨by rw [h0]; rfl, by rw [h1]; rfl⟩,
      fun m' hs hF => Or.inr ⟨[], has_of hs (k := 0) (by decide) (hF 0), has_of hs (k := 1) (by decide) (hF 1)⟩⟩

theorem Usual.g2 (h : Usual g) : g 2 = false := h.others.1 2 (by simp)

theorem must_ok {x : IE} {e : UInt8} (h : x.ebi g = ok e) : mustEBI g x = e := by unfold mustEBI; rw [h]

theorem handle_named {e : Env} {m : Message} {mme : UInt32} (hF : Found g st aP m s5 s kP mme) {x : IE} (hx : Names m x) :
    handleDeleteBearer g e aP m st = handleDeleteBearer.go g e aP m s5 s kP mme x st := by
  rw [handle_bearer hF]
  obtain ⟨_, _, _, ⟨h0, h1⟩ | ⟨h0, h1⟩, _⟩ := names_get hF.schema hx <;> rw [h0, h1]

theorem reach5 (hi : Inv none st) (hA : Attached st s b s5 b5 a aP v k k5 ku k1 kP kuP uAddr) {d : Bytes} {m : Message} (hm : parseMsg g d = ok m)
    (hsc : m.schema = Tab.deleteBearerRequest) (ht : m.hdr.teidAcc = k5) (e : Env) :
    step g p st e (.s5 aP d) = handleDeleteBearer g e aP m st := by
  have hs : serveDatagram g st.s5 aP d e.w = ([.call 2 aP m], ok ()) := by
    refine serve_reaches hm ?_ (by rw [ht]; exact Or.inr ⟨s5, hA.found5.1⟩) _
    rw [hi.s5.handlers, typ_of hm, hsc]; rfl
  simp only [step, hs]

/-- **C104** the P-GW's Delete Bearer Request makes the S-GW send one to the MME, with the MME's TEID and the element that names the bearer; the
MME's answer makes the waiting handler answer the P-GW, with the TEID and sequence number it expects and all elements of the MME's answer, and the
bearer is gone from the S5 session.  Departures: of several bearers only the first is passed on and deleted; the bearer on S11 stays; user data
for the deleted bearer is relayed as before.  Partial: the bearer is the one of the attach, whose EBI is 5; messages of at most 1496 octets; the
session's queue has no older messages. -/
theorem C104_delete_partial (h : Runs g p st) (hA : Attached st s b s5 b5 a aP v k k5 ku k1 kP kuP uAddr) (hq : st.q5 s5 = [])
    (d : Bytes) (m : Message) (hm : parseMsg g d = ok m) (hsc : m.schema = Tab.deleteBearerRequest) (ht : m.hdr.teidAcc = k5) (hd : d.length ≤ 1496)
    (x : IE) (hx : Names m x) (hx5 : x.ebi g = ok 5) (e : Env) (hw : e.w = true) :
    ∃ st₁ out₁ m₁, step g p st e (.s5 aP d) = (st₁, [(.s11, .sent a out₁)], ok ()) ∧
      parseMsg g (asRead out₁) = ok m₁ ∧ m₁.schema = Tab.deleteBearerRequest ∧ m₁.hdr.teidAcc = v.teid ∧ Names m₁ x ∧
      ∀ (d₂ : Bytes) (m₂ : Message), parseMsg g d₂ = ok m₂ → m₂.schema = Tab.deleteBearerResponse → m₂.hdr.teidAcc = k →
        m₂.hdr.sequence = m₁.hdr.sequence → d₂.length ≤ 1496 → ∀ e₂ e₃ : Env, e₃.w = true →
        ∃ st₂ st₃ out₃ m₃, step g p st₁ e₂ (.s11 a d₂) = (st₂, [], ok ()) ∧
          step g p st₂ e₃ (.wake st.waiting.length) = (st₃, [(.s5, .sent aP out₃)], ok ()) ∧
          Answers g m m₃ kP out₃ ∧ m₃.fields = m₂.fields ∧
          Stripped st₃ s b s5 a aP v k k5 kP ∧ st₃.waiting = st.waiting ∧ st₃.q5 s5 = [] ∧ st₃.s1u = st.s1u ∧ st₃.s5u = st.s5u ∧
          ((∀ imsi, st.s11.byImsi.load imsi ≠ some e.s ∧ st.s11.byImsi.load imsi ≠ some e₂.s ∧ st.s11.byImsi.load imsi ≠ some e₃.s) → Runs g p st₃) := by
  have hi := runs_inv h
  obtain ⟨f, hf, hxf, -, hN⟩ := names_get hsc hx
  obtain ⟨hS, hF⟩ := named_sendable hm hsc hd hf hxf
  have hv : mustEBI g x = (st.s5.brs b5).ebi := by rw [must_ok hx5, hA.bearer5.2.2.1]
  have hn : mustEBI g x ≠ (st.s11.brs b).ebi := by rw [must_ok hx5, hA.bearer11.2.2]; decide
  obtain ⟨out₁, m₁, h1, h2, h3, h4, h5, h6⟩ := go_ok (e := e) hw (a := aP) (m := m) (s := s) (kP := kP) (mme := v.teid) hS hA.only.2 hv
  have hpeer : (st.s11.heap s).peer = a := (getByTEID_ok.1 hA.found11.1).2
  rw [hpeer] at h1
  have hst₁ : step g p st e (.s5 aP d) = (afterBearer st s5 s aP m kP x, [(.s11, .sent a out₁)], ok ()) := by
    rw [reach5 hi hA hm hsc ht, handle_named (found_of hA hsc ht) hx]; exact h1
  refine ⟨_, out₁, m₁, hst₁, h2, h3, h4, hN m₁ h3 (by rw [h6]; exact hF), ?_⟩
  intro d₂ m₂ hm₂ hsc₂ ht₂ hq₂ hd₂ e₂ e₃ hw₃
  let st₁ := afterBearer st s5 s aP m kP x
  let st₂ : State := { st₁ with q5 := fun i => if i = s5 then st.q5 i ++ [m₂] else st.q5 i }
  have hst₂ : step g p st₁ e₂ (.s11 a d₂) = (st₂, [], ok ()) := by
    have hs : serveDatagram g st₁.s11 a d₂ e₂.w = ([.call 3 a m₂], ok ()) := by
      refine serve_reaches hm₂ ?_ (by rw [ht₂]; exact Or.inr ⟨s, hA.found11.1⟩) _
      show st.s11.handlers.load _ = _
      rw [hi.s11.handlers, typ_of hm₂, hsc₂]; rfl
    simp only [step, hs]
    refine bearer_deleted (st := st₁) (s := s) (s5 := s5) (by rw [ht₂]; exact hA.found11.1) ?_ (by show (st.q5 s5).length < _; rw [hq]; decide)
    show getSessionByIMSI st.s5 (st.s11.heap s).imsi = _
    rw [(hA.subscriber _ (Or.inl rfl)).1]; exact hA.found5.2
  let y := Waiting.bearer s5 s (inc st.n11) aP m kP x
  have hqq : y.queue st₂ = [m₂] := by
    show (if s5 = s5 then st.q5 s5 ++ [m₂] else _) = _
    rw [if_pos rfl, hq]; rfl
  let st₂' := y.pop { st₂ with waiting := st₂.waiting.eraseIdx st.waiting.length }
  obtain ⟨out₃, m₃, q1, q2, q3, q4, q5, q6, q7⟩ := finish_bearer hm₂ hsc₂ hd₂ (st := st₂') hw₃ aP (s5 := s5) (s := s) m (seq_small hm) kP (x := x)
    (b := b) (b5 := b5) hA.only.1 hA.only.2 hv hn
  have hst₃ : step g p st₂ e₃ (.wake st.waiting.length) = (with5 st₂' (bare st.s5 s5), [(.s5, .sent aP out₃)], ok ()) := by
    have hget : st₂.waiting[st.waiting.length]? = some y := by
      show (st.waiting ++ [y])[st.waiting.length]? = _
      simp
    simp only [step]
    rw [hget]
    simp only [hqq]
    rw [if_neg (by rw [hq₂, h5]; simp [y, Waiting.seq])]
    exact q1
  have hread : asRead out₃ = out₃ := List.take_of_length_le q2
  refine ⟨st₂, _, out₃, m₃, hst₂, hst₃, ⟨fun A n aS h1 h2 w => ?_, q4, q5, q6⟩, q7, stripped_of hA rfl rfl, ?_, ?_, rfl, rfl, fun hf => ?_⟩
  · rw [hread]
    exact serve_reaches q3 (by rw [typ_of q3, q4]; exact h1) (by rw [q5]; exact h2) w
  · show (st.waiting ++ [y]).eraseIdx st.waiting.length = _
    simp [List.eraseIdx_append_of_length_le]
  · show (if s5 = s5 then (if s5 = s5 then st.q5 s5 ++ [m₂] else _).drop 1 else _) = []
    rw [if_pos rfl, if_pos rfl, hq]; rfl
  · have hr₁ := Runs.step (p := p) st e (.s5 aP d) h fun i => (hf i).1
    rw [hst₁] at hr₁
    have hr₂ := Runs.step (p := p) st₁ e₂ (.s11 a d₂) hr₁ fun i => (hf i).2.1
    rw [hst₂] at hr₂
    have hr₃ := Runs.step (p := p) st₂ e₃ (.wake st.waiting.length) hr₂ fun i => (hf i).2.2
    rw [hst₃] at hr₃
    exact hr₃

/-- **C104** if the MME does not answer, the S-GW tells the P-GW No Resources Available, with the TEID and sequence number it expects.
Departure: the bearer is gone from the S5 session all the same -/
theorem C104_timeout_partial (hg : Usual g) (h : Runs g p st) (hA : Attached st s b s5 b5 a aP v k k5 ku k1 kP kuP uAddr)
    (d : Bytes) (m : Message) (hm : parseMsg g d = ok m) (hsc : m.schema = Tab.deleteBearerRequest) (ht : m.hdr.teidAcc = k5) (hd : d.length ≤ 1496)
    (x : IE) (hx : Names m x) (hx5 : x.ebi g = ok 5) (e e₂ : Env) (hw : e.w = true) (hw₂ : e₂.w = true) :
    ∃ st₁ out₁ st₂ out₂ m₂, step g p st e (.s5 aP d) = (st₁, [(.s11, .sent a out₁)], ok ()) ∧
      step g p st₁ e₂ (.expire st.waiting.length) = (st₂, [(.s5, .sent aP out₂)], err .other) ∧
      Answers g m m₂ kP out₂ ∧ Says m₂ "Cause" (IE.cause g) 73 ∧ Stripped st₂ s b s5 a aP v k k5 kP ∧ st₂.waiting = st.waiting := by
  have hi := runs_inv h
  obtain ⟨f, hf, hxf, -, hN⟩ := names_get hsc hx
  obtain ⟨hS, hF⟩ := named_sendable hm hsc hd hf hxf
  have hv : mustEBI g x = (st.s5.brs b5).ebi := by rw [must_ok hx5, hA.bearer5.2.2.1]
  have hn : mustEBI g x ≠ (st.s11.brs b).ebi := by rw [must_ok hx5, hA.bearer11.2.2]; decide
  obtain ⟨out₁, m₁, h1, -⟩ := go_ok (e := e) hw (a := aP) (m := m) (s := s) (kP := kP) (mme := v.teid) hS hA.only.2 hv
  have hpeer : (st.s11.heap s).peer = a := (getByTEID_ok.1 hA.found11.1).2
  rw [hpeer] at h1
  have hst₁ : step g p st e (.s5 aP d) = (afterBearer st s5 s aP m kP x, [(.s11, .sent a out₁)], ok ()) := by
    rw [reach5 hi hA hm hsc ht, handle_named (found_of hA hsc ht) hx]; exact h1
  obtain ⟨out₂, m₂, r1, r2, r3, r4, r5, y, r6, r7⟩ := refuse hg.g2 hm st.s5 aP kP 73 none
  let st₁' : State := { afterBearer st s5 s aP m kP x with waiting := (afterBearer st s5 s aP m kP x).waiting.eraseIdx st.waiting.length }
  have hf := fail_bearer (e := e₂) (st := st₁')
    (s5 := s5) (s := s) (b := b) (b5 := b5) (x := x) (kP := kP) (m := m) (a := aP) (by rw [hw₂]; exact r1) hA.only.1 hA.only.2 hv hn
  refine ⟨_, out₁, with5 st₁' (bare st.s5 s5), out₂, m₂, hst₁, ?_, ⟨r2, r3, r4, r5⟩, ⟨y, [], has_of r3 (k := 0) (by decide) r6, r7⟩, ?_, ?_⟩
  · have hget : (afterBearer st s5 s aP m kP x).waiting[st.waiting.length]? = some (.bearer s5 s (inc st.n11) aP m kP x) := by
      show (st.waiting ++ [_])[st.waiting.length]? = _
      simp
    simp only [step]
    rw [hget]
    exact hf
  · exact stripped_of hA rfl rfl
  · show (st.waiting ++ [_]).eraseIdx st.waiting.length = _
    simp [List.eraseIdx_append_of_length_le]

/-- **C104** a request for a bearer the S-GW does not have is answered at once with Context Not Found, and changes nothing -/
theorem C104_unknown (hg : Usual g) (h : Runs g p st) (hA : Attached st s b s5 b5 a aP v k k5 ku k1 kP kuP uAddr)
    (d : Bytes) (m : Message) (hm : parseMsg g d = ok m) (hsc : m.schema = Tab.deleteBearerRequest) (ht : m.hdr.teidAcc = k5)
    (x : IE) (hx : Names m x) (hx5 : x.ebi g ≠ ok 5) (e : Env) (hw : e.w = true) :
    ∃ out m', step g p st e (.s5 aP d) = (st, [(.s5, .sent aP out)], err .notFound) ∧ Answers g m m' kP out ∧ Says m' "Cause" (IE.cause g) 64 := by
  obtain ⟨out, m', r1, r2, r3, r4, r5, y, r6, r7⟩ := refuse hg.g2 hm st.s5 aP kP 64 none
  refine ⟨out, m', ?_, ⟨r2, r3, r4, r5⟩, ⟨y, [], has_of r3 (k := 0) (by decide) r6, r7⟩⟩
  rw [reach5 (runs_inv h) hA hm hsc ht, handle_named (found_of hA hsc ht) hx]
  refine go_unknown (by rw [hw]; exact r1) hA.only.2 ?_
  rw [hA.bearer5.2.2.1]
  unfold mustEBI
  intro he
  cases hy : x.ebi g with
  | ok w => rw [hy] at he hx5; exact hx5 (congrArg _ he)
  | err _ => rw [hy] at he; exact absurd (show (0 : UInt8) = 5 from he) (by decide)
  | panic => rw [hy] at he; exact absurd (show (0 : UInt8) = 5 from he) (by decide)
  | diverge => rw [hy] at he; exact absurd (show (0 : UInt8) = 5 from he) (by decide)

/-- **C104** a request that names no bearer is answered with Mandatory IE Missing, and one that names one both ways with Context Not Found; both
change nothing -/
theorem C104_malformed (hg : Usual g) (h : Runs g p st) (hA : Attached st s b s5 b5 a aP v k k5 ku k1 kP kuP uAddr)
    (d : Bytes) (m : Message) (hm : parseMsg g d = ok m) (hsc : m.schema = Tab.deleteBearerRequest) (ht : m.hdr.teidAcc = k5) (e : Env) (hw : e.w = true) :
    (Has m "LinkedEBI" [] → Has m "EBIs" [] →
      ∃ out m', step g p st e (.s5 aP d) = (st, [(.s5, .sent aP out)], ok ()) ∧ Answers g m m' kP out ∧ Says m' "Cause" (IE.cause g) 70) ∧
    (∀ x y l l', Has m "LinkedEBI" (x :: l) → Has m "EBIs" (y :: l') →
      ∃ out m', step g p st e (.s5 aP d) = (st, [(.s5, .sent aP out)], err .other) ∧ Answers g m m' kP out ∧ Says m' "Cause" (IE.cause g) 64) := by
  have nd : Tab.deleteBearerRequest.fields.Nodup := by decide +kernel
  refine ⟨fun h0 h1 => ?_, fun x z l l' h0 h1 => ?_⟩
  all_goals have h0 := has_field hsc nd (k := 0) (by decide) h0
  all_goals have h1 := has_field hsc nd (k := 1) (by decide) h1
  · obtain ⟨out, m', r1, r2, r3, r4, r5, y, r6, r7⟩ := refuse hg.g2 hm st.s5 aP kP 70 (some (newEBI 0))
    refine ⟨out, m', ?_, ⟨r2, r3, r4, r5⟩, ⟨y, [], has_of r3 (k := 0) (by decide) r6, r7⟩⟩
    rw [reach5 (runs_inv h) hA hm hsc ht, handle_bearer (found_of hA hsc ht), h0, h1]
    rw [hw]
    exact on5_eq (r1 _)
  · obtain ⟨out, m', r1, r2, r3, r4, r5, y, r6, r7⟩ := refuse hg.g2 hm st.s5 aP kP 64 (some z)
    refine ⟨out, m', ?_, ⟨r2, r3, r4, r5⟩, ⟨y, [], has_of r3 (k := 0) (by decide) r6, r7⟩⟩
    rw [reach5 (runs_inv h) hA hm hsc ht, handle_bearer (found_of hA hsc ht), h0, h1]
    rw [hw]
    exact (bind_sent (on5_eq (r1 _)) (st'' := st) (r := err .other) rfl)

/-- **C104** Departure: once the bearer is deleted, every Delete Session Request of the MME for the session crashes the S-GW -/
theorem C104_crash_wrong (h : Runs g p st) (hS : Stripped st s b s5 a aP v k k5 kP) (d : Bytes) (m : Message) (hm : parseMsg g d = ok m)
    (hsc : m.schema = Tab.deleteSessionRequest) (ht : m.hdr.teidAcc = k) (e : Env) : step g p st e (.s11 a d) = (st, [], .panic) := by
  have hi := runs_inv h
  have hs : serveDatagram g st.s11 a d e.w = ([.call 2 a m], ok ()) := by
    refine serve_reaches hm ?_ (by rw [ht]; exact Or.inr ⟨s, hS.found11.1⟩) _
    rw [hi.s11.handlers, typ_of hm, hsc]; rfl
  simp only [step, hs]
  unfold handleDelete
  rw [if_neg (by rw [hsc]; decide)]
  refine (ask_go (a := ok s) (by rw [ht]; exact hS.found11.1) _).trans ?_
  refine (val_bind rfl _ _).trans ?_
  refine (ask_go hS.imsi.1 _).trans ?_
  refine (ask_go hS.found5.2 _).trans ?_
  refine (val_bind rfl _ _).trans ?_
  refine (on5_go (st := st) rfl (getTEID_some hS.pgw) _).trans ?_
  refine (ask_go hS.none5.1 _).trans ?_
  rfl

/-- **C104** Departure: the MME of the same example has no handler for this request: whatever it gets, it answers nothing and does nothing, so
with it every such exchange ends as in `C104_timeout_partial` -/
theorem C104_mme_wrong (pm : Mme.Cfg) (sm : Mme.State) (h : Mme.Runs g pm sm) (aS : Addr) (d : Bytes) (m : Message) (hm : parseMsg g d = ok m)
    (hsc : m.schema = Tab.deleteBearerRequest) (e : Mme.Env) :
    ∃ r, Mme.step g pm sm e (.s11 aS d) = (sm, [], r) ∧ (Reaches sm.s11 m.hdr.teidAcc aS → r = err .notFound) := by
  have hh : sm.s11.handlers.load m.hdr.typ = none := by
    rw [(Mme.runs_inv h).handlers, typ_of hm, hsc]; rfl
  have hd : dispatch g sm.s11 aS m e.w = ([], err .notFound) := by unfold dispatch; rw [hh]
  have key : ∃ r, serveDatagram g sm.s11 aS d e.w = ([], r) ∧ (Reaches sm.s11 m.hdr.teidAcc aS → r = err .notFound) := by
    unfold serveDatagram handleMessage
    rw [hm]
    simp only [(Mme.runs_inv h).validation, if_true]
    unfold validate
    rw [if_neg (by exact fun x => x rfl)]
    by_cases h0 : m.hdr.teidAcc = 0
    · rw [if_neg (by simp [h0])]
      exact ⟨_, by simp only [hd]; rfl, fun _ => rfl⟩
    · rw [if_pos h0]
      cases hs : getSessionByTEID sm.s11 m.hdr.teidAcc aS with
      | ok s => exact ⟨_, by simp only [hd]; rfl, fun _ => rfl⟩
      | err x => exact ⟨_, rfl, fun _ => rfl⟩
      | panic => exact ⟨_, rfl, fun hr => by rcases hr with h | ⟨s, h⟩ <;> simp_all⟩
      | diverge => exact ⟨_, rfl, fun hr => by rcases hr with h | ⟨s, h⟩ <;> simp_all⟩
  obtain ⟨r, k1, k2⟩ := key
  refine ⟨r, ?_, k2⟩
  simp only [Mme.step]
  rw [k1]
  rfl

/-! ### concrete runs -/

def exBear (l : List (Option IE)) : Bytes := Pgw.exDatagram Tab.deleteBearerRequest 21 30 l
def exb1 : State × List (Port × Ev) × Res Unit := step defaultGrouped exG ex4.1 (exE 1 60) (.s5 exP (exBear [some (newIE 73 0 [5])]))
def exb2 : State × List (Port × Ev) × Res Unit :=
  step defaultGrouped exG exb1.1 (exE 1 60) (.s11 "m" (Pgw.exDatagram Tab.deleteBearerResponse 20 1 [some (newIE 2 0 [16, 0])]))
def exb3 : State × List (Port × Ev) × Res Unit := step defaultGrouped exG exb2.1 (exE 1 60) (.wake 0)
-- the exchange, and the same without an answer
example : exSeen exb1 = ([(.s11, ⟨"m", 99, 200, 1, [(73, 0, [5])]⟩)], ok ()) ∧ exSeen exb2 = ([], ok ()) ∧
    exSeen exb3 = ([(.s5, ⟨exP, 100, 7, 30, [(2, 0, [16, 0])]⟩)], ok ()) ∧
    getDefaultBearer exb2.1.s5 0 = some 0 ∧ getDefaultBearer exb3.1.s5 0 = none ∧ getDefaultBearer exb3.1.s11 0 = some 0 ∧
    getSessionByTEID exb3.1.s5 21 exP = ok 0 ∧ exb3.1.waiting.length = 0 ∧
    exSeen (exSilent exb1.1) = ([(.s5, ⟨exP, 100, 7, 30, [(2, 0, [73, 0])]⟩)], err .other) ∧ getDefaultBearer (exSilent exb1.1).1.s5 0 = none := by
  decide +kernel
-- the MME's detach afterwards; an unknown bearer, no bearer, and one named both ways
example : (step defaultGrouped exG exb3.1 (exE 1 60) (.s11 "m" exDel)).2.2 = .panic ∧
    exSeen (step defaultGrouped exG ex4.1 (exE 1 60) (.s5 exP (exBear [some (newIE 73 0 [6])]))) =
      ([(.s5, ⟨exP, 100, 7, 30, [(2, 0, [64, 0])]⟩)], err .notFound) ∧
    exSeen (step defaultGrouped exG ex4.1 (exE 1 60) (.s5 exP (exBear []))) =
      ([(.s5, ⟨exP, 100, 7, 30, [(2, 0, [70, 0, 73, 0, 0, 0])]⟩)], ok ()) ∧
    exSeen (step defaultGrouped exG ex4.1 (exE 1 60) (.s5 exP (exBear [some (newIE 73 0 [5]), some (newIE 73 1 [5])]))) =
      ([(.s5, ⟨exP, 100, 7, 30, [(2, 0, [64, 0, 73, 0, 0, 0])]⟩)], err .other) := by
  decide +kernel

end Verif.V2.Sgw

/-! ### cases that meet the hypotheses -/

namespace Verif.V2.Sgw
open Res Send Conn NetIP Spec IPSpec
open Pgw (Says says_get has_of exMsg exMsg_ok exSchema)

theorem bear5_ok : parseMsg defaultGrouped (exBear [some (newIE 73 0 [5])]) = ok (exMsg (exBear [some (newIE 73 0 [5])])) := exMsg_ok (by decide +kernel)
theorem bear5_schema : (exMsg (exBear [some (newIE 73 0 [5])])).schema = Tab.deleteBearerRequest := exSchema _ (by simp [Tab.all]) bear5_ok (by decide +kernel)
theorem bear5_names : Names (exMsg (exBear [some (newIE 73 0 [5])])) (newIE 73 0 [5]) :=
  .inl ⟨has_of bear5_schema (k := 0) (by decide) (by decide +kernel), has_of bear5_schema (k := 1) (by decide) (by decide +kernel)⟩
theorem bear6_ok : parseMsg defaultGrouped (exBear [some (newIE 73 1 [6])]) = ok (exMsg (exBear [some (newIE 73 1 [6])])) := exMsg_ok (by decide +kernel)
theorem bear6_schema : (exMsg (exBear [some (newIE 73 1 [6])])).schema = Tab.deleteBearerRequest := exSchema _ (by simp [Tab.all]) bear6_ok (by decide +kernel)
theorem bear6_names : Names (exMsg (exBear [some (newIE 73 1 [6])])) (newIE 73 1 [6]) :=
  .inr ⟨[], has_of bear6_schema (k := 0) (by decide) (by decide +kernel), has_of bear6_schema (k := 1) (by decide) (by decide +kernel)⟩
theorem exStripped : Stripped exb3.1 0 0 0 "m" exP exV 20 21 7 := by
  refine ⟨by decide +kernel, by decide +kernel, by decide +kernel, by decide +kernel, ⟨by decide +kernel, fun o ebi => ?_⟩, by decide +kernel⟩
  have h : (exb3.1.s5.heap 0).bearers = [] := List.eq_nil_of_length_eq_zero (by decide +kernel)
  exact find_none h o ebi
theorem exRunsb1 : Runs defaultGrouped exG exb1.1 := Runs.step _ _ _ exRuns4 (unused_ex (by decide +kernel))
theorem exRunsb2 : Runs defaultGrouped exG exb2.1 := Runs.step _ _ _ exRunsb1 (unused_ex (by decide +kernel))
theorem exRunsb3 : Runs defaultGrouped exG exb3.1 := Runs.step _ _ _ exRunsb2 (unused_ex (by decide +kernel))

example := C104_delete_partial exRuns4 exAttached4 (by decide +kernel) (exBear [some (newIE 73 0 [5])]) _ bear5_ok bear5_schema (by decide +kernel)
  (by decide +kernel) _ bear5_names (by decide +kernel) (exE 1 60) rfl
example := C104_timeout_partial exUsual exRuns4 exAttached4 (exBear [some (newIE 73 0 [5])]) _ bear5_ok bear5_schema (by decide +kernel)
  (by decide +kernel) _ bear5_names (by decide +kernel) (exE 1 60) (exE 1 61) rfl rfl
example := C104_unknown exUsual exRuns4 exAttached4 (exBear [some (newIE 73 1 [6])]) _ bear6_ok bear6_schema (by decide +kernel) _ bear6_names
  (by decide +kernel) (exE 1 60) rfl
example := C104_malformed exUsual exRuns4 exAttached4 (exBear [some (newIE 73 1 [6])]) _ bear6_ok bear6_schema (by decide +kernel) (exE 1 60) rfl
example := C104_crash_wrong exRunsb3 exStripped exDel _ exDel_ok exDel_schema (by decide +kernel) (exE 1 60)
example := C104_mme_wrong ⟨[], [], [], [], [], []⟩ _ (Mme.Runs.start fun _ => Pgw.exS0) "s" (exBear [some (newIE 73 0 [5])]) _ bear5_ok bear5_schema ⟨0, 0, none, true⟩
end Verif.V2.Sgw
