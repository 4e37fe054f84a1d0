import Verif.Props.V2Create
import Verif.Props.V2Msg2
/-
C61 (composed), C62, C63: the session made from elements built by the constructors, how it is found afterwards, and the
requests sent (gtpv2/conn.go:429-437, 461-643).
-/
namespace Verif.V2.Conn
open Res Send Utils Spec

theorem build_new {t : UInt8} {r : Res Bytes} {i : IE} (h : build t r = ok (some i)) : ∃ p, i = newIE t 0 p := by
  cases r with
  | ok b => simp only [build, ok.injEq, Option.some.injEq] at h; exact ⟨b, h.symm⟩
  | _ => simp [build] at h

theorem digits_new {t : UInt8} {x : Bytes} {i : IE} (h : newDigits t x = ok (some i)) : ∃ p, i = newIE t 0 p := by
  unfold newDigits at h
  split at h
  · simp only [ok.injEq, Option.some.injEq] at h; exact ⟨_, h.symm⟩
  all_goals simp at h

set_option maxHeartbeats 1000000 in
/-- C61 from end to end: elements made with the library's constructors from a subscriber's data give a session and a default
bearer with that data.  Partial: IMSIs with an odd number of digits (see `C44_v2_imsi_even_wrong`), and of the QoS the
pre-emption flags and the guaranteed bit rate downlink are not kept (`C61_pci_pvi_wrong`, `C61_gbr_down_wrong`). -/
theorem C61_built_partial (g : UInt8 → Bool) (hg : ∀ t ∈ [1, 76, 75, 83, 82, 71, 87, 73, 80], g t = false)
    (c : Conn) (s b : Nat) (raddr : Addr)
    (imsi msisdn imei mcc mnc apn a4 a6 v4 v6 : Bytes) (rat ebi if1 if2 pci pl pvi qci : UInt8) (t1 t2 : UInt32)
    (mu md gu gd : UInt64)
    (hi : Digits imsi) (hi1 : imsi.length % 2 = 1) (hil : imsi.length ≤ 131070)
    (hm : Digits msisdn) (hm0 : msisdn ≠ []) (hml : msisdn.length ≤ 131070)
    (he : Digits imei) (he0 : imei ≠ []) (hel : imei.length ≤ 131070)
    (hp : IsPLMN mcc mnc) (ha : ∀ l ∈ splitDot apn, l.length ≤ 255) (hal : apn.length < 65535)
    (hif1 : if1 < 64) (hif2 : if2 < 64) (hne : if1 ≠ if2) (hebi : ebi < 16)
    (hpci : pci < 2) (hpl : pl < 16) (hpvi : pvi < 2) (r1 : mu.toNat < 2 ^ 40) (r2 : md.toNat < 2 ^ 40)
    (r3 : gu.toNat < 2 ^ 40) (r4 : gd.toNat < 2 ^ 40) :
    ∃ i1 i2 i3 i4 i6 i7 q f2 bc c',
      newIMSI imsi = ok (some i1) ∧ newMSISDN msisdn = ok (some i2) ∧ newMEI imei = ok (some i3) ∧
      newPLMN 83 mcc mnc = ok (some i4) ∧ Plain.newName ⟨"AccessPointName", 71, [71]⟩ apn = ok i6 ∧
      newFTEID if1 t1 a4 a6 = ok (some i7) ∧ newBearerQoS pci pl pvi qci mu md gu gd = ok (some q) ∧
      newFTEID if2 t2 v4 v6 = ok (some f2) ∧ newGrouped g 93 [some (newEBI ebi), some q, some f2] = ok (some bc) ∧
      parseCreateSession c g s b raddr
        [some i1, some i2, some i3, some i4, some (Plain.new8 ⟨"RATType", 82, [82]⟩ rat), some i6, some i7, some bc] =
        (c', ok ()) ∧
      (c'.heap s).imsi = imsi ∧ (c'.heap s).msisdn = msisdn ∧ (c'.heap s).imei = imei ∧ (c'.heap s).mcc = mcc ∧
      (c'.heap s).mnc = mnc ∧ (c'.heap s).rat = rat ∧ (c'.brs b).apn = apn ∧ (c'.brs b).ebi = ebi ∧ (c'.brs b).pl = pl ∧
      (c'.brs b).qci = qci ∧ (c'.brs b).mbrUp = mu ∧ (c'.brs b).mbrDown = md ∧ (c'.brs b).gbrUp = gu ∧
      (c'.heap s).teids.load if1 = some t1 ∧ (c'.heap s).teids.load if2 = some t2 := by
  have hG : ∀ t, t ∈ [1, 76, 75, 83, 82, 71, 87, 73, 80] → g t = false := hg
  obtain ⟨i1, n1, _, k1⟩ := C44_v2_imsi_partial g imsi hi hi1 hil (hG 1 (by simp))
  obtain ⟨⟨i2, n2, _, k2⟩, _⟩ := C44_v2_msisdn_mei g msisdn hm hm0 hml (hG 76 (by simp)) (hG 75 (by simp))
  obtain ⟨_, ⟨i3, n3, _, k3⟩⟩ := C44_v2_msisdn_mei g imei he he0 hel (hG 76 (by simp)) (hG 75 (by simp))
  obtain ⟨i4, n4, _, _, _, _, k4⟩ := C50_plmn g 83 (Or.inr rfl) hp 0 (hG 83 (by simp))
  have k5 := (C55_uint8 g ⟨"RATType", 82, [82]⟩ (by decide) (hG 82 (by simp)) rat).h_get 0
  obtain ⟨i6, n6, k6⟩ := C55_name g ⟨"AccessPointName", 71, [71]⟩ (by decide) (hG 71 (by simp)) apn ha hal
  obtain ⟨i7, n7, _, k7⟩ := C41_fteid_partial g if1 t1 a4 a6 hif1 (hG 87 (by simp))
  obtain ⟨q, n8, _, k8⟩ := C42_bearer_qos_partial g pci pl pvi qci mu md gu gd hpci hpl hpvi r1 r2 r3 r4 (hG 80 (by simp))
  obtain ⟨f2, n9, _, k9⟩ := C41_fteid_partial g if2 t2 v4 v6 hif2 (hG 87 (by simp))
  obtain ⟨p1, rfl⟩ := digits_new n1
  obtain ⟨p2, rfl⟩ := digits_new n2
  obtain ⟨p3, rfl⟩ := digits_new n3
  obtain ⟨p4, rfl⟩ := build_new n4
  obtain ⟨p7, rfl⟩ := build_new n7
  obtain ⟨p8, rfl⟩ := build_new n8
  obtain ⟨p9, rfl⟩ := build_new n9
  have ⟨p6, e6⟩ : ∃ p, i6 = newIE 71 0 p := by
    unfold Plain.newName newFQDNIE at n6
    cases hq : encodeFQDN apn <;> rw [hq] at n6 <;> simp at n6
    exact ⟨_, n6.symm⟩
  subst e6
  have k1 := (k1 0).2
  have k2 := (k2 0).2
  have k3 := (k3 0).2
  have k6 := k6.h_get 0
  have k7 := (k7 0).2
  have k8 := (k8 0).2
  have k9 := (k9 0).2
  have ke : (newEBI ebi).ebi g = ok ebi := by
    have hb : ebi < 16 → ebi &&& 0x0f = ebi := forall_byte (p := fun b => b < 16 → b &&& 0x0f = b) (by decide +kernel) ebi
    simp [newEBI, newUint8IE, IE.ebi, IE.valueAsUint8, hG 73, hb hebi]
  rw [withInstance_new] at k1 k2 k3 k4 k6 k7 k8 k9
  have k5 : ratOf g (Plain.new8 ⟨"RATType", 82, [82]⟩ rat) = ok rat := k5
  have k6 : apnOf g (newIE 71 0 p6) = ok apn := k6
  obtain ⟨_, q1, q2, q3, q4, q5, _⟩ := k8
  have t5 : (Plain.new8 ⟨"RATType", 82, [82]⟩ rat).typ = 82 := rfl
  have t7 : (newEBI ebi).typ = 73 := rfl
  have tb : ∀ l p cs, (IE.mk 93 l 0 p cs).typ = 93 := fun _ _ _ => rfl
  have ti : ∀ l p cs, (IE.mk 93 l 0 p cs).instance' = 0 := by intro l p cs; simp [IE.instance', IE.rawInst]
  have tc : ∀ l p cs, (IE.mk 93 l 0 p cs).children = cs := fun _ _ _ => rfl
  have hat : atoms [some (newIE 1 0 p1), some (newIE 76 0 p2), some (newIE 75 0 p3), some (newIE 83 0 p4),
      some (Plain.new8 ⟨"RATType", 82, [82]⟩ rat), some (newIE 71 0 p6), some (newIE 87 0 p7),
      some (.mk 93 (UInt16.ofNat (rawEncs g [newEBI ebi, newIE 80 0 p8, newIE 87 0 p9]).length) 0
        (rawEncs g [newEBI ebi, newIE 80 0 p8, newIE 87 0 p9]) [newEBI ebi, newIE 80 0 p8, newIE 87 0 p9])] =
      [(true, newIE 1 0 p1), (true, newIE 76 0 p2), (true, newIE 75 0 p3), (true, newIE 83 0 p4),
        (true, Plain.new8 ⟨"RATType", 82, [82]⟩ rat), (true, newIE 71 0 p6), (true, newIE 87 0 p7),
        (true, .mk 93 (UInt16.ofNat (rawEncs g [newEBI ebi, newIE 80 0 p8, newIE 87 0 p9]).length) 0
          (rawEncs g [newEBI ebi, newIE 80 0 p8, newIE 87 0 p9]) [newEBI ebi, newIE 80 0 p8, newIE 87 0 p9]),
        (false, newEBI ebi), (false, newIE 80 0 p8), (false, newIE 87 0 p9)] := by
    simp [atoms, t5, tb, ti, tc]
  obtain ⟨c', hok⟩ := (C61_accepts g c s b raddr _).2.2 (show ∀ a ∈ atoms [_, _, _, _, _, _, _, _], Readable g a by
    rw [hat]
    intro a ha
    simp only [List.mem_cons, List.not_mem_nil, or_false] at ha
    rcases ha with rfl | rfl | rfl | rfl | rfl | rfl | rfl | rfl | rfl | rfl | rfl <;>
      simp [Readable, t5, t7, tb, k1, k2, k3, k4, k5, k6, k7.r_teid, k7.r_ifType, k9.r_teid, k9.r_ifType, ke, q1, q2, q3, q4, q5])
  refine ⟨_, _, _, _, _, _, _, _, _, c', n1, n2, n3, n4, n6, n7, n8, n9, newGrouped_eq g 93 _, hok, ?_⟩
  obtain ⟨w1, w2, w3, w4, w5, w6, w7, w8, w9, w10, w11, w12, w13, _⟩ := C61_contents_partial g c c' s b raddr _ hok
  have w14 := w13 if2
  have w13 := w13 if1
  have hne' : ¬ if2 = if1 := fun h => hne h.symm
  unfold lastTop at w1 w2 w3 w4 w5 w6
  unfold lastChild at w7 w8 w9 w10 w11 w12
  unfold lastFTEID at w13 w14
  rw [hat] at w1 w2 w3 w4 w5 w6 w7 w8 w9 w10 w11 w12 w13 w14
  simp [t5, t7, tb, Told, k1, k2, k3, k4, k5, k6, k7.r_teid, k7.r_ifType, k9.r_teid, k9.r_ifType, ke, q1, q2, q3, q4, q5,
    hne, hne'] at w1 w2 w3 w4 w5 w6 w7 w8 w9 w10 w11 w12 w13 w14
  simp [w1, w2, w3, ← w4.1, ← w4.2, w5, w6, w7, w8, w9, w10, w11, w12, ← w13, ← w14]

/-- a connection of an MME (interface type 10) and some elements: IMSI 001011234567891, MSISDN 8190, an empty MSISDN (not
readable), the S11 MME F-TEID 7, the S5/S8-U F-TEID 9 within a Bearer Context with EBI 5 and QoS -/
def exC : Conn := newConn 10 1 (fun _ => ⟨[], "", false, [], [], [], [], [], [], 0⟩)
def exIMSI : IE := newIE 1 0 [0x00, 0x01, 0x11, 0x32, 0x54, 0x76, 0x98, 0xf1]
def exFTEID : IE := newIE 87 0 [0x8a, 0, 0, 0, 7, 127, 0, 0, 1]
def exBad : IE := newIE 76 0 []
def exBC : IE := .mk 93 0 0 []
  [newIE 73 0 [5], newIE 80 0 [0x48, 9, 0, 0, 0, 0, 1, 0, 0, 0, 0, 2, 0, 0, 0, 0, 3, 0, 0, 0, 0, 4],
    newIE 87 0 [0x84, 0, 0, 0, 9, 127, 0, 0, 1]]

example :
    let r := parseCreateSession exC defaultGrouped 3 4 "a" [some exIMSI, none, some exFTEID, some exBC]
    r.2 = ok () ∧ (r.1.heap 3).imsi = [48, 48, 49, 48, 49, 49, 50, 51, 52, 53, 54, 55, 56, 57, 49] ∧
    r.1.brs 4 = { ebi := 5, pl := 2, qci := 9, mbrUp := 1, mbrDown := 2, gbrUp := 3, gbrDown := 3 } ∧
    (r.1.heap 3).teids.load 10 = some 7 ∧ (r.1.heap 3).teids.load 4 = some 9 ∧
    getSessionByTEID r.1 7 "a" = ok 3 ∧
    getSessionByIMSI r.1 [48, 48, 49, 48, 49, 49, 50, 51, 52, 53, 54, 55, 56, 57, 49] = ok 3 := by
  decide +kernel

/-! ### C62 -/

/-- C62: after ParseCreateSession succeeds, the session is found by the TEID of every F-TEID for the interface type of the
connection among the arguments, from the address given; every other TEID leads where it led before -/
theorem C62_by_teid (g : UInt8 → Bool) (c c' : Conn) (s b : Nat) (raddr : Addr) (ies : List (Option IE))
    (hok : parseCreateSession c g s b raddr ies = (c', ok ())) (t : UInt32) :
    ((∃ a ∈ atoms ies, LocalFTEID c a t) → getSessionByTEID c' t raddr = ok s) ∧
    ((∀ a ∈ atoms ies, ¬ LocalFTEID c a t) → c.byTeid.load t ≠ some (some s) →
      ∀ peer, getSessionByTEID c' t peer = getSessionByTEID c t peer) := by
  have hp : (c'.heap s).peer = raddr := (C61_contents_partial g c c' s b raddr ies hok).2.2.2.2.2.2.2.2.2.2.2.2.2.1
  unfold parseCreateSession at hok
  rw [ieLoop_eq] at hok
  obtain ⟨h1, h2⟩ := loop_byTeid hok t
  have hf := (frame_new s b c raddr).trans (loop_frame hok)
  constructor
  · intro h
    unfold getSessionByTEID
    rw [h1 h]
    simp [hp]
  · intro h hs peer
    have h2 := h2 h
    unfold getSessionByTEID
    rw [h2]
    change (match c.byTeid.load t with | none => _ | some none => _ | some (some s) => _) = _
    cases hl : c.byTeid.load t with
    | none => rfl
    | some o =>
      cases o with
      | none => rfl
      | some x =>
        have hx : x ≠ s := by rintro rfl; exact hs hl
        simp only [hf.2.2.2.2.1 x hx]

/-- C62: under which IMSIs the session is found.  Partial: it is the IMSI known when the F-TEID is met, not the session's IMSI
in the end, see `C62_order_wrong`. -/
theorem C62_by_imsi_partial (g : UInt8 → Bool) (c c' : Conn) (s b : Nat) (raddr : Addr) (ies : List (Option IE))
    (hok : parseCreateSession c g s b raddr ies = (c', ok ())) (k : Bytes) :
    (StoredAs c [] (atoms ies) k → getSessionByIMSI c' k = ok s) ∧
    (¬ StoredAs c [] (atoms ies) k → getSessionByIMSI c' k = getSessionByIMSI c k) := by
  unfold parseCreateSession at hok
  rw [ieLoop_eq] at hok
  have h := loop_byImsi hok k
  have hz : ((newSession c s b raddr).heap s).imsi = [] := by simp [newSession]
  rw [hz] at h
  constructor
  · intro hs
    unfold getSessionByIMSI
    rw [h.1 hs]
  · intro hs
    unfold getSessionByIMSI
    rw [h.2 hs]
    rfl

/-- C62 when all IMSIs precede all F-TEIDs of the connection's interface type, and there is one: the session is found by its
IMSI, and lookups by any other IMSI are as before -/
theorem C62_imsi_first (g : UInt8 → Bool) (c c' : Conn) (s b : Nat) (raddr : Addr) (ies : List (Option IE))
    (hok : parseCreateSession c g s b raddr ies = (c', ok ())) (l1 l2 : List (Bool × IE)) (hl : atoms ies = l1 ++ l2)
    (h1 : ∀ a ∈ l1, ∀ t, ¬ LocalFTEID c a t) (h2 : ∀ a ∈ l2, ¬ (a.1 = true ∧ a.2.typ = 1))
    (h3 : ∃ a ∈ l2, ∃ t, LocalFTEID c a t) :
    getSessionByIMSI c' (c'.heap s).imsi = ok s ∧
    ∀ k, k ≠ (c'.heap s).imsi → getSessionByIMSI c' k = getSessionByIMSI c k := by
  have hi := (C61_contents_partial g c c' s b raddr ies hok).1
  have hfil : ∀ l3 l4, l2 = l3 ++ l4 → (l1 ++ l3).filter (fun a => decide (a.1 = true ∧ a.2.typ = 1)) =
      (atoms ies).filter (fun a => decide (a.1 = true ∧ a.2.typ = 1)) := by
    intro l3 l4 h
    have e : ∀ l : List (Bool × IE), (∀ a ∈ l, a ∈ l2) → l.filter (fun a => decide (a.1 = true ∧ a.2.typ = 1)) = [] := by
      intro l hm
      apply List.filter_eq_nil_iff.2
      intro a ha
      simpa using h2 a (hm a ha)
    rw [hl, List.filter_append, List.filter_append, e l3 (by intro a ha; rw [h]; simp [ha]), e l2 (fun _ h => h)]
  constructor
  · apply (C62_by_imsi_partial g c c' s b raddr ies hok _).1
    obtain ⟨a, ha, t, ht⟩ := h3
    obtain ⟨l3, l4, rfl⟩ := List.append_of_mem ha
    refine ⟨l1 ++ l3, a, l4, t, by rw [hl]; simp, ht, ?_⟩
    rw [hfil l3 _ rfl]
    exact hi
  · intro k hk
    apply (C62_by_imsi_partial g c c' s b raddr ies hok k).2
    rintro ⟨l3, a, l4, t, he, ht, htold⟩
    rw [hl] at he
    rcases List.append_eq_append_iff.1 he with ⟨m, rfl, hm⟩ | ⟨m, rfl, hm⟩
    · rw [hfil m _ hm] at htold
      exact hk (told_unique htold hi)
    · cases m with
      | nil =>
        simp only [List.nil_append, List.append_nil] at hm h1 hfil htold
        have := hfil [] l2 rfl
        rw [List.append_nil] at this
        rw [this] at htold
        exact hk (told_unique htold hi)
      | cons x m =>
        simp only [List.cons_append, List.cons.injEq] at hm
        exact h1 a (by rw [hm.1]; simp) t ht

/-- C62 fails when the F-TEID comes before the IMSI: the session is not found by its IMSI but by the empty one, and
RemoveSession leaves it there -/
theorem C62_order_wrong :
    let r := parseCreateSession exC defaultGrouped 3 4 "a" [some exFTEID, some exIMSI]
    r.2 = ok () ∧ (r.1.heap 3).imsi ≠ [] ∧ getSessionByIMSI r.1 (r.1.heap 3).imsi = err .notFound ∧
    getSessionByIMSI r.1 [] = ok 3 ∧
    (removeSession r.1 3).bind (fun c => getSessionByIMSI c []) = ok 3 := by
  decide +kernel

/-- C62: nothing else changes, whatever the outcome: other sessions, other bearers, handlers, validation -/
theorem C62_nothing_else (g : UInt8 → Bool) (c : Conn) (s b : Nat) (raddr : Addr) (ies : List (Option IE)) :
    Frame s b c (parseCreateSession c g s b raddr ies).1 := by
  unfold parseCreateSession
  rw [ieLoop_eq]
  have hn := frame_new s b c raddr
  rcases loop_cases g s b (atoms ies) (newSession c s b raddr) with ⟨_, c', h⟩ | ⟨l1, a, l2, c1, _, _, _, h1, c', e, h, hf, _⟩
  · rw [h]; exact hn.trans (loop_frame h)
  · rw [h]; exact (hn.trans (loop_frame h1)).trans hf

/-- C62 when ParseCreateSession returns an error: the elements before the first unreadable one have been taken, and the
session stays registered for the F-TEIDs among them.  Partial: nothing should be registered, see `C62_error_leak`. -/
theorem C62_error_partial (g : UInt8 → Bool) (c c' : Conn) (s b : Nat) (raddr : Addr) (ies : List (Option IE)) (e : Err)
    (herr : parseCreateSession c g s b raddr ies = (c', err e)) :
    ∃ l1 a l2, atoms ies = l1 ++ a :: l2 ∧ (∀ x ∈ l1, Readable g x) ∧ ¬ Readable g a ∧
      ((∀ x ∈ l1, ∀ t, ¬ LocalFTEID c x t) → (∀ t, c'.byTeid.load t = c.byTeid.load t) ∧ ∀ k, c'.byImsi.load k = c.byImsi.load k) ∧
      (∀ t, (∃ x ∈ l1, LocalFTEID c x t) → c'.byTeid.load t = some (some s)) := by
  unfold parseCreateSession at herr
  rw [ieLoop_eq] at herr
  rcases loop_cases g s b (atoms ies) (newSession c s b raddr) with ⟨_, c2, h⟩ | ⟨l1, a, l2, c1, he, hr, hn, h1, c2, e2, h, _, ht, hi⟩
  · rw [h] at herr; simp at herr
  · rw [h] at herr
    simp only [Prod.mk.injEq] at herr
    obtain ⟨rfl, _⟩ := herr
    refine ⟨l1, a, l2, he, hr, hn, fun hno => ⟨fun t => ?_, fun k => ?_⟩, fun t hex => ?_⟩
    · rw [ht, (loop_byTeid h1 t).2 (fun x hx => hno x hx t)]; rfl
    · rw [hi, (loop_byImsi h1 k).2 ?_]
      · rfl
      · rintro ⟨l3, x, l4, t, rfl, hx, _⟩
        exact hno x (by simp) t hx
    · rw [ht]; exact (loop_byTeid h1 t).1 hex

/-- C62 fails on errors: ParseCreateSession returns an error, yet its session is in the tables -/
theorem C62_error_leak :
    let r := parseCreateSession exC defaultGrouped 3 4 "a" [some exIMSI, some exFTEID, some exBad]
    r.2 = err .eof ∧ getSessionByTEID r.1 7 "a" = ok 3 ∧ (sessions r.1) = [3] := by
  decide +kernel

/-! ### C63 -/

theorem setSeq_new (g : UInt8 → Bool) (sc : Msg.Schema) (teid q : UInt32) (ies : List (Option IE)) :
    setSeq (newMessage g sc teid 0 ies) q = newMessage g sc teid q ies := rfl

/-- `x` is what a request leaves: one datagram to `a` that parses to a message of the type with the TEID, the number
returned as its sequence number, and the elements filed in its fields; the number is the next one -/
def Requested (g : UInt8 → Bool) (n : UInt32) (sc : Msg.Schema) (teid : UInt32) (ies : List (Option IE)) (a : Addr)
    (x : UInt32 × List Ev × Res UInt32) : Prop :=
  ∃ out m, x = (inc n, [.sent a out], ok (inc n)) ∧ parseMsg g out = ok m ∧ m.schema = sc ∧ m.hdr.sequence = inc n ∧
    m.hdr.teidAcc = teid ∧ m.fields = Msg.newFields (ieOps g) sc ies

theorem inc_small (n : UInt32) : (inc n).toNat < 2 ^ 24 := by
  unfold inc
  split
  · decide
  · rename_i h
    have := UInt32.not_lt.1 h
    have := UInt32.le_iff_toNat_le.1 this
    have e : (0x7fffff : UInt32).toNat = 0x7fffff := rfl
    simp only [Nat.reducePow]; omega

theorem requested_of {g : UInt8 → Bool} {n : UInt32} {sc : Msg.Schema} {teid : UInt32} {ies : List (Option IE)} {a : Addr}
    (ht : sc.hasTEIDArg = false → teid = 0) (h : RoundTrips g sc teid (inc n) ies) :
    Requested g n sc teid ies a (sendMessageTo g n (newMessage g sc teid 0 ies) a true) := by
  obtain ⟨m, out, h1, _, h2, h3, h4, _, h5, h6⟩ := h
  refine ⟨out, m, ?_, h2, h3, h5, ?_, ?_⟩
  · unfold sendMessageTo; rw [setSeq_new, h1]; rfl
  · rw [h6]
    cases hb : sc.hasTEIDArg with
    | true => simp
    | false => simp [ht hb]
  · rw [h4]; rfl

/-- the elements can be put in one message -/
def Fits (g : UInt8 → Bool) (ies : List (Option IE)) : Prop :=
  (∀ x, some x ∈ ies → wf g x = true) ∧ 12 + ((ies.filterMap id).map (IE.marshalLen g)).sum < 65536

/-- C63: DeleteSession, ModifyBearer and DeleteBearer send one request to the session's peer -/
theorem C63_requests (g : UInt8 → Bool) (c : Conn) (s : Nat) (n teid : UInt32) (ies : List (Option IE)) (h : Fits g ies) :
    Requested g n Tab.deleteSessionRequest teid ies (c.heap s).peer (deleteSession c s g n teid ies true) ∧
    Requested g n Tab.modifyBearerRequest teid ies (c.heap s).peer (modifyBearer c s g n teid ies true) ∧
    Requested g n Tab.deleteBearerRequest teid ies (c.heap s).peer (deleteBearer c s g n teid ies true) := by
  have key : ∀ sc : Msg.Schema, sc ∈ Tab.all → sc.typ ≠ Tab.contextResponse.typ → sc.typ ≠ Tab.createBearerResponse.typ →
      sc.typ ≠ Tab.createSessionRequest.typ → sc.flags.toNat / 8 % 2 = 1 → sc.hasTEIDArg = true →
      Requested g n sc teid ies (c.heap s).peer (sendMessageTo g n (newMessage g sc teid 0 ies) (c.heap s).peer true) := by
    intro sc hs h1 h2 h3 hT hA
    refine requested_of (by simp [hA]) ?_
    refine C13_round_trip_partial g sc hs (by rintro rfl; exact h1 rfl) (by rintro rfl; exact h2 rfl)
      (by rintro rfl; exact h3 rfl) teid (inc n) ies h.1 (inc_small n) ?_ h.2
    rw [marshalLen_done g _ (all_lensOK _ hs), marshalLen_done_hdr]
    rw [if_pos (show (newMessage g sc teid (inc n) ies).hdr.flags.toNat / 8 % 2 = 1 from hT)]; omega
  exact ⟨key _ (by simp [Tab.all]) (by decide) (by decide) (by decide) (by decide) rfl,
    key _ (by simp [Tab.all]) (by decide) (by decide) (by decide) (by decide) rfl,
    key _ (by simp [Tab.all]) (by decide) (by decide) (by decide) (by decide) rfl⟩

/-- C63: EchoRequest sends one Echo Request with the restart counter -/
theorem C63_echo (g : UInt8 → Bool) (hg : g 3 = false) (c : Conn) (n : UInt32) (a : Addr) :
    Requested g n Tab.echoRequest 0 [some (.mk 3 1 0 [c.restart] [])] a (echoRequest c g n a true) := by
  refine requested_of (by simp) ?_
  refine C18_echo g Tab.echoRequest (Or.inl rfl) 0 (inc n) _ ⟨_, List.mem_singleton.2 rfl⟩ ?_ (inc_small n) ?_
  · intro x hx
    simp only [List.mem_singleton, Option.some.injEq] at hx
    subst hx
    simp [wf, hg]
  · simp [IE.marshalLen, hg]

/-- C63: CreateSession, when it returns a session, has sent one Create Session Request with TEID 0 and the elements to the
address, and the session is the one ParseCreateSession makes of them (C61, C62).  When an element cannot be read, nothing is
sent and no number is used.  Partial: not both a private extension and additional elements
(`C13_createSessionRequest_overwrites`). -/
theorem C63_create_partial (g : UInt8 → Bool) (c : Conn) (s b : Nat) (n : UInt32) (raddr : Addr) (ies : List (Option IE))
    (h : Fits g ies)
    (hp : Msg.newFields (ieOps g) Tab.createSessionRequest ies 64 = [] ∨ Msg.newFields (ieOps g) Tab.createSessionRequest ies 65 = []) :
    ((∀ a ∈ atoms ies, Readable g a) → ∃ c' n' ev q, createSession c g n s b raddr ies true = (c', n', ev, ok (s, q)) ∧
      parseCreateSession c g s b raddr ies = (c', ok ()) ∧
      Requested g n Tab.createSessionRequest 0 ies raddr (n', ev, ok q)) ∧
    (∀ w, (∃ a ∈ atoms ies, ¬ Readable g a) → ∃ c' e, createSession c g n s b raddr ies w = (c', n, [], err e)) := by
  obtain ⟨⟨hr1, hr2⟩, hacc⟩ := C61_accepts g c s b raddr ies
  constructor
  · intro ha
    obtain ⟨c', hok⟩ := hacc.2 ha
    have hreq : Requested g n Tab.createSessionRequest 0 ies raddr
        (sendMessageTo g n (newMessage g Tab.createSessionRequest 0 0 ies) raddr true) :=
      requested_of (by simp) (C13_round_trip_createSessionRequest_partial g 0 (inc n) ies h.1 (inc_small n) hp h.2)
    obtain ⟨out, m, e, hm⟩ := hreq
    refine ⟨c', inc n, [.sent raddr out], inc n, ?_, hok, out, m, rfl, hm⟩
    unfold createSession
    rw [hok]
    simp only [e, bind_ok]
  · rintro w ⟨a, ha, hn⟩
    unfold createSession
    rcases hx : parseCreateSession c g s b raddr ies with ⟨c', r⟩
    rw [hx] at hr1 hr2
    cases r with
    | ok u => exact absurd (hacc.1 ⟨c', hx⟩ a ha) hn
    | err e => exact ⟨c', e, rfl⟩
    | «panic» => exact absurd rfl hr1
    | diverge => exact absurd rfl hr2

/-- C63: a request that cannot be sent uses no number, if no other goroutine draws one meanwhile and the counter is in range -/
theorem C63_send_failure (g : UInt8 → Bool) (n : UInt32) (hn : n < 0x7fffff) (m : Message) (a : Addr) :
    (∃ e, sendMessageTo g n m a false = (n, [], err e)) ∨ (sendMessageTo g n m a false).2.2 = .panic ∨
      (sendMessageTo g n m a false).2.2 = .diverge := by
  have hd : dec (inc n) = n := by
    have h : ¬ n + 1 > 0x7fffff := by
      have := UInt32.lt_iff_toNat_lt.1 hn
      have e : (0x7fffff : UInt32).toNat = 0x7fffff := rfl
      intro hc
      have := UInt32.lt_iff_toNat_lt.1 hc
      rw [UInt32.toNat_add] at this
      have e1 : (1 : UInt32).toNat = 1 := rfl
      omega
    unfold inc dec
    rw [if_neg h, UInt32.add_sub_cancel]
  unfold sendMessageTo
  cases marshalMsg g (setSeq m (inc n)) with
  | ok x => left; exact ⟨.other, by simp [hd]⟩
  | err e => left; exact ⟨e, by simp [hd]⟩
  | «panic» => right; left; rfl
  | diverge => right; right; rfl

/-- C63 fails when the send fails: CreateSession returns an error, yet its session is in the tables -/
theorem C63_create_leak :
    let r := createSession exC defaultGrouped 0 3 4 "a" [some exIMSI, some exFTEID] false
    r.2.2.2 = err .other ∧ getSessionByTEID r.1 7 "a" = ok 3 ∧ sessions r.1 = [3] := by
  decide +kernel

/-- the datagrams among the effects -/
def datagrams (l : List Ev) : List (Addr × Bytes) := l.filterMap (fun e => match e with | .sent a b => some (a, b) | _ => none)

example :
    let r := createSession exC defaultGrouped 4 3 4 "a" [some exIMSI, some exFTEID] true
    r.2.1 = 5 ∧ r.2.2.2 = ok (3, 5) ∧ datagrams r.2.2.1 = [("a", [0x48, 32, 0, 33, 0, 0, 0, 0, 0, 0, 5, 0,
      1, 0, 8, 0, 0x00, 0x01, 0x11, 0x32, 0x54, 0x76, 0x98, 0xf1, 87, 0, 9, 0, 0x8a, 0, 0, 0, 7, 127, 0, 0, 1])] := by
  decide +kernel

example : datagrams (deleteSession exC 3 defaultGrouped 4 9 [some (newIE 73 0 [5])] true).2.1 =
    [("", [0x48, 36, 0, 13, 0, 0, 0, 9, 0, 0, 5, 0, 73, 0, 1, 0, 5])] := by decide +kernel

end Verif.V2.Conn

namespace Verif.V2.Conn
open Res Send Utils Spec
/-! ### cases that meet the hypotheses -/

example := C61_built_partial defaultGrouped (by decide) exC 3 4 "a" [48, 48, 49] [56, 49] [51, 53] [52, 52, 48] [49, 48]
  [105, 110, 116, 46, 97] [10, 0, 0, 1] [] [10, 0, 0, 2] [] 6 5 10 4 1 2 0 9 7 9 1 2 3 4
  (by decide) (by decide) (by decide) (by decide) (by decide) (by decide) (by decide) (by decide) (by decide)
  (by decide) (by decide) (by decide) (by decide) (by decide) (by decide) (by decide) (by decide) (by decide) (by decide)
  (by decide) (by decide) (by decide) (by decide)
def exIEs : List (Option IE) := [some exIMSI, none, some exFTEID, some exBC]
theorem exIEs_ok : ∃ c', parseCreateSession exC defaultGrouped 3 4 "a" exIEs = (c', ok ()) := ⟨_, rfl⟩
example : getSessionByTEID (parseCreateSession exC defaultGrouped 3 4 "a" exIEs).1 7 "a" = ok 3 :=
  (C62_by_teid defaultGrouped exC _ 3 4 "a" exIEs rfl 7).1 ⟨(true, exFTEID), by decide, by decide⟩
example := C61_contents_partial defaultGrouped exC _ 3 4 "a" exIEs rfl
example := C61_gbr_down_wrong defaultGrouped exC _ 3 4 "a" exIEs rfl
example := C61_pci_pvi_wrong defaultGrouped exC _ 3 4 "a" exIEs rfl
example := C62_by_imsi_partial defaultGrouped exC _ 3 4 "a" exIEs rfl [48, 48, 49, 48, 49, 49, 50, 51, 52, 53, 54, 55, 56, 57, 49]
example := C62_imsi_first defaultGrouped exC _ 3 4 "a" exIEs rfl [(true, exIMSI)] _ rfl
  (by intro a ha t h; simp only [List.mem_singleton] at ha; subst ha; exact absurd h.2.1 (by decide))
  (by decide) ⟨(true, exFTEID), by decide, 7, by decide⟩
/-- the MSISDN behind the F-TEID cannot be read -/
example := C62_error_partial defaultGrouped exC _ 3 4 "a" [some exIMSI, some exFTEID, some exBad] _ rfl
theorem exFits : Fits defaultGrouped [some exIMSI, none, some exFTEID] :=
  ⟨by intro x hx; simp at hx; rcases hx with rfl | rfl <;> decide, by decide⟩
example := C63_requests defaultGrouped exC 3 4 9 _ exFits
example := C63_echo defaultGrouped (by decide) exC 4 "a"
example := C63_create_partial defaultGrouped exC 3 4 4 "a" _ exFits (.inl (by decide +kernel))
example := C63_send_failure defaultGrouped 4 (by decide) (newMessage defaultGrouped Tab.echoRequest 0 0 [some (.mk 3 1 0 [7] [])]) "a"
end Verif.V2.Conn
