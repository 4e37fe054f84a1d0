import Verif.Props.V2Request
import Verif.Props.V2Conn
/-
C88: a Create Session exchange between two connections from end to end (gtpv2/conn.go:167-206, 313-376, 461-643, 649-661).
-/
namespace Verif.V2.Conn
open Res Send Utils Spec NetIP

/-- the octets of a datagram that Serve hands to a goroutine: it reads into a buffer of 1500 octets (conn.go:179-190) -/
def asRead (d : Bytes) : Bytes := d.take 1500

/-- the field of that name of the message's Go type holds these elements -/
def Has (m : Message) (name : String) (l : List IE) : Prop := ∃ k, m.schema.fields[k]? = some name ∧ m.fields k = l

/-- the elements fit in one datagram that Serve reads whole -/
def FitsRead (g : UInt8 → Bool) (ies : List (Option IE)) : Prop :=
  (∀ x, some x ∈ ies → wf g x = true) ∧ 12 + ((ies.filterMap id).map (IE.marshalLen g)).sum ≤ 1500

theorem roundTrips_length {g : UInt8 → Bool} {sc : Msg.Schema} (hs : sc ∈ Tab.all) {teid q : UInt32} {ies : List (Option IE)}
    {b : Bytes}
    (hl : (b.length : Int) = Msg.marshalLen hdrOps (ieOps g) (newMessage g sc teid q ies)) :
    b.length ≤ 12 + ((ies.filterMap id).map (IE.marshalLen g)).sum := by
  rw [marshalLen_done g _ (all_lensOK _ hs), marshalLen_done_hdr] at hl
  have := length_newBody g sc (all_lensOK _ hs) (all_unGood _ hs) ies
  have e : Msg.body (rawEnc g) (newMessage g sc teid q ies).schema (newMessage g sc teid q ies).fields =
    Msg.body (rawEnc g) sc (Msg.newFields (ieOps g) sc ies) := rfl
  rw [e] at hl
  split at hl <;> omega

/-- a message with TEID 0, or one whose TEID leads to a session with the sender, reaches the handler of its type -/
theorem serve_reaches {g : UInt8 → Bool} {c : Conn} {a : Addr} {b : Bytes} {m : Message} {h : Nat}
    (hp : parseMsg g b = ok m) (hh : c.handlers.load m.hdr.typ = some (.app h))
    (ht : m.hdr.teidAcc = 0 ∨ ∃ s, getSessionByTEID c m.hdr.teidAcc a = ok s) (w : Bool) :
    serveDatagram g c a b w = ([.call h a m], ok ()) := by
  obtain ⟨r1, r2⟩ := C35_reaches_partial g c a b w h a m
  refine r2 (r1.2 ⟨hp, rfl, hh, fun _ => ?_⟩)
  rcases ht with ht | ⟨s, hs⟩
  · exact Or.inl ht
  · right
    unfold getSessionByTEID at hs
    split at hs
    · simp at hs
    · simp at hs
    · rename_i s' hl
      refine ⟨s', hl, ?_⟩
      split at hs
      · simp at hs
      · rename_i hne; simpa using Eq.symm (Classical.not_not.1 hne)

/-- C88.  `A` calls CreateSession with elements it can read; the datagram reaches `B`, on which a handler for Create Session
Request is set.  Then that handler is called once, with the sender's address and a message that has TEID 0, the sequence
number CreateSession returned, and every element in the field of its kind.  If the handler answers with RespondTo and a
Create Session Response for a TEID under which `A` finds the session, and the datagram reaches `A` from the address the
request went to, then `A`'s handler for Create Session Response is called once, with a message that has the TEID, the
sequence number CreateSession returned and every element of the answer in the field of its kind; whatever else `A` has done
in between.  Directly after CreateSession, `A` finds the session under the TEID of every F-TEID for its own interface type.
Partial: not both a private extension and additional elements in the request (`C13_createSessionRequest_overwrites`), and
no more than 1500 octets (`C88_cut`). -/
theorem C88_exchange_partial (g : UInt8 → Bool) (A B : Conn) (s b : Nat) (n : UInt32) (aA aB : Addr) (ies : List (Option IE))
    (hf : FitsRead g ies) (hr : ∀ a ∈ atoms ies, Readable g a)
    (hp : Msg.newFields (ieOps g) Tab.createSessionRequest ies 64 = [] ∨ Msg.newFields (ieOps g) Tab.createSessionRequest ies 65 = [])
    (h : Nat) (hB : B.handlers.load 32 = some (.app h)) :
    ∃ A' q out m, createSession A g n s b aB ies true = (A', q, [.sent aB out], ok (s, q)) ∧
      parseCreateSession A g s b aB ies = (A', ok ()) ∧
      (∀ w, serveDatagram g B aA (asRead out) w = ([.call h aA m], ok ())) ∧
      m.schema = Tab.createSessionRequest ∧ m.hdr.teidAcc = 0 ∧ m.hdr.sequence = q ∧
      m.fields = Msg.newFields (ieOps g) Tab.createSessionRequest ies ∧
      (∀ t, (∃ a ∈ atoms ies, LocalFTEID A a t) → getSessionByTEID A' t aB = ok s) ∧
      A'.handlers = A.handlers ∧
      ∀ t rs k A'', FitsRead g rs → A''.handlers.load 33 = some (.app k) → getSessionByTEID A'' t aB = ok s →
        ∃ out' m', respondTo g aA m (newMessage g Tab.createSessionResponse t 0 rs) true = ([.sent aA out'], ok ()) ∧
          (∀ w, serveDatagram g A'' aB (asRead out') w = ([.call k aB m'], ok ())) ∧
          m'.schema = Tab.createSessionResponse ∧ m'.hdr.teidAcc = t ∧ m'.hdr.sequence = q ∧
          m'.fields = Msg.newFields (ieOps g) Tab.createSessionResponse rs := by
  have hsa : Tab.createSessionRequest ∈ Tab.all := by simp [Tab.all]
  have hsb : Tab.createSessionResponse ∈ Tab.all := by simp [Tab.all]
  obtain ⟨hw, hl⟩ := hf
  obtain ⟨m, out, h1, h2, h3, h4, h5, h6, h7, h8⟩ :=
    C13_round_trip_createSessionRequest_partial g 0 (inc n) ies hw (inc_small n) hp (by omega)
  obtain ⟨A', hok⟩ := (C61_accepts g A s b aB ies).2.2 hr
  have hlen := roundTrips_length hsa h2
  have hread : asRead out = out := List.take_of_length_le (by omega)
  have h8 : m.hdr.teidAcc = 0 := by simpa using h8
  refine ⟨A', inc n, out, m, ?_, hok, ?_, h4, h8, h7, h5, fun t ht => ?_, ?_, ?_⟩
  · unfold createSession
    rw [hok]
    simp only [sendMessageTo, setSeq_new, h1, if_true, bind_ok]
  · intro w
    rw [hread]
    exact serve_reaches h3 (by rw [h6]; exact hB) (Or.inl h8) w
  · exact (C62_by_teid g A A' s b aB ies hok t).1 ht
  · have := C62_nothing_else g A s b aB ies
    rw [hok] at this
    exact this.2.2.1
  · rintro t rs k A'' ⟨hw', hl'⟩ hk hs
    obtain ⟨m', out', k1, k2, k3, k4, k5, k6, k7, k8⟩ :=
      C13_round_trip_partial g Tab.createSessionResponse hsb
        (fun e => absurd (congrArg Msg.Schema.typ e) (by decide)) (fun e => absurd (congrArg Msg.Schema.typ e) (by decide))
        (fun e => absurd (congrArg Msg.Schema.typ e) (by decide)) t (inc n) rs hw' (inc_small n) (by
          rw [marshalLen_done g _ (all_lensOK _ hsb), marshalLen_done_hdr]
          rw [if_pos (show (newMessage g Tab.createSessionResponse t (inc n) rs).hdr.flags.toNat / 8 % 2 = 1 from
            (by decide : Tab.createSessionResponse.flags.toNat / 8 % 2 = 1))]
          omega) (by omega)
    have hlen' := roundTrips_length hsb k2
    have hread' : asRead out' = out' := List.take_of_length_le (by omega)
    have k8 : m'.hdr.teidAcc = t := k8
    refine ⟨out', m', ?_, ?_, k4, k8, k7, k5⟩
    · unfold respondTo response
      rw [h7, setSeq_new, k1]
      rfl
    · intro w
      rw [hread']
      exact serve_reaches k3 (by rw [k6]; exact hk) (Or.inr ⟨s, by rw [k8]; exact hs⟩) w

/-- what `newFields` files: the elements of the kinds an attach uses, each given once -/
theorem attach_fields (g : UInt8 → Bool) (p1 p2 p3 p4 p5 p6 p7 p8 : Bytes) (l : UInt16) (cs : List IE) :
    let F := Msg.newFields (ieOps g) Tab.createSessionRequest
      [some (newIE 1 0 p1), some (newIE 76 0 p2), some (newIE 75 0 p3), some (newIE 83 0 p4), some (newIE 82 0 p5),
        some (newIE 71 0 p6), some (newIE 87 0 p7), some (.mk 93 l 0 p8 cs)]
    F 0 = [newIE 1 0 p1] ∧ F 1 = [newIE 76 0 p2] ∧ F 2 = [newIE 75 0 p3] ∧ F 4 = [newIE 83 0 p4] ∧ F 5 = [newIE 82 0 p5] ∧
      F 9 = [newIE 71 0 p6] ∧ F 7 = [newIE 87 0 p7] ∧ F 18 = [.mk 93 l 0 p8 cs] ∧ F 64 = [] := by
  have ht : ∀ t p, (ieOps g).typ (newIE t 0 p) = t := fun _ _ => rfl
  have hi : ∀ t p, (ieOps g).inst (newIE t 0 p) = 0 := fun _ _ => (by decide : (0 : UInt8) &&& 0x0f = 0)
  have htb : (ieOps g).typ (.mk 93 l 0 p8 cs) = 93 := rfl
  have hib : (ieOps g).inst (.mk 93 l 0 p8 cs) = 0 := (by decide : (0 : UInt8) &&& 0x0f = 0)
  have e1 : Msg.sel Tab.createSessionRequest.newRules Tab.createSessionRequest.newDefault (1 : UInt8).toNat (0 : UInt8).toNat = .set 0 := by decide
  have e2 : Msg.sel Tab.createSessionRequest.newRules Tab.createSessionRequest.newDefault (76 : UInt8).toNat (0 : UInt8).toNat = .set 1 := by decide
  have e3 : Msg.sel Tab.createSessionRequest.newRules Tab.createSessionRequest.newDefault (75 : UInt8).toNat (0 : UInt8).toNat = .set 2 := by decide
  have e4 : Msg.sel Tab.createSessionRequest.newRules Tab.createSessionRequest.newDefault (83 : UInt8).toNat (0 : UInt8).toNat = .set 4 := by decide
  have e5 : Msg.sel Tab.createSessionRequest.newRules Tab.createSessionRequest.newDefault (82 : UInt8).toNat (0 : UInt8).toNat = .set 5 := by decide
  have e6 : Msg.sel Tab.createSessionRequest.newRules Tab.createSessionRequest.newDefault (71 : UInt8).toNat (0 : UInt8).toNat = .set 9 := by decide
  have e7 : Msg.sel Tab.createSessionRequest.newRules Tab.createSessionRequest.newDefault (87 : UInt8).toNat (0 : UInt8).toNat = .set 7 := by decide
  have e8 : Msg.sel Tab.createSessionRequest.newRules Tab.createSessionRequest.newDefault (93 : UInt8).toNat (0 : UInt8).toNat = .app 18 := by decide
  simp only [Msg.newFields, List.filterMap_cons, id, List.filterMap_nil, Msg.classify, List.foldl_cons, List.foldl_nil, ht, hi,
    htb, hib, e1, e2, e3, e4, e5, e6, e7, e8, Msg.Act.apply, Msg.upd, Msg.Fields.empty]
  simp

theorem to4_len {a v : Bytes} (h : to4 a = some v) : v.length = 4 := by
  obtain ⟨_, _, _, _, rfl⟩ := to4_some h
  rfl

theorem length_encFTEID (f : UInt8) (t : UInt32) (a4 a6 : Bytes) : (encFTEID f t (to4 a4) (to16 a6)).length ≤ 25 := by
  unfold encFTEID
  rcases h4 : to4 a4 with _ | v4 <;> rcases h6 : to16 a6 with _ | v6
  · simp [be32]
  · obtain ⟨_, _, _, _, _, _, _, _, _, _, _, _, _, _, _, _, rfl⟩ := to16_some h6
    simp [be32]
  · simp [be32, to4_len h4]
  · obtain ⟨_, _, _, _, _, _, _, _, _, _, _, _, _, _, _, _, rfl⟩ := to16_some h6
    simp [be32, to4_len h4]

set_option maxHeartbeats 2000000 in
/-- C88 with the data of a subscriber: the elements are made with the library's constructors, given to CreateSession on `A`,
and the handler on `B` reads the values that were given from the fields of the message it gets; also `A` has them in its
session.  Partial: IMSIs with an odd number of digits (`C44_v2_imsi_even_wrong`; an IMSI has 15 digits). -/
theorem C88_subscriber_partial (g : UInt8 → Bool) (hg : ∀ t ∈ [1, 76, 75, 83, 82, 71, 87, 73, 80], g t = false) (hgb : g 93 = true)
    (A B : Conn) (s b : Nat) (n : UInt32) (aA aB : Addr)
    (imsi msisdn imei mcc mnc apn a4 a6 v4 v6 : Bytes) (rat ebi if1 if2 pci pl pvi qci : UInt8) (t1 t2 : UInt32)
    (mu md gu gd : UInt64)
    (hi : Digits imsi) (hi1 : imsi.length % 2 = 1) (hil : imsi.length ≤ 15)
    (hm : Digits msisdn) (hm0 : msisdn ≠ []) (hml : msisdn.length ≤ 15)
    (he : Digits imei) (he0 : imei ≠ []) (hel : imei.length ≤ 16)
    (hp : IsPLMN mcc mnc) (ha : ∀ l ∈ splitDot apn, l.length ≤ 255) (hal : apn.length ≤ 255)
    (hif1 : if1 < 64) (hif2 : if2 < 64) (hne : if1 ≠ if2) (hebi : ebi < 16)
    (hpci : pci < 2) (hpl : pl < 16) (hpvi : pvi < 2) (r1 : mu.toNat < 2 ^ 40) (r2 : md.toNat < 2 ^ 40)
    (r3 : gu.toNat < 2 ^ 40) (r4 : gd.toNat < 2 ^ 40)
    (h : Nat) (hB : B.handlers.load 32 = some (.app h)) :
    ∃ i1 i2 i3 i4 i6 i7 q f2 bc A' num out m,
      newIMSI imsi = ok (some i1) ∧ newMSISDN msisdn = ok (some i2) ∧ newMEI imei = ok (some i3) ∧
      newPLMN 83 mcc mnc = ok (some i4) ∧ Plain.newName ⟨"AccessPointName", 71, [71]⟩ apn = ok i6 ∧
      newFTEID if1 t1 a4 a6 = ok (some i7) ∧ newBearerQoS pci pl pvi qci mu md gu gd = ok (some q) ∧
      newFTEID if2 t2 v4 v6 = ok (some f2) ∧ newGrouped g 93 [some (newEBI ebi), some q, some f2] = ok (some bc) ∧
      createSession A g n s b aB
        [some i1, some i2, some i3, some i4, some (Plain.new8 ⟨"RATType", 82, [82]⟩ rat), some i6, some i7, some bc] true =
        (A', num, [.sent aB out], ok (s, num)) ∧
      (∀ w, serveDatagram g B aA (asRead out) w = ([.call h aA m], ok ())) ∧
      m.schema.name = "CreateSessionRequest" ∧ m.hdr.teidAcc = 0 ∧ m.hdr.sequence = num ∧
      (∃ x, Has m "IMSI" [x] ∧ x.imsi = ok imsi) ∧ (∃ x, Has m "MSISDN" [x] ∧ x.msisdn = ok msisdn) ∧
      (∃ x, Has m "MEI" [x] ∧ x.mei = ok imei) ∧ (∃ x, Has m "ServingNetwork" [x] ∧ x.plmn = ok (mcc, mnc)) ∧
      (∃ x, Has m "RATType" [x] ∧ Plain.get8 g ⟨"RATType", 82, [82]⟩ x = ok rat) ∧
      (∃ x, Has m "APN" [x] ∧ Plain.getName g ⟨"AccessPointName", 71, [71]⟩ x = ok apn) ∧
      (∃ x, Has m "SenderFTEIDC" [x] ∧ FTEIDReads x if1 t1 (to4 a4) (to16 a6)) ∧
      (∃ x e f, Has m "BearerContextsToBeCreated" [x] ∧ x.children = [e, q, f] ∧ e.ebi g = ok ebi ∧
        q.priorityLevel g = ok pl ∧ q.qciLabel g = ok qci ∧ q.mbrUp = ok mu ∧ q.mbrDown = ok md ∧ q.gbrUp = ok gu ∧
        q.gbrDown = ok gd ∧ FTEIDReads f if2 t2 (to4 v4) (to16 v6)) ∧
      (A'.heap s).imsi = imsi ∧ (A'.heap s).msisdn = msisdn ∧ (A'.heap s).imei = imei ∧
      (A'.heap s).teids.load if1 = some t1 ∧ (A'.heap s).teids.load if2 = some t2 ∧
      (if1 = A.localIf → getSessionByTEID A' t1 aB = ok s ∧ getSessionByIMSI A' imsi = ok s) := by
  have hG : ∀ t, t ∈ [1, 76, 75, 83, 82, 71, 87, 73, 80] → g t = false := hg
  obtain ⟨i1, i2, i3, i4, i6, i7, q, f2, bc, c', n1, n2, n3, n4, n6, n7, n8, n9, n10, hok, w1, w2, w3, w4, w5, w6, w7, w8, w9,
    w10, w11, w12, w13, w14, w15⟩ := C61_built_partial g hg A s b aB imsi msisdn imei mcc mnc apn a4 a6 v4 v6 rat ebi if1 if2
      pci pl pvi qci t1 t2 mu md gu gd hi hi1 (by omega) hm hm0 (by omega) he he0 (by omega) hp ha (by omega) hif1 hif2 hne hebi
      hpci hpl hpvi r1 r2 r3 r4
  obtain ⟨j1, m1, _, k1⟩ := C44_v2_imsi_partial g imsi hi hi1 (by omega) (hG 1 (by simp))
  obtain ⟨⟨j2, m2, _, k2⟩, _⟩ := C44_v2_msisdn_mei g msisdn hm hm0 (by omega) (hG 76 (by simp)) (hG 75 (by simp))
  obtain ⟨_, ⟨j3, m3, _, k3⟩⟩ := C44_v2_msisdn_mei g imei he he0 (by omega) (hG 76 (by simp)) (hG 75 (by simp))
  obtain ⟨j4, m4, _, _, _, _, k4⟩ := C50_plmn g 83 (Or.inr rfl) hp 0 (hG 83 (by simp))
  have k5 := (C55_uint8 g ⟨"RATType", 82, [82]⟩ (by decide) (hG 82 (by simp)) rat).h_get 0
  obtain ⟨j6, m6, k6⟩ := C55_name g ⟨"AccessPointName", 71, [71]⟩ (by decide) (hG 71 (by simp)) apn ha (by omega)
  obtain ⟨j7, m7, _, k7⟩ := C41_fteid_partial g if1 t1 a4 a6 hif1 (hG 87 (by simp))
  obtain ⟨j8, m8, l8, k8⟩ := C42_bearer_qos_partial g pci pl pvi qci mu md gu gd hpci hpl hpvi r1 r2 r3 r4 (hG 80 (by simp))
  obtain ⟨j9, m9, _, k9⟩ := C41_fteid_partial g if2 t2 v4 v6 hif2 (hG 87 (by simp))
  rw [n1] at m1; rw [n2] at m2; rw [n3] at m3; rw [n4] at m4; rw [n6] at m6; rw [n7] at m7; rw [n8] at m8; rw [n9] at m9
  simp only [ok.injEq, Option.some.injEq] at m1 m2 m3 m4 m6 m7 m8 m9
  subst m1 m2 m3 m4 m6 m7 m8 m9
  have d1 : i1 = newIE 1 0 (tbcd imsi) := by have := n1; rw [newIMSI, newDigits_eq 1 hi] at this; simpa using this.symm
  have d2 : i2 = newIE 76 0 (tbcd msisdn) := by have := n2; rw [newMSISDN, newDigits_eq 76 hm] at this; simpa using this.symm
  have d3 : i3 = newIE 75 0 (tbcd imei) := by have := n3; rw [newMEI, newDigits_eq 75 he] at this; simpa using this.symm
  have ⟨p4, d4, l4⟩ : ∃ p, i4 = newIE 83 0 p ∧ p.length = 3 := by
    obtain ⟨x, y, z, _, h1, _⟩ := plmn_three hp
    rw [newPLMN, h1] at n4
    simp only [build, ok.injEq, Option.some.injEq] at n4
    exact ⟨_, n4.symm, rfl⟩
  have ⟨p6, d6, l6⟩ : ∃ p, i6 = newIE 71 0 p ∧ p.length = apn.length + 1 := by
    obtain ⟨x, hx, hxl, _⟩ := C04_fqdn_round_trip apn ha
    rw [Plain.newName, newFQDNIE, hx] at n6
    simp at n6
    exact ⟨_, n6.symm, hxl⟩
  have d7 : i7 = newIE 87 0 (encFTEID if1 t1 (to4 a4) (to16 a6)) := by
    have := n7; rw [newFTEID, fteid_marshal _ _ _ _ hif1, build] at this; simpa using this.symm
  have d9 : f2 = newIE 87 0 (encFTEID if2 t2 (to4 v4) (to16 v6)) := by
    have := n9; rw [newFTEID, fteid_marshal _ _ _ _ hif2, build] at this; simpa using this.symm
  have ⟨p8, d8, e8⟩ : ∃ p, q = newIE 80 0 p ∧ p.length = 22 := by
    obtain ⟨p, rfl⟩ := build_new n8
    refine ⟨p, rfl, ?_⟩
    have : p = encBearerQoS pci pl pvi qci mu md gu gd := by simpa using l8
    rw [this]; simp [encBearerQoS, be40]
  subst d1 d2 d3 d4 d6 d7 d8 d9
  have lf1 := length_encFTEID if1 t1 a4 a6
  have lf2 := length_encFTEID if2 t2 v4 v6
  have lt1 := length_tbcd imsi
  have lt2 := length_tbcd msisdn
  have lt3 := length_tbcd imei
  rw [newGrouped_eq] at n10
  simp only [List.filterMap_cons, id, List.filterMap_nil, ok.injEq, Option.some.injEq] at n10
  obtain rfl := n10
  have wp : ∀ t p, g t = false → p.length < 65536 → wf g (newIE t 0 p) = true := fun t p ht hl => C05_new_wf g t 0 p hl ht
  have mp : ∀ t p, g t = false → (newIE t 0 p).marshalLen g = 4 + p.length := by
    intro t p ht
    simp [newIE, IE.setLength, IE.marshalLen, ht]
  have g1 := hG 1 (by simp)
  have g2 := hG 76 (by simp)
  have g3 := hG 75 (by simp)
  have g4 := hG 83 (by simp)
  have g5 := hG 82 (by simp)
  have g6 := hG 71 (by simp)
  have g7 := hG 87 (by simp)
  have g8 := hG 73 (by simp)
  have g9 := hG 80 (by simp)
  have wcs : wfs g [newIE 73 0 [ebi &&& 15], newIE 80 0 p8, newIE 87 0 (encFTEID if2 t2 (to4 v4) (to16 v6))] = true := by
    rw [wfs_iff]
    intro x hx
    simp only [List.mem_cons, List.not_mem_nil, or_false] at hx
    rcases hx with rfl | rfl | rfl
    · exact wp _ _ g8 (by simp)
    · exact wp _ _ g9 (by omega)
    · exact wp _ _ g7 (by omega)
  change wfs g [newEBI ebi, newIE 80 0 p8, newIE 87 0 (encFTEID if2 t2 (to4 v4) (to16 v6))] = true at wcs
  have lcs : marshalLens g [newEBI ebi, newIE 80 0 p8, newIE 87 0 (encFTEID if2 t2 (to4 v4) (to16 v6))] ≤ 60 := by
    have e : (newEBI ebi).marshalLen g = 5 := mp 73 [ebi &&& 15] g8
    simp only [marshalLens, e, mp _ _ g9, mp _ _ g7]
    omega
  have rcs := length_rawEncs g [newEBI ebi, newIE 80 0 p8, newIE 87 0 (encFTEID if2 t2 (to4 v4) (to16 v6))]
  generalize hcs : [newEBI ebi, newIE 80 0 p8, newIE 87 0 (encFTEID if2 t2 (to4 v4) (to16 v6))] = cs at *
  have wb : wf g (.mk 93 (UInt16.ofNat (rawEncs g cs).length) 0 (rawEncs g cs) cs) = true := by
    rw [wf_grouped g hgb]
    exact ⟨toNat_ofNat16 (by omega), rawEncs_wf g _ wcs, wcs⟩
  have mb : (IE.mk 93 (UInt16.ofNat (rawEncs g cs).length) 0 (rawEncs g cs) cs).marshalLen g ≤ 64 := by
    simp only [IE.marshalLen, hgb, if_true]
    omega
  have hrat : Plain.new8 ⟨"RATType", 82, [82]⟩ rat = newIE 82 0 [rat] := rfl
  rw [hrat] at hok k5
  obtain ⟨F1, F2, F3, F4, F5, F6, F7, F8, F9⟩ := attach_fields g (tbcd imsi) (tbcd msisdn) (tbcd imei) p4 [rat] p6
    (encFTEID if1 t1 (to4 a4) (to16 a6)) (rawEncs g cs) (UInt16.ofNat (rawEncs g cs).length) cs
  have hfit : FitsRead g [some (newIE 1 0 (tbcd imsi)), some (newIE 76 0 (tbcd msisdn)), some (newIE 75 0 (tbcd imei)),
      some (newIE 83 0 p4), some (newIE 82 0 [rat]), some (newIE 71 0 p6), some (newIE 87 0 (encFTEID if1 t1 (to4 a4) (to16 a6))),
      some (.mk 93 (UInt16.ofNat (rawEncs g cs).length) 0 (rawEncs g cs) cs)] := by
    constructor
    · intro x hx
      simp only [List.mem_cons, List.not_mem_nil, or_false, Option.some.injEq] at hx
      rcases hx with rfl | rfl | rfl | rfl | rfl | rfl | rfl | rfl
      · exact wp _ _ g1 (by omega)
      · exact wp _ _ g2 (by omega)
      · exact wp _ _ g3 (by omega)
      · exact wp _ _ g4 (by omega)
      · exact wp _ _ g5 (by simp)
      · exact wp _ _ g6 (by omega)
      · exact wp _ _ g7 (by omega)
      · exact wb
    · simp only [List.filterMap_cons, id, List.filterMap_nil, List.map_cons, List.map_nil, List.sum_cons, List.sum_nil,
        mp _ _ g1, mp _ _ g2, mp _ _ g3, mp _ _ g4, mp _ _ g5, mp _ _ g6, mp _ _ g7, List.length_cons, List.length_nil]
      omega
  obtain ⟨A', num, out, m, x1, x2, x3, x4, x5, x6, x7, x8, _⟩ := C88_exchange_partial g A B s b n aA aB _ hfit
    ((C61_accepts g A s b aB _).2.1 ⟨c', hok⟩) (Or.inl F9) h hB
  rw [x2] at hok
  simp only [Prod.mk.injEq, and_true] at hok
  subst hok
  have tc : ∀ l p, (IE.mk 93 l 0 p cs).children = cs := fun _ _ => rfl
  have k1 := (k1 0).2
  have k2 := (k2 0).2
  have k3 := (k3 0).2
  have k6 := k6.h_get 0
  have k7 := (k7 0).2
  have k8 := (k8 0).2
  have k9 := (k9 0).2
  rw [withInstance_new] at k1 k2 k3 k4 k5 k6 k7 k8 k9
  have ke : (newEBI ebi).ebi g = ok ebi := by
    have hb : ebi < 16 → ebi &&& 0x0f = ebi := forall_byte (p := fun b => b < 16 → b &&& 0x0f = b) (by decide +kernel) ebi
    simp [newEBI, newUint8IE, IE.ebi, IE.valueAsUint8, g8, hb hebi]
  refine ⟨_, _, _, _, _, _, _, _, .mk 93 (UInt16.ofNat (rawEncs g cs).length) 0 (rawEncs g cs) cs, A', num, out, m, n1, n2, n3, n4, n6, n7, n8, n9, ?_, ?_, x3, by rw [x4]; rfl, x5, x6, ?_, ?_, ?_, ?_,
    ?_, ?_, ?_, ?_, w1, w2, w3, w14, w15, ?_⟩
  · rw [newGrouped_eq, ← hcs]; rfl
  · exact x1
  · exact ⟨_, ⟨0, by rw [x4]; rfl, by rw [x7]; exact F1⟩, k1⟩
  · exact ⟨_, ⟨1, by rw [x4]; rfl, by rw [x7]; exact F2⟩, k2⟩
  · exact ⟨_, ⟨2, by rw [x4]; rfl, by rw [x7]; exact F3⟩, k3⟩
  · exact ⟨_, ⟨4, by rw [x4]; rfl, by rw [x7]; exact F4⟩, k4⟩
  · exact ⟨_, ⟨5, by rw [x4]; rfl, by rw [x7]; exact F5⟩, k5⟩
  · exact ⟨_, ⟨9, by rw [x4]; rfl, by rw [x7]; exact F6⟩, k6⟩
  · exact ⟨_, ⟨7, by rw [x4]; rfl, by rw [x7]; exact F7⟩, k7⟩
  · exact ⟨_, _, _, ⟨18, by rw [x4]; rfl, by rw [x7]; exact F8⟩, by rw [tc]; exact hcs.symm, ke, k8.2.1, k8.2.2.1, k8.2.2.2.1,
      k8.2.2.2.2.1, k8.2.2.2.2.2.1, k8.2.2.2.2.2.2, k9⟩
  · intro hl
    refine ⟨x8 t1 ⟨(true, newIE 87 0 (encFTEID if1 t1 (to4 a4) (to16 a6))), ?_, rfl, rfl, by rw [k7.r_ifType, hl], k7.r_teid⟩, ?_⟩
    · simp [atoms]
    · have := (C62_imsi_first g A A' s b aB _ x2 [(true, newIE 1 0 (tbcd imsi))] (atoms [some (newIE 76 0 (tbcd msisdn)),
        some (newIE 75 0 (tbcd imei)), some (newIE 83 0 p4), some (newIE 82 0 [rat]), some (newIE 71 0 p6),
        some (newIE 87 0 (encFTEID if1 t1 (to4 a4) (to16 a6))),
        some (.mk 93 (UInt16.ofNat (rawEncs g cs).length) 0 (rawEncs g cs) cs)]) (by simp [atoms]) ?_ ?_ ?_).1
      · rw [w1] at this; exact this
      · intro a ha t
        simp only [List.mem_cons, List.not_mem_nil, or_false] at ha
        subst ha
        rintro ⟨_, h2, _⟩
        exact absurd h2 (by decide : ¬ (1 : UInt8) = 87)
      · intro a ha
        rintro ⟨h1, h2⟩
        have tb : ∀ l p, (IE.mk 93 l 0 p cs).typ = 93 := fun _ _ => rfl
        have ti : ∀ l p, (IE.mk 93 l 0 p cs).instance' = 0 := by intro l p; simp [IE.instance', IE.rawInst]
        simp [atoms, tb, ti, tc] at ha
        rcases ha with rfl | rfl | rfl | rfl | rfl | rfl | rfl | ⟨x, _, rfl⟩
        all_goals first | (simp at h1; done) | (exfalso; revert h2; simp [newIE, IE.setLength, IE.typ])
      · exact ⟨(true, newIE 87 0 (encFTEID if1 t1 (to4 a4) (to16 a6))), by simp [atoms], t1, rfl, rfl, by rw [k7.r_ifType, hl], k7.r_teid⟩

theorem encs_prefix (g : UInt8 → Bool) : ∀ (xs zs : List IE) (r : Bytes), wfs g xs = true → wfs g zs = true →
    encs g zs = encs g xs ++ r → ∃ ys, zs = xs ++ ys
  | [], zs, _, _, _, _ => ⟨zs, rfl⟩
  | x :: xs, zs, r, hx, hz, e => by
    cases zs with
    | nil =>
      have := congrArg List.length e
      simp only [encs, List.length_nil, List.length_append, length_enc] at this
      omega
    | cons z zs =>
      simp only [wfs, Bool.and_eq_true] at hx hz
      simp only [encs, List.append_assoc] at e
      have h1 := parse_enc g x (encs g xs ++ r) hx.1
      rw [← e, parse_enc g z _ hz.1] at h1
      obtain rfl := ok.inj h1
      obtain ⟨ys, rfl⟩ := encs_prefix g xs zs r hx.2 hz.2 (List.append_cancel_left e)
      exact ⟨ys, rfl⟩

/-- C88, C74 when the message is larger than what Serve reads, whatever its type and elements: it is handled exactly when the
first 1488 octets of its body end where one of its elements ends, and then the handler sees a message with the same header
fields, but without the elements behind -/
theorem C88_cut (g : UInt8 → Bool) (h : Header) (zs : List IE) (hz : ∀ x ∈ zs, wf g x = true) (hseq : h.seq.toNat < 2 ^ 24)
    (hT : h.flags.toNat / 8 % 2 = 1) (hp : h.payload = encs g zs) (hl : h.length.toNat + 4 = (encH h).length)
    (hlong : 1500 < (encH h).length) (m : Message) :
    parseMsg g (asRead (encH h)) = ok m ↔
      ∃ xs ys, zs = xs ++ ys ∧ ys ≠ [] ∧ (encs g xs).length = 1488 ∧ m.schema = schemaOf h.typ ∧
        m.hdr = { h with payload := encs g xs } ∧
        m.fields = Msg.classify (ieOps g) m.schema.unRules m.schema.unDefault xs := by
  have hm : (encH h).length = 12 + h.payload.length := by
    rw [length_encH, Header.marshalLen, hasTEID_iff]; simp [hT]; omega
  have hlt := h.length.toNat_lt
  have hread : asRead (encH h) = encH { h with payload := h.payload.take 1488 } := by
    unfold asRead encH
    simp only [hT, if_true, be16, be32, be24, List.cons_append, List.nil_append, List.take_succ_cons]
  have hparse : Header.parse (encH { h with payload := h.payload.take 1488 }) = ok { h with payload := h.payload.take 1488 } := by
    have hs := hseq
    simp only [Nat.reducePow] at hs
    rw [Header.parse_eq]
    obtain ⟨x, y, e16, v16⟩ := be16_cases h.length
    obtain ⟨s0, s1, s2, e24, v24⟩ := be24_cases h.seq
    obtain ⟨a0, a1, a2, a3, e32, v32⟩ := be32_cases h.teid
    rw [Nat.mod_eq_of_lt hs] at v24
    have q1 : UInt16.ofNat h.length.toNat = h.length := by simp
    have q2 : UInt32.ofNat h.seq.toNat = h.seq := by simp
    have q3 : UInt32.ofNat h.teid.toNat = h.teid := by simp
    simp only [encH, e16, e24, e32]
    rw [if_pos hT]
    simp only [List.cons_append, List.nil_append, Header.parseSpec, v16, v24, v32, q1, q2, q3]
    rw [if_neg (by omega), if_pos hT, if_neg (by omega), if_pos (by rw [List.length_take]; omega)]
  have hpl : (h.payload.take 1488).length = 1488 := by rw [List.length_take]; omega
  have hwz : wfs g zs = true := (wfs_iff g zs).2 hz
  rw [hread, parseMsg_encH g _ (by simp [encH])]
  unfold Msg.unmarshal
  rw [show hdrOps.parse (encH { h with payload := h.payload.take 1488 }) = ok { h with payload := h.payload.take 1488 } from hparse,
    bind_ok, if_neg (by
      rw [show hdrOps.payload { h with payload := h.payload.take 1488 } = h.payload.take 1488 from rfl]
      simp [hpl])]
  show (parseMulti g (h.payload.take 1488) >>= _) = ok m ↔ _
  rw [bind_eq_ok]
  constructor
  · rintro ⟨xs, hx, hm'⟩
    obtain ⟨hwx, hx⟩ := (parseMulti_ok_iff g _ xs).1 hx
    obtain rfl := ok.inj hm'
    obtain ⟨ys, hy⟩ := encs_prefix g xs zs (h.payload.drop 1488) hwx hwz (by rw [← hx, List.take_append_drop, hp])
    refine ⟨xs, ys, hy, ?_, by rw [← hx, hpl], rfl, by rw [hx], rfl⟩
    rintro rfl
    rw [List.append_nil] at hy
    have := congrArg List.length hx
    rw [hpl, ← hy, ← hp] at this
    omega
  · rintro ⟨xs, ys, rfl, hy, hx, h1, h2, h3⟩
    have ht : h.payload.take 1488 = encs g xs := by rw [hp, encs_append, ← hx, List.take_left]
    have hw : wfs g xs = true := (wfs_iff g xs).2 (fun x hm => hz x (List.mem_append_left _ hm))
    refine ⟨xs, (parseMulti_ok_iff g _ xs).2 ⟨hw, ht⟩, ?_⟩
    obtain ⟨sc, hd, F⟩ := m
    simp only at h1 h2 h3
    subst h1 h2 h3
    rw [ht]

/-- the calls of handlers among the effects: which handler, from where, sequence number, TEID, and the payloads of the elements in two fields -/
def seen (f1 f2 : Nat) (x : List Ev × Res Unit) : List ((Nat × Addr) × (UInt32 × UInt32) × List (List Bytes)) :=
  x.1.filterMap (fun e => match e with
    | .call h a m => some ((h, a), (m.hdr.sequence, m.hdr.teidAcc), [(m.fields f1).map IE.payload, (m.fields f2).map IE.payload]) | _ => none)

/-- an MME (handler 5 for Create Session Response) and an S-GW (handler 9 for Create Session Request): the request with IMSI
and S11 F-TEID 7, and the answer with cause 16 and the S-GW's F-TEID -/
def exMME : Conn := { exC with handlers := [(33, .app 5)] }
def exSGW : Conn := { exC with localIf := 11, handlers := [(32, .app 9)] }
def exSent : Conn × UInt32 × List Ev × Res (Nat × UInt32) :=
  createSession exMME defaultGrouped 4 3 4 "b" [some exIMSI, some exFTEID] true
def exAnswer : Message := newMessage defaultGrouped Tab.createSessionResponse 7 0
  [some (newIE 2 0 [16, 0]), some (newIE 87 0 [0x8b, 0, 0, 0, 8, 10, 0, 0, 1])]
def exOut : Bytes := ((datagrams exSent.2.2.1).map (·.2)).flatten
def exOut' : Bytes := match parseMsg defaultGrouped exOut with
  | ok m => ((datagrams (respondTo defaultGrouped "a" m exAnswer true).1).map (·.2)).flatten
  | _ => []

-- from another address the answer is not passed on
set_option synthInstance.maxSize 2000 in
set_option synthInstance.maxHeartbeats 400000 in
example : seen 0 7 (serveDatagram defaultGrouped exSGW "a" (asRead exOut) true) =
      [((9, "a"), (5, 0), [[exIMSI.payload], [exFTEID.payload]])] ∧
    seen 0 4 (serveDatagram defaultGrouped exSent.1 "b" (asRead exOut') true) =
      [((5, "b"), (5, 7), [[[16, 0]], [[0x8b, 0, 0, 0, 8, 10, 0, 0, 1]]])] ∧
    seen 0 4 (serveDatagram defaultGrouped exSent.1 "c" (asRead exOut') true) = [] := by
  decide +kernel

end Verif.V2.Conn

namespace Verif.V2.Conn
open Res Send Utils Spec NetIP
/-! ### cases that meet the hypotheses -/

example := C88_subscriber_partial defaultGrouped (by decide) (by decide) exMME exSGW 3 4 4 "a" "b"
  [48, 48, 49] [49, 50] [51, 52, 53] [48, 48, 49] [48, 49] [97, 46, 98] [10, 0, 0, 1] [] [10, 0, 0, 2] []
  6 5 10 0 1 9 0 9 7 8 1000 2000 0 0 (by decide) (by decide) (by decide) (by decide) (by decide) (by decide) (by decide) (by decide) (by decide)
  (by unfold IsPLMN; decide) (by decide) (by decide) (by decide) (by decide) (by decide) (by decide) (by decide) (by decide) (by decide)
  (by decide) (by decide) (by decide) (by decide) 9 rfl
/-- a message of 1504 octets whose first 1488 octets of elements are complete -/
example := C88_cut defaultGrouped ⟨0x48, 32, 1500, 9, 7, 0, encs defaultGrouped [newIE 255 0 (List.replicate 1484 1), newIE 3 0 []]⟩
  [newIE 255 0 (List.replicate 1484 1), newIE 3 0 []] (by decide +kernel) (by decide) (by decide) rfl (by decide +kernel) (by decide +kernel)
end Verif.V2.Conn
