import Verif.Proofs.V2Create
/-
C61: the session ParseCreateSession makes from information elements (gtpv2/conn.go:461-576).
-/
namespace Verif.V2.Conn
open Res Send Utils

set_option maxHeartbeats 4000000 in
/-- C61: when ParseCreateSession succeeds, the session has the values of the last element of each kind, and the zero value
where there is none.  The bearer's EBI, priority, QCI and bit rates are those of the last such child of a Bearer Context
with instance 0; exceptions: `C61_gbr_down_wrong`, `C61_pci_pvi_wrong`. -/
theorem C61_contents_partial (g : UInt8 → Bool) (c c' : Conn) (s b : Nat) (raddr : Addr) (ies : List (Option IE))
    (hok : parseCreateSession c g s b raddr ies = (c', ok ())) :
    Told (lastTop 1 ies) IE.imsi [] (c'.heap s).imsi ∧
    Told (lastTop 76 ies) IE.msisdn [] (c'.heap s).msisdn ∧
    Told (lastTop 75 ies) IE.mei [] (c'.heap s).imei ∧
    Told (lastTop 83 ies) IE.plmn ([], []) ((c'.heap s).mcc, (c'.heap s).mnc) ∧
    Told (lastTop 82 ies) (ratOf g) 0 (c'.heap s).rat ∧
    Told (lastTop 71 ies) (apnOf g) [] (c'.brs b).apn ∧
    Told (lastChild 73 ies) (IE.ebi g) 0 (c'.brs b).ebi ∧
    Told (lastChild 80 ies) (IE.priorityLevel g) 0 (c'.brs b).pl ∧
    Told (lastChild 80 ies) (IE.qciLabel g) 0 (c'.brs b).qci ∧
    Told (lastChild 80 ies) IE.mbrUp 0 (c'.brs b).mbrUp ∧
    Told (lastChild 80 ies) IE.mbrDown 0 (c'.brs b).mbrDown ∧
    Told (lastChild 80 ies) IE.gbrUp 0 (c'.brs b).gbrUp ∧
    (∀ f, Told (lastFTEID f ies) (fun i => i.teid >>= fun t => ok (some t)) none ((c'.heap s).teids.load f)) ∧
    (c'.heap s).peer = raddr ∧ (c'.heap s).active = false ∧ getDefaultBearer c' s = some b := by
  refine ⟨?_, ?_, ?_, ?_, ?_, ?_, ?_, ?_, ?_, ?_, ?_, ?_, ?_, ?_, ?_, ?_⟩
  · have := parse_last hok (fun c => (c.heap s).imsi) (fun a => a.1 = true ∧ a.2.typ = 1) (IE.imsi)
    simp only [newSession, if_true] at this
    refine this ?_
    intro a c c' he
    cases he <;> simp_all [update, updateBearer, registerSession, addTEID]
  · have := parse_last hok (fun c => (c.heap s).msisdn) (fun a => a.1 = true ∧ a.2.typ = 76) (IE.msisdn)
    simp only [newSession, if_true] at this
    refine this ?_
    intro a c c' he
    cases he <;> simp_all [update, updateBearer, registerSession, addTEID]
  · have := parse_last hok (fun c => (c.heap s).imei) (fun a => a.1 = true ∧ a.2.typ = 75) (IE.mei)
    simp only [newSession, if_true] at this
    refine this ?_
    intro a c c' he
    cases he <;> simp_all [update, updateBearer, registerSession, addTEID]
  · have := parse_last hok (fun c => ((c.heap s).mcc, (c.heap s).mnc)) (fun a => a.1 = true ∧ a.2.typ = 83) (IE.plmn)
    simp only [newSession, if_true] at this
    refine this ?_
    intro a c c' he
    cases he <;> simp_all [update, updateBearer, registerSession, addTEID]
  · have := parse_last hok (fun c => (c.heap s).rat) (fun a => a.1 = true ∧ a.2.typ = 82) (ratOf g)
    simp only [newSession, if_true] at this
    refine this ?_
    intro a c c' he
    cases he <;> simp_all [update, updateBearer, registerSession, addTEID]
  · have := parse_last hok (fun c => (c.brs b).apn) (fun a => a.1 = true ∧ a.2.typ = 71) (apnOf g)
    simp only [newSession, if_true] at this
    refine this ?_
    intro a c c' he
    cases he <;> simp_all [update, updateBearer, registerSession, addTEID]
  · have := parse_last hok (fun c => (c.brs b).ebi) (fun a => a.1 = false ∧ a.2.typ = 73) (IE.ebi g)
    simp only [newSession, if_true] at this
    refine this ?_
    intro a c c' he
    cases he <;> simp_all [update, updateBearer, registerSession, addTEID]
  · have := parse_last hok (fun c => (c.brs b).pl) (fun a => a.1 = false ∧ a.2.typ = 80) (IE.priorityLevel g)
    simp only [newSession, if_true] at this
    refine this ?_
    intro a c c' he
    cases he <;> simp_all [update, updateBearer, registerSession, addTEID]
  · have := parse_last hok (fun c => (c.brs b).qci) (fun a => a.1 = false ∧ a.2.typ = 80) (IE.qciLabel g)
    simp only [newSession, if_true] at this
    refine this ?_
    intro a c c' he
    cases he <;> simp_all [update, updateBearer, registerSession, addTEID]
  · have := parse_last hok (fun c => (c.brs b).mbrUp) (fun a => a.1 = false ∧ a.2.typ = 80) (IE.mbrUp)
    simp only [newSession, if_true] at this
    refine this ?_
    intro a c c' he
    cases he <;> simp_all [update, updateBearer, registerSession, addTEID]
  · have := parse_last hok (fun c => (c.brs b).mbrDown) (fun a => a.1 = false ∧ a.2.typ = 80) (IE.mbrDown)
    simp only [newSession, if_true] at this
    refine this ?_
    intro a c c' he
    cases he <;> simp_all [update, updateBearer, registerSession, addTEID]
  · have := parse_last hok (fun c => (c.brs b).gbrUp) (fun a => a.1 = false ∧ a.2.typ = 80) (IE.gbrUp)
    simp only [newSession, if_true] at this
    refine this ?_
    intro a c c' he
    cases he <;> simp_all [update, updateBearer, registerSession, addTEID]
  · intro f
    have := parse_last hok (fun c => (c.heap s).teids.load f) (fun a => a.2.typ = 87 ∧ a.2.interfaceType = ok f)
      (fun i => i.teid >>= fun t => ok (some t))
    simp only [newSession, if_true, SyncMap.load_nil] at this
    refine this ?_
    intro a c c' he
    cases he with
    | reg i t h1 h2 h3 =>
      simp only [h1, h2, h3, update, registerSession, addTEID, SyncMap.load_store, bind_ok, ok.injEq, if_true, true_and,
        decide_eq_true_eq, decide_eq_false_iff_not]
      exact ⟨fun h => by rw [if_pos h.symm], fun h => by rw [if_neg (fun hc => h hc.symm), if_neg (fun hc => h hc.symm)]⟩
    | fteid top i f' t h1 h2 h3 h4 =>
      simp only [h1, h2, h3, update, addTEID, SyncMap.load_store, bind_ok, ok.injEq, if_true, true_and,
        decide_eq_true_eq, decide_eq_false_iff_not]
      exact ⟨fun h => by rw [if_pos h.symm], fun h => by rw [if_neg (fun hc => h hc.symm)]⟩
    | skip a h1 h2 =>
      refine ⟨fun h => ?_, fun _ => rfl⟩
      simp only [decide_eq_true_eq] at h
      cases ha : a.1
      · exact absurd (h2 ha) (by simp [h.1])
      · exact absurd (h1 ha) (by simp [h.1])
    | _ => simp_all [update, updateBearer]
  · have := parse_last hok (fun c => (c.heap s).peer) (fun _ => false) (fun _ => err .other)
    simp only [List.filter_false, List.getLast?_nil, Told, newSession, if_true] at this
    refine (this ?_).trans rfl
    intro a c c' he
    cases he <;> simp [update, updateBearer, registerSession, addTEID]
  · have := parse_last hok (fun c => (c.heap s).active) (fun _ => false) (fun _ => err .other)
    simp only [List.filter_false, List.getLast?_nil, Told, newSession, if_true] at this
    refine (this ?_).trans rfl
    intro a c c' he
    cases he <;> simp [update, updateBearer, registerSession, addTEID]
  · have := parse_last hok (fun c => getDefaultBearer c s) (fun _ => false) (fun _ => err .other)
    simp only [List.filter_false, List.getLast?_nil, Told, newSession, getDefaultBearer, if_true] at this
    refine (this ?_).trans rfl
    intro a c c' he
    cases he <;> simp [update, updateBearer, registerSession, addTEID]

/-- C61 fails for the guaranteed bit rate downlink: it is always set to that of the uplink (conn.go:552) -/
theorem C61_gbr_down_wrong (g : UInt8 → Bool) (c c' : Conn) (s b : Nat) (raddr : Addr) (ies : List (Option IE))
    (hok : parseCreateSession c g s b raddr ies = (c', ok ())) : (c'.brs b).gbrDown = (c'.brs b).gbrUp := by
  have h1 := parse_last hok (fun c => ((c.brs b).gbrDown, (c.brs b).gbrUp)) (fun a => a.1 = false ∧ a.2.typ = 80)
    (fun i => i.gbrUp >>= fun v => ok (v, v))
  simp only [newSession, if_true] at h1
  have h1 := h1 (by
    intro a c c' he
    cases he <;> simp_all [update, updateBearer, registerSession, addTEID])
  unfold Told at h1
  split at h1
  · rename_i x _
    cases hg : x.2.gbrUp <;> simp [hg] at h1
    rw [← h1.1, ← h1.2]
  · simp only [Prod.mk.injEq] at h1
    rw [h1.1, h1.2]

/-- C61 fails for the two pre-emption flags: they are never set (the accessors do not work on Bearer QoS, see
`C42_bearer_qos_pci_wrong`) -/
theorem C61_pci_pvi_wrong (g : UInt8 → Bool) (c c' : Conn) (s b : Nat) (raddr : Addr) (ies : List (Option IE))
    (hok : parseCreateSession c g s b raddr ies = (c', ok ())) : (c'.brs b).pci = false ∧ (c'.brs b).pvi = false := by
  have h1 := parse_last hok (fun c => ((c.brs b).pci, (c.brs b).pvi)) (fun a => a.1 = false ∧ a.2.typ = 80)
    (fun _ => ok (false, false))
  simp only [newSession, if_true] at h1
  have h1 := h1 (by
    intro a c c' he
    cases he <;> simp_all [update, updateBearer, registerSession, addTEID])
  unfold Told at h1
  split at h1 <;> simp_all

/-- C61: ParseCreateSession returns (no panic) for all arguments, and succeeds exactly when every element it looks at can be
read -/
theorem C61_accepts (g : UInt8 → Bool) (c : Conn) (s b : Nat) (raddr : Addr) (ies : List (Option IE)) :
    Returns (parseCreateSession c g s b raddr ies).2 ∧
    ((∃ c', parseCreateSession c g s b raddr ies = (c', ok ())) ↔ ∀ a ∈ atoms ies, Readable g a) := by
  unfold parseCreateSession
  rw [ieLoop_eq]
  rcases loop_cases g s b (atoms ies) (newSession c s b raddr) with ⟨ha, c', h⟩ | ⟨l1, a, l2, c1, he, _, hn, _, c', e, h, _⟩
  · rw [h]; exact ⟨by simp, fun _ => ha, fun _ => ⟨c', rfl⟩⟩
  · rw [h]
    refine ⟨by simp, fun hc => ?_, fun hc => absurd (hc a (by rw [he]; simp)) hn⟩
    obtain ⟨c2, h2⟩ := hc
    simp at h2

end Verif.V2.Conn
