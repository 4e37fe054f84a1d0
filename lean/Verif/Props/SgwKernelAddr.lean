import Verif.Props.SgwKernelRuns
/-
C110: the address noted for a subscriber is not changed by messages that belong to others.
-/
namespace Verif.V2.Sgw
open Res Send Conn NetIP V1.Tunnel

theorem setIP_other {ip : Nat → Bytes} {b j : Nat} {x : Bytes} (h : j ≠ b) : setIP ip b x j = ip j := if_neg h

theorem setPAA_other {ip : Nat → Bytes} {x : Option (Nat × Bytes)} {j : Nat} (h : setPAA ip x j ≠ ip j) : ∃ v, x = some (j, v) := by
  cases x with
  | none => exact absurd rfl h
  | some y =>
    by_cases hj : j = y.1
    · subst hj; exact ⟨y.2, rfl⟩
    · exact absurd (setIP_other hj) h

theorem modifyK_ip (g : UInt8 → Bool) (p : Cfg) (e : Env) (f : KFaults) (a : Addr) (m : Message) (k : KState) :
    (modifyK g p e f a m k).1.ip11 = k.ip11 ∧ (modifyK g p e f a m k).1.ip5 = k.ip5 := by
  refine ⟨?_, ?_⟩ <;> unfold modifyK <;> dsimp only <;> repeat' (first | rfl | split)

theorem paa5_bearer {g : UInt8 → Bool} {a : Addr} {m : Message} {st : State} {b : Nat} {v : Bytes} (h : paa5 g a m st = some (b, v)) :
    ∃ s, getSessionByTEID st.s5 m.hdr.teidAcc a = ok s ∧ getDefaultBearer st.s5 s = some b := by
  unfold paa5 at h
  split at h
  · rename_i s hs
    split at h
    · rename_i hb
      split at h
      · split at h
        · injection h with h; injection h with h1 h2
          subst h1
          exact ⟨s, hs, hb⟩
        · exact absurd h (by simp)
      · exact absurd h (by simp)
    · exact absurd h (by simp)
  · exact absurd h (by simp)

theorem paa11_bearer {s : Nat} {m : Message} {st : State} {b : Nat} {v : Bytes} (h : paa11 s m st = some (b, v)) :
    getDefaultBearer st.s11 s = some b := by
  unfold paa11 at h
  split at h
  · exact absurd h (by simp)
  split at h
  · rename_i hb
    injection h with h; injection h with h1 h2
    subst h1
    exact hb
  · exact absurd h (by simp)

/-- C110, "of no other": a message on S11 changes the addresses noted for no bearers but those it makes, whatever happens -/
theorem C110_address_s11 (g : UInt8 → Bool) (p : Cfg) (k : KState) (e : Env) (f : KFaults) (a : Addr) (d : Bytes) (j : Nat) :
    (j ≠ e.b → (stepK g p k e f (.s11 a d)).1.ip11 j = k.ip11 j) ∧ (j ≠ e.b5 → (stepK g p k e f (.s11 a d)).1.ip5 j = k.ip5 j) := by
  unfold stepK
  simp only
  split
  · exact ⟨setIP_other, setIP_other⟩
  · exact ⟨fun _ => congrFun (modifyK_ip ..).1 j, fun _ => congrFun (modifyK_ip ..).2 j⟩
  · exact ⟨fun _ => rfl, fun _ => rfl⟩

/-- a message on S5 changes the address noted for no bearer but that of the session its TEID leads to -/
theorem C110_address_s5 (g : UInt8 → Bool) (p : Cfg) (k : KState) (e : Env) (f : KFaults) (a : Addr) (d : Bytes) (j : Nat) :
    (stepK g p k e f (.s5 a d)).1.ip11 j = k.ip11 j ∧
    ((stepK g p k e f (.s5 a d)).1.ip5 j ≠ k.ip5 j → ∃ a' m s, serveDatagram g k.st.s5 a d e.w = ([.call 0 a' m], ok ()) ∧
      getSessionByTEID k.st.s5 m.hdr.teidAcc a' = ok s ∧ getDefaultBearer k.st.s5 s = some j) := by
  unfold stepK
  simp only
  split
  · rename_i a' m u hs
    refine ⟨rfl, fun h => ?_⟩
    obtain ⟨v, hv⟩ := setPAA_other h
    obtain ⟨s, h1, h2⟩ := paa5_bearer hv
    exact ⟨a', m, s, hs, h1, h2⟩
  · exact ⟨rfl, fun h => absurd rfl h⟩

/-- a handler that goes on changes the address noted for no bearer but that of the session it was waiting for -/
theorem C110_address_wake (g : UInt8 → Bool) (p : Cfg) (k : KState) (e : Env) (f : KFaults) (n j : Nat) :
    (stepK g p k e f (.wake n)).1.ip5 j = k.ip5 j ∧
    ((stepK g p k e f (.wake n)).1.ip11 j ≠ k.ip11 j → ∃ s s5 seq a m i t, k.st.waiting[n]? = some (.create s s5 seq a m i t) ∧
      getDefaultBearer k.st.s11 s = some j) := by
  refine ⟨rfl, fun h => ?_⟩
  have h' : wakeIP k n j ≠ k.ip11 j := h
  unfold wakeIP at h'
  cases hw : k.st.waiting[n]? with
  | none => rw [hw] at h'; exact absurd rfl h'
  | some w =>
    rw [hw] at h'
    cases w with
    | create s s5 seq a m i t =>
      cases hq : k.st.q11 s with
      | nil => simp only [hq] at h'; exact absurd rfl h'
      | cons r rs =>
        simp only [hq] at h'
        by_cases hr : r.hdr.sequence ≠ seq
        · rw [if_pos hr] at h'; exact absurd rfl h'
        · rw [if_neg hr] at h'
          obtain ⟨v, hv⟩ := setPAA_other h'
          exact ⟨s, s5, seq, a, m, i, t, rfl, paa11_bearer hv⟩
    | _ => exact absurd rfl h'

/-- a handler that has waited too long changes none -/
theorem C110_address_expire (g : UInt8 → Bool) (p : Cfg) (k : KState) (e : Env) (f : KFaults) (n : Nat) :
    (stepK g p k e f (.expire n)).1.ip11 = k.ip11 ∧ (stepK g p k e f (.expire n)).1.ip5 = k.ip5 := ⟨rfl, rfl⟩

/-! ### cases that meet the hypotheses -/

/-- the second attach leaves the address of the first subscriber; the answer of the P-GW and the handler that goes on note it -/
example := (C110_address_s11 defaultGrouped exG exK3 (exE 1 50) .zero "m" exReq 0).1 (by decide)
example := (C110_address_s5 defaultGrouped exG exK1 (exE 1 30) .zero exP (match exPgw.2.1 with | [.sent _ d] => d | _ => []) 0).2
  (by decide +kernel)
example := (C110_address_wake defaultGrouped exG exK2 (exE 1 40) .zero 0 0).2 (by decide +kernel)

end Verif.V2.Sgw
