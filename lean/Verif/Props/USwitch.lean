import Verif.Props.UConn
/-
C38 in terms of the calls made on a connection: which of them decide what becomes of a G-PDU.
-/
namespace Verif.V1.UConn
open Res Spec

theorem applyAll_snoc (u : UConn) (ops : List Op) (op : Op) : applyAll u (ops ++ [op]) = apply (applyAll u ops) op := by
  simp [applyAll]

/-- C38, the switch: error indications are sent unless DisableErrorIndication was called without a later
EnableErrorIndication. -/
theorem C38_switch (self : Nat) (ip : Option Bytes) (opened : Nat → Bool) (ops : List Op) :
    (applyAll (newUConn self ip opened) ops).errInd = false ↔
      ∃ pre post, ops = pre ++ Op.disableErrInd :: post ∧ Op.enableErrInd ∉ post := by
  induction ops using List.reverseRecOn with
  | nil => simp [applyAll, newUConn]
  | append_singleton ops op ih =>
    rw [applyAll_snoc]
    by_cases h1 : op = .disableErrInd
    · subst h1
      simp only [apply, true_iff]
      exact ⟨ops, [], rfl, by simp⟩
    by_cases h2 : op = .enableErrInd
    · subst h2
      simp only [apply, Bool.true_eq_false, false_iff]
      rintro ⟨pre, post, he, hn⟩
      rcases List.eq_nil_or_concat post with rfl | ⟨post', x, rfl⟩
      · have := (List.append_inj' (s₁ := ops) (t₁ := [Op.enableErrInd]) (s₂ := pre) (t₂ := [Op.disableErrInd]) he rfl).2
        simp at this
      · rw [List.concat_eq_append] at he hn
        have he' : ops ++ [Op.enableErrInd] = (pre ++ Op.disableErrInd :: post') ++ [x] := by rw [he]; simp
        have := (List.append_inj' he' rfl).2
        simp only [List.cons.injEq, and_true] at this
        subst this
        exact hn (by simp)
    · have e : (apply (applyAll (newUConn self ip opened) ops) op).errInd = (applyAll (newUConn self ip opened) ops).errInd := by
        cases op <;> first | rfl | exact absurd rfl h1 | exact absurd rfl h2
      rw [e, ih]
      constructor
      · rintro ⟨pre, post, rfl, hn⟩
        refine ⟨pre, post ++ [op], by simp, ?_⟩
        intro h
        rcases List.mem_append.1 h with h | h
        · exact hn h
        · exact h2 (List.mem_singleton.1 h).symm
      · rintro ⟨pre, post, he, hn⟩
        rcases List.eq_nil_or_concat post with rfl | ⟨post', x, rfl⟩
        · have := (List.append_inj' (s₁ := ops) (t₁ := [op]) (s₂ := pre) (t₂ := [Op.disableErrInd]) he rfl).2
          simp only [List.cons.injEq, and_true] at this
          exact absurd this h1
        · rw [List.concat_eq_append] at he hn
          have he' : ops ++ [op] = (pre ++ Op.disableErrInd :: post') ++ [x] := by rw [he]; simp
          exact ⟨pre, post', (List.append_inj' he' rfl).1, fun h => hn (List.mem_append_left _ h)⟩

/-- AddHandler alone changes the handler of a message type -/
theorem handler_kept (self : Nat) (ip : Option Bytes) (opened : Nat → Bool) (t : UInt8) (ops : List Op)
    (h : ∀ id, Op.addHandler t id ∉ ops) :
    (applyAll (newUConn self ip opened) ops).handlers.load t = defaultHandlers.load t := by
  induction ops using List.reverseRecOn with
  | nil => rfl
  | append_singleton ops op ih =>
    rw [applyAll_snoc]
    have ih := ih (fun id hi => h id (List.mem_append_left _ hi))
    cases op with
    | addHandler t' id =>
      simp only [apply, SyncMap.load_store]
      rw [if_neg, ih]
      rintro rfl
      exact h id (by simp)
    | _ => exact ih

theorem static_kept (self : Nat) (ip : Option Bytes) (opened : Nat → Bool) (ops : List Op) :
    (applyAll (newUConn self ip opened) ops).localIP = ip ∧ (applyAll (newUConn self ip opened) ops).self = self := by
  induction ops using List.reverseRecOn with
  | nil => exact ⟨rfl, rfl⟩
  | append_singleton ops op ih =>
    rw [applyAll_snoc]
    cases op <;> exact ih

/-- the relay entry of the TEID was never made, or was taken back by CloseRelay -/
def NoRelay (ops : List Op) (t : UInt32) : Prop :=
  ∀ pre p post, ops = pre ++ Op.relayTo t p :: post → Op.closeRelay t ∈ post

theorem noRelay_load (self : Nat) (ip : Option Bytes) (opened : Nat → Bool) (ops : List Op) (t : UInt32) (h : NoRelay ops t) :
    (applyAll (newUConn self ip opened) ops).relay.load t = none := by
  cases hl : (applyAll (newUConn self ip opened) ops).relay.load t with
  | none => rfl
  | some p =>
    obtain ⟨pre, post, he, _, hc⟩ := (C37_table self ip opened ops t p).1 hl
    exact absurd (h pre p post he) hc

/-- C38 by the calls made: a connection on which anything was called but AddHandler for G-PDUs gets a G-PDU for a TEID without
relay. If DisableErrorIndication is in force the payload is offered to ReadFromGTP with its TEID, and nothing else happens;
otherwise exactly one Error Indication with the TEID of the G-PDU and the own address goes back to the sender.
Partial: datagrams of 8 to 10 octets are dropped while a relay exists (`C37_short_dropped`). -/
theorem C38_calls_partial (self : Nat) (ip : Bytes) (hip : ip.length = 4 ∨ ip.length = 16) (opened : Nat → Bool) (ops : List Op)
    (hops : ∀ id, Op.addHandler 255 id ∉ ops) (a : Addr) (d : Bytes) (h : Header) (seen : Bool)
    (hmax : d.length ≤ 1500) (hp : parseMsg d = ok (.tpdu h)) (hseen : seen = true → 11 ≤ d.length) (hr : NoRelay ops h.teid) :
    ((∃ pre post, ops = pre ++ Op.disableErrInd :: post ∧ Op.enableErrInd ∉ post) →
      ∀ w, serve (applyAll (newUConn self (some ip) opened) ops) seen a d w = ([.offered a h.teid h.seq h.payload], ok ())) ∧
    ((¬ ∃ pre post, ops = pre ++ Op.disableErrInd :: post ∧ Op.enableErrInd ∉ post) →
      ∃ b m, serve (applyAll (newUConn self (some ip) opened) ops) seen a d true = ([.sent self a b], ok ()) ∧
        parseMsg b = ok (.msg m) ∧ m.schema = Tab.errorIndication ∧ m.hdr.teid = 0 ∧ m.hdr.seq = h.seq ∧
        m.fields 0 = [⟨16, 0, (d.drop 4).take 4⟩] ∧ m.fields 1 = [⟨133, UInt16.ofNat ip.length, ip⟩] ∧
        m.fields 2 = [] ∧ m.fields 3 = []) := by
  obtain ⟨e1, e2⟩ := static_kept self (some ip) opened ops
  have hh : (applyAll (newUConn self (some ip) opened) ops).handlers.load 255 = some .tpdu := by
    rw [handler_kept self (some ip) opened 255 ops hops]; rfl
  have hn : seen = false ∨ 11 ≤ d.length ∧ (applyAll (newUConn self (some ip) opened) ops).relay.load h.teid = none := by
    cases seen with
    | false => exact Or.inl rfl
    | true => exact Or.inr ⟨hseen rfl, noRelay_load self (some ip) opened ops h.teid hr⟩
  constructor
  · intro hd w
    exact (C38_delivery_partial _ seen a d h w hmax hp hh hn ((C38_switch self (some ip) opened ops).2 hd)).1
  · intro hd
    have he : (applyAll (newUConn self (some ip) opened) ops).errInd = true := by
      cases hc : (applyAll (newUConn self (some ip) opened) ops).errInd with
      | true => rfl
      | false => exact absurd ((C38_switch self (some ip) opened ops).1 hc) hd
    have hs : (applyAll (newUConn self (some ip) opened) ops).Sane := by
      intro i hi
      rw [e1] at hi
      simp only [Option.some.injEq] at hi
      subst hi
      exact hip
    have := C38_indication_partial _ hs seen a d h ip hmax hp hh hn he e1
    rw [e2] at this
    exact this

example (self : Nat) (ip : Option Bytes) (opened : Nat → Bool) :
    (applyAll (newUConn self ip opened) [.enableErrInd, .disableErrInd, .closeRelay 1]).errInd = false ∧
    (applyAll (newUConn self ip opened) [.disableErrInd, .enableErrInd, .closeRelay 1]).errInd = true := ⟨rfl, rfl⟩

end Verif.V1.UConn

namespace Verif.V1.UConn
open Res Spec
/-! ### cases that meet the hypotheses -/

example := C38_calls_partial 0 [10, 0, 0, 1] (.inl rfl) (fun _ => true) [.enableErrInd, .relayTo 7 ⟨1, "b", 9⟩, .closeRelay 7, .disableErrInd]
  (by intro id; simp) "10.0.0.9:2152" [0x30, 255, 0, 2, 0, 0, 0, 7, 1, 2] _ false (by decide) rfl (by decide) (by
    intro pre p post he
    match pre, he with
    | [], he => cases he
    | [_], he => cases he; simp
    | [_, _], he => cases he
    | [_, _, _], he => cases he
    | _ :: _ :: _ :: _ :: _, he => simp at he)
end Verif.V1.UConn
