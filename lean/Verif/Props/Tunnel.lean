import Verif.Model.Tunnel
/-
C69: what the calls on kernel tunnels do to the tunnels of the kernel, to the TEIDs in use and to the relay.
-/
namespace Verif.V1.Tunnel

/-- no two tunnels of a device share the subscriber address or the incoming TEID -/
def Distinct (l : List PDP) : Prop := ∀ p ∈ l, ∀ q ∈ l, p.ms = q.ms ∨ p.itei = q.itei → p = q

/-- the same for all devices; GTPPDPAdd keeps it (`C69_distinct`) -/
def Sys.Ok (s : Sys) : Prop := ∀ d l, s.dev d = some l → Distinct l

/-! ### helper lemmas -/

theorem tuns_setTuns {s : Sys} {l : List PDP} (h : s.tuns = some l) (l' : List PDP) : (s.setTuns l').tuns = some l' := by
  unfold Sys.tuns at h
  unfold Sys.setTuns
  split at h
  · next d e => simp [Sys.tuns, e]
  · simp at h

theorem tuns_dev {s : Sys} {l : List PDP} (h : s.tuns = some l) : ∃ d, s.link = some (d, true) ∧ s.dev d = some l := by
  unfold Sys.tuns at h
  split at h
  · next d e => exact ⟨d, e, h⟩
  · simp at h

theorem ok_tuns {s : Sys} (hs : s.Ok) {l : List PDP} (h : s.tuns = some l) : Distinct l := by
  obtain ⟨d, -, e⟩ := tuns_dev h
  exact hs d l e

theorem setTuns_ok {s : Sys} (hs : s.Ok) {l : List PDP} (hl : Distinct l) : (s.setTuns l).Ok := by
  unfold Sys.setTuns
  split
  · intro d l' h
    simp only at h
    split at h
    · cases h; exact hl
    · exact hs d l' h
  · exact hs

theorem setTuns_link (s : Sys) (l : List PDP) : (s.setTuns l).link = s.link ∧ (s.setTuns l).enabled = s.enabled ∧
    (s.setTuns l).relay = s.relay ∧ (s.setTuns l).reserved = s.reserved ∧ (s.setTuns l).sock = s.sock := by
  unfold Sys.setTuns
  split <;> simp

theorem setTuns_other (s : Sys) (l : List PDP) (d : String) (h : ∀ b, s.link ≠ some (d, b)) :
    (s.setTuns l).dev d = s.dev d := by
  unfold Sys.setTuns
  split
  · next d' e =>
    have : d ≠ d' := by rintro rfl; exact h true e
    simp [this]
  · rfl

theorem kAdd_some {fail : Bool} {s s' : Sys} {p : PDP} : kAdd fail s p = some s' ↔
    fail = false ∧ ∃ l, s.tuns = some l ∧ (∀ q ∈ l, q.ms ≠ p.ms ∧ q.itei ≠ p.itei) ∧ s' = s.setTuns (l ++ [p]) := by
  unfold kAdd
  cases fail
  · cases h : s.tuns with
    | none => simp
    | some l =>
      simp only [Bool.false_eq_true, if_false, true_and, Option.some.injEq]
      constructor
      · intro e
        split at e
        · simp at e
        · next hn =>
          refine ⟨l, rfl, ?_, by simpa using e.symm⟩
          intro q hq
          simp only [List.any_eq_true, Bool.or_eq_true, decide_eq_true_eq, not_exists, not_and, not_or] at hn
          exact hn q hq
      · rintro ⟨l', rfl, hn, rfl⟩
        have : ¬ (l.any fun q => q.ms = p.ms || q.itei = p.itei) = true := by
          simp only [List.any_eq_true, Bool.or_eq_true, decide_eq_true_eq, not_exists, not_and, not_or]
          exact hn
        rw [if_neg this]
  · simp

theorem kDel_some {fail : Bool} {s s' : Sys} {p : PDP} : kDel fail s p = some s' ↔
    fail = false ∧ ∃ l, s.tuns = some l ∧ (∃ q ∈ l, q.itei = p.itei) ∧
      s' = s.setTuns (l.filter (fun q => q.itei ≠ p.itei)) := by
  unfold kDel
  cases fail
  · cases h : s.tuns with
    | none => simp
    | some l =>
      simp only [Bool.false_eq_true, if_false, true_and, Option.some.injEq]
      constructor
      · intro e
        split at e
        · next hy =>
          refine ⟨l, rfl, ?_, by simpa using e.symm⟩
          simpa using hy
        · simp at e
      · rintro ⟨l', rfl, hy, rfl⟩
        have : (l.any fun q => q.itei = p.itei) = true := by simpa using hy
        rw [if_pos this]
  · simp

theorem kByMS_some {fail : Bool} {s : Sys} {a : Bytes} {q : PDP} (h : kByMS fail s a = some q) :
    fail = false ∧ ∃ l, s.tuns = some l ∧ q ∈ l ∧ q.ms = a := by
  unfold kByMS at h
  cases fail
  · cases e : s.tuns with
    | none => simp [e] at h
    | some l =>
      simp only [e, Bool.false_eq_true, if_false] at h
      refine ⟨rfl, l, rfl, List.mem_of_find?_eq_some h, ?_⟩
      simpa using List.find?_some h
  · simp at h

theorem kByMS_none {s : Sys} {a : Bytes} {l : List PDP} (e : s.tuns = some l) (h : kByMS false s a = none) :
    ∀ q ∈ l, q.ms ≠ a := by
  simpa [kByMS, e, List.find?_eq_none] using h

theorem kByITEI_some {fail : Bool} {s : Sys} {a : Nat} {q : PDP} (h : kByITEI fail s a = some q) :
    fail = false ∧ ∃ l, s.tuns = some l ∧ q ∈ l ∧ q.itei = a := by
  unfold kByITEI at h
  cases fail
  · cases e : s.tuns with
    | none => simp [e] at h
    | some l =>
      simp only [e, Bool.false_eq_true, if_false] at h
      refine ⟨rfl, l, rfl, List.mem_of_find?_eq_some h, ?_⟩
      simpa using List.find?_some h
  · simp at h

theorem kByITEI_none {s : Sys} {a : Nat} {l : List PDP} (e : s.tuns = some l) (h : kByITEI false s a = none) :
    ∀ q ∈ l, q.itei ≠ a := by
  simpa [kByITEI, e, List.find?_eq_none] using h

theorem distinct_filter {l : List PDP} (h : Distinct l) (f : PDP → Bool) : Distinct (l.filter f) := by
  intro p hp q hq
  exact h p (List.mem_filter.1 hp).1 q (List.mem_filter.1 hq).1

theorem distinct_append {l : List PDP} (h : Distinct l) {p : PDP} (hp : ∀ q ∈ l, q.ms ≠ p.ms ∧ q.itei ≠ p.itei) :
    Distinct (l ++ [p]) := by
  intro a ha b hb hab
  simp only [List.mem_append, List.mem_singleton] at ha hb
  rcases ha with ha | rfl <;> rcases hb with hb | rfl
  · exact h a ha b hb hab
  · rcases hab with e | e
    · exact absurd e (hp a ha).1
    · exact absurd e (hp a ha).2
  · rcases hab with e | e
    · exact absurd e.symm (hp b hb).1
    · exact absurd e.symm (hp b hb).2
  · rfl

theorem foldl_inv (J : Sys → Pc → Prop) (f : Nat → Bool) (hstep : ∀ i s pc, J s pc → J (step (f i) s pc).1 (step (f i) s pc).2) :
    ∀ (is : List Nat) (x : Sys × Pc), J x.1 x.2 →
      J (is.foldl (fun x i => step (f i) x.1 x.2) x).1 (is.foldl (fun x i => step (f i) x.1 x.2) x).2
  | [], _, h => h
  | i :: is, x, h => foldl_inv J f hstep is (step (f i) x.1 x.2) (hstep i _ _ h)

theorem call_inv (J : Sys → Pc → Prop) (f : Nat → Bool) (s : Sys) (c : Call)
    (hstep : ∀ i s pc, J s pc → J (step (f i) s pc).1 (step (f i) s pc).2) (h0 : J s (enter s c)) :
    J (call f s c).1 (call f s c).2 := foldl_inv J f hstep _ _ h0

/-- a step changes the tunnels of the device of the connection and the TEIDs in use, nothing else -/
theorem step_frame (fail : Bool) (s : Sys) (pc : Pc) :
    (step fail s pc).1.link = s.link ∧ (step fail s pc).1.enabled = s.enabled ∧ (step fail s pc).1.relay = s.relay ∧
      (step fail s pc).1.sock = s.sock ∧
      ∀ d, (∀ b, s.link ≠ some (d, b)) → (step fail s pc).1.dev d = s.dev d := by
  have hdel : ∀ q, ((kDel fail s q).getD s).link = s.link ∧ ((kDel fail s q).getD s).enabled = s.enabled ∧
      ((kDel fail s q).getD s).relay = s.relay ∧ ((kDel fail s q).getD s).sock = s.sock ∧
      ∀ d, (∀ b, s.link ≠ some (d, b)) → ((kDel fail s q).getD s).dev d = s.dev d := by
    intro q
    cases e : kDel fail s q with
    | none => simp
    | some s' =>
      obtain ⟨-, l, -, -, rfl⟩ := kDel_some.1 e
      have := setTuns_link s (l.filter fun x => x.itei ≠ q.itei)
      refine ⟨this.1, this.2.1, this.2.2.1, this.2.2.2.2, fun d hd => ?_⟩
      exact setTuns_other s _ d hd
  cases pc <;> simp only [step]
  case lookMS p => split <;> simp
  case dropMS p q => exact hdel q
  case lookITEI p => split <;> simp
  case dropITEI p q => exact hdel q
  case install p =>
    split
    · next s' e =>
      obtain ⟨-, l, -, -, rfl⟩ := kAdd_some.1 e
      have := setTuns_link s (l ++ [p])
      exact ⟨this.1, this.2.1, this.2.2.1, this.2.2.2.2, fun d hd => setTuns_other s _ d hd⟩
    · simp
  case findITEI i => split <;> simp
  case findMS i => split <;> simp
  case remove q i =>
    have := hdel q
    split
    · next s' e => simpa [e] using this
    · simp
  case release i => simp
  case done b => simp

/-- a step keeps tunnels distinct -/
theorem step_ok (fail : Bool) (s : Sys) (pc : Pc) (hs : s.Ok) : (step fail s pc).1.Ok := by
  have hdel : ∀ q s', kDel fail s q = some s' → s'.Ok := by
    intro q s' e
    obtain ⟨-, l, hl, -, rfl⟩ := kDel_some.1 e
    exact setTuns_ok hs (distinct_filter (ok_tuns hs hl) _)
  cases pc <;> simp only [step]
  case lookMS p => split <;> exact hs
  case dropMS p q =>
    cases e : kDel fail s q with
    | none => exact hs
    | some s' => exact hdel _ _ e
  case lookITEI p => split <;> exact hs
  case dropITEI p q =>
    cases e : kDel fail s q with
    | none => exact hs
    | some s' => exact hdel _ _ e
  case install p =>
    split
    · next s' e =>
      obtain ⟨-, l, hl, hn, rfl⟩ := kAdd_some.1 e
      exact setTuns_ok hs (distinct_append (ok_tuns hs hl) hn)
    · exact hs
  case findITEI i => split <;> exact hs
  case findMS i => split <;> exact hs
  case remove q i =>
    split
    · next s' e => exact hdel _ _ e
    · exact hs
  case release i => exact hs
  case done b => exact hs

/-! ### one call at a time -/

/-- every call returns -/
theorem C69_returns (f : Nat → Bool) (s : Sys) (c : Call) : ∃ ok, (call f s c).2 = .done ok := by
  have hstep : ∀ fail s, (∀ p, ∃ ok, (step fail s (.install p)).2 = .done ok) ∧ (∀ i, ∃ ok, (step fail s (.release i)).2 = .done ok) := by
    intro fail s
    refine ⟨fun p => ?_, fun i => ⟨true, rfl⟩⟩
    simp only [step]
    split
    · exact ⟨true, rfl⟩
    · exact ⟨false, rfl⟩
  -- number of steps left
  let m : Pc → Nat := fun pc => match pc with
    | .lookMS _ => 5 | .dropMS _ _ => 4 | .lookITEI _ => 3 | .dropITEI _ _ => 2 | .install _ => 1
    | .findITEI _ => 3 | .findMS _ => 3 | .remove _ _ => 2 | .release _ => 1 | .done _ => 0
  have hm : ∀ fail s pc, m (step fail s pc).2 ≤ m pc - 1 := by
    intro fail s pc
    cases pc <;> simp only [step]
    all_goals first
      | (split <;> simp [m])
      | simp [m]
  have h0 : m (enter s c) ≤ 5 := by
    unfold enter
    split
    · cases c <;> simp [m]
    · simp [m]
  have hfin : m (call f s c).2 = 0 := by
    simp only [call, List.foldl_cons, List.foldl_nil]
    have a := hm (f 0) s (enter s c)
    have b := hm (f 1) (step (f 0) s (enter s c)).1 (step (f 0) s (enter s c)).2
    generalize step (f 0) s (enter s c) = x1 at *
    have d := hm (f 2) (step (f 1) x1.1 x1.2).1 (step (f 1) x1.1 x1.2).2
    generalize step (f 1) x1.1 x1.2 = x2 at *
    have e := hm (f 3) (step (f 2) x2.1 x2.2).1 (step (f 2) x2.1 x2.2).2
    generalize step (f 2) x2.1 x2.2 = x3 at *
    have g := hm (f 4) (step (f 3) x3.1 x3.2).1 (step (f 3) x3.1 x3.2).2
    generalize step (f 3) x3.1 x3.2 = x4 at *
    omega
  generalize (call f s c).2 = pc at hfin
  cases pc <;> simp [m] at hfin
  exact ⟨_, rfl⟩

/-- a call touches no other device, and neither the relay nor the setting of the connection -/
theorem C69_frame (f : Nat → Bool) (s : Sys) (c : Call) :
    (call f s c).1.link = s.link ∧ (call f s c).1.enabled = s.enabled ∧ (call f s c).1.relay = s.relay ∧
      ∀ d, (∀ b, s.link ≠ some (d, b)) → (call f s c).1.dev d = s.dev d := by
  refine call_inv (fun s' _ => s'.link = s.link ∧ s'.enabled = s.enabled ∧ s'.relay = s.relay ∧
    ∀ d, (∀ b, s.link ≠ some (d, b)) → s'.dev d = s.dev d) f s c ?_ ⟨rfl, rfl, rfl, fun _ _ => rfl⟩
  rintro i s' pc ⟨h1, h2, h3, h4⟩
  obtain ⟨g1, g2, g3, -, g5⟩ := step_frame (f i) s' pc
  refine ⟨g1.trans h1, g2.trans h2, g3.trans h3, fun d hd => ?_⟩
  rw [g5 d (by rw [h1]; exact hd), h4 d hd]

theorem step_done (fail : Bool) (s : Sys) (ok : Bool) : step fail s (.done ok) = (s, .done ok) := rfl

theorem foldl_done (f : Nat → Bool) (ok : Bool) (s : Sys) :
    ∀ is : List Nat, is.foldl (fun x i => step (f i) x.1 x.2) (s, Pc.done ok) = (s, .done ok)
  | [] => rfl
  | _ :: is => foldl_done f ok s is

/-- without EnableKernelGTP every call fails and changes nothing -/
theorem C69_not_enabled (f : Nat → Bool) (s : Sys) (c : Call) (h : s.enabled = false) : call f s c = (s, .done false) := by
  simp only [call, enter, h, Bool.false_eq_true, if_false]
  exact foldl_done f false s _

theorem call_cons (f : Nat → Bool) (s : Sys) (c : Call) : call f s c =
    [1, 2, 3, 4].foldl (fun x i => step (f i) x.1 x.2) (step (f 0) s (enter s c)) := rfl

theorem foldl_step (f : Nat → Bool) (s : Sys) (pc : Pc) (i : Nat) (is : List Nat) :
    (i :: is).foldl (fun x i => step (f i) x.1 x.2) (s, pc) = is.foldl (fun x i => step (f i) x.1 x.2) (step (f i) s pc) := rfl

theorem call_add_eq (f : Nat → Bool) (s : Sys) (p : PDP) (h : s.enabled = true) : call f s (.add p) =
    (match kAdd (f 0) s p with
    | some s' => (s', .done true)
    | none => (s, .done false)) := by
  have he : enter s (.add p) = .install p := by simp only [enter, h, if_true]
  rw [call_cons, he]
  cases e : kAdd (f 0) s p with
  | none =>
    have h1 : step (f 0) s (.install p) = (s, .done false) := by simp only [step, e]
    rw [h1, foldl_done]
  | some s' =>
    have h1 : step (f 0) s (.install p) = (s', .done true) := by simp only [step, e]
    rw [h1, foldl_done]

/-- AddTunnel succeeds when the kernel does and no tunnel has the subscriber address or the incoming TEID -/
theorem C69_add_iff (f : Nat → Bool) (s : Sys) (p : PDP) : (call f s (.add p)).2 = .done true ↔
    s.enabled = true ∧ f 0 = false ∧ ∃ l, s.tuns = some l ∧ ∀ q ∈ l, q.ms ≠ p.ms ∧ q.itei ≠ p.itei := by
  cases h : s.enabled with
  | false => rw [C69_not_enabled f s _ h]; simp
  | true =>
    rw [call_add_eq f s p h]
    cases e : kAdd (f 0) s p with
    | none =>
      simp only [Pc.done.injEq, Bool.false_eq_true, true_and, false_iff]
      rintro ⟨hf, l, hl, hn⟩
      have := kAdd_some.2 ⟨hf, l, hl, hn, rfl⟩
      rw [e] at this
      cases this
    | some s' =>
      obtain ⟨hf, l, hl, hn, -⟩ := kAdd_some.1 e
      simp only [true_and, true_iff]
      exact ⟨hf, l, hl, hn⟩

/-- then the tunnel is there beside all others and the TEIDs in use are the same -/
theorem C69_add (f : Nat → Bool) (s : Sys) (p : PDP) (l : List PDP) (hl : s.tuns = some l)
    (h : (call f s (.add p)).2 = .done true) :
    (call f s (.add p)).1.tuns = some (l ++ [p]) ∧ (call f s (.add p)).1.reserved = s.reserved := by
  have hen := ((C69_add_iff f s p).1 h).1
  rw [call_add_eq f s p hen] at h ⊢
  cases e : kAdd (f 0) s p with
  | none => rw [e] at h; simp at h
  | some s' =>
    obtain ⟨-, l', hl', -, rfl⟩ := kAdd_some.1 e
    rw [hl] at hl'
    cases hl'
    exact ⟨tuns_setTuns hl _, (setTuns_link _ _).2.2.2.1⟩

/-- an AddTunnel that fails changes nothing -/
theorem C69_add_fails (f : Nat → Bool) (s : Sys) (p : PDP) (h : (call f s (.add p)).2 ≠ .done true) :
    (call f s (.add p)).1 = s := by
  cases hen : s.enabled with
  | false => rw [C69_not_enabled f s _ hen]
  | true =>
    rw [call_add_eq f s p hen] at h ⊢
    cases e : kAdd (f 0) s p with
    | none => rfl
    | some s' => rw [e] at h; simp at h

/-- during AddTunnelOverride: only tunnels it is to replace are gone -/
def Mid (p : PDP) (l : List PDP) (s : Sys) : Prop := ∃ l', s.tuns = some l' ∧ Distinct l' ∧ (∀ q ∈ l', q ∈ l) ∧
  ∀ q ∈ l, q.ms ≠ p.ms → q.itei ≠ p.itei → q ∈ l'

def OverInv (p : PDP) (l : List PDP) (s : Sys) : Pc → Prop
  | .lookMS p' => p' = p ∧ Mid p l s
  | .lookITEI p' => p' = p ∧ Mid p l s
  | .install p' => p' = p ∧ Mid p l s
  | .dropMS p' q => p' = p ∧ Mid p l s ∧ (∃ l', s.tuns = some l' ∧ q ∈ l') ∧ q.ms = p.ms
  | .dropITEI p' q => p' = p ∧ Mid p l s ∧ (∃ l', s.tuns = some l' ∧ q ∈ l') ∧ q.itei = p.itei
  | .done true => ∃ l', s.tuns = some l' ∧ ∀ q, q ∈ l' ↔ q = p ∨ (q ∈ l ∧ q.ms ≠ p.ms ∧ q.itei ≠ p.itei)
  | .done false => Mid p l s
  | _ => False

theorem mid_del {p q : PDP} {l : List PDP} {s : Sys} (fail : Bool) (h : Mid p l s) (hq : ∃ l', s.tuns = some l' ∧ q ∈ l')
    (hk : q.ms = p.ms ∨ q.itei = p.itei) : Mid p l ((kDel fail s q).getD s) := by
  cases e : kDel fail s q with
  | none => exact h
  | some s' =>
    obtain ⟨-, l1, hl1, -, rfl⟩ := kDel_some.1 e
    obtain ⟨l', hl', hd, hsub, hkeep⟩ := h
    obtain ⟨l'', hl'', hql⟩ := hq
    rw [hl1] at hl' hl''
    cases hl'; cases hl''
    refine ⟨_, tuns_setTuns hl1 _, distinct_filter hd _, fun x hx => hsub x (List.mem_filter.1 hx).1, ?_⟩
    intro x hx hms hit
    refine List.mem_filter.2 ⟨hkeep x hx hms hit, ?_⟩
    simp only [ne_eq, decide_not, Bool.not_eq_eq_eq_not, Bool.not_true, decide_eq_false_iff_not]
    intro hxi
    have := hd x (hkeep x hx hms hit) q hql (Or.inr hxi)
    subst this
    rcases hk with hk | hk
    · exact hms hk
    · exact hit hk

theorem overInv_step (p : PDP) (l : List PDP) (fail : Bool) (s : Sys) (pc : Pc) (h : OverInv p l s pc) :
    OverInv p l (step fail s pc).1 (step fail s pc).2 := by
  cases pc <;> simp only [step]
  case lookMS p' =>
    obtain ⟨rfl, hm⟩ := h
    split
    · next q e =>
      obtain ⟨-, l', hl', hq, hms⟩ := kByMS_some e
      exact ⟨rfl, hm, ⟨l', hl', hq⟩, hms⟩
    · exact ⟨rfl, hm⟩
  case dropMS p' q =>
    obtain ⟨rfl, hm, hq, hms⟩ := h
    exact ⟨rfl, mid_del fail hm hq (Or.inl hms)⟩
  case lookITEI p' =>
    obtain ⟨rfl, hm⟩ := h
    split
    · next q e =>
      obtain ⟨-, l', hl', hq, hms⟩ := kByITEI_some e
      exact ⟨rfl, hm, ⟨l', hl', hq⟩, hms⟩
    · exact ⟨rfl, hm⟩
  case dropITEI p' q =>
    obtain ⟨rfl, hm, hq, hms⟩ := h
    exact ⟨rfl, mid_del fail hm hq (Or.inr hms)⟩
  case install p' =>
    obtain ⟨rfl, hm⟩ := h
    split
    · next s' e =>
      obtain ⟨-, l1, hl1, hn, rfl⟩ := kAdd_some.1 e
      obtain ⟨l', hl', hd, hsub, hkeep⟩ := hm
      rw [hl1] at hl'
      cases hl'
      refine ⟨_, tuns_setTuns hl1 _, fun q => ?_⟩
      simp only [List.mem_append, List.mem_singleton]
      constructor
      · rintro (hq | hq)
        · exact Or.inr ⟨hsub q hq, hn q hq⟩
        · exact Or.inl hq
      · rintro (hq | ⟨hq, h1, h2⟩)
        · exact Or.inr hq
        · exact Or.inl (hkeep q hq h1 h2)
    · exact hm
  case done b => exact h
  all_goals exact h.elim

theorem override_inv (f : Nat → Bool) (s : Sys) (p : PDP) (l : List PDP) (hs : s.Ok) (hl : s.tuns = some l)
    (hen : s.enabled = true) : OverInv p l (call f s (.override p)).1 (call f s (.override p)).2 := by
  refine call_inv (OverInv p l) f s _ (fun i s pc h => overInv_step p l (f i) s pc h) ?_
  simp only [enter, hen, if_true]
  exact ⟨rfl, l, hl, ok_tuns hs hl, fun _ h => h, fun _ h _ _ => h⟩

theorem tuns_none_step (fail : Bool) (s : Sys) (pc : Pc) (h : s.tuns = none) (h1 : pc ≠ .done true)
    (h2 : ∀ i, pc ≠ .release i) : (step fail s pc).1.tuns = none ∧ (step fail s pc).2 ≠ .done true ∧
      ∀ i, (step fail s pc).2 ≠ .release i := by
  have a : ∀ p, kAdd fail s p = none := by intro p; simp [kAdd, h]
  have d : ∀ p, kDel fail s p = none := by intro p; simp [kDel, h]
  have b : ∀ p, kByMS fail s p = none := by intro p; simp [kByMS, h]
  have c : ∀ p, kByITEI fail s p = none := by intro p; simp [kByITEI, h]
  cases pc <;> simp [step, a, b, c, d, h]
  case release i => exact h2 i rfl
  case done ok => cases ok <;> simp_all

/-- without a device no call succeeds -/
theorem C69_no_device (f : Nat → Bool) (s : Sys) (c : Call) (h : s.tuns = none) : (call f s c).2 = .done false := by
  have hi := call_inv (fun s pc => s.tuns = none ∧ pc ≠ .done true ∧ ∀ i, pc ≠ .release i) f s c
    (fun i s pc h => tuns_none_step (f i) s pc h.1 h.2.1 h.2.2) (by
      refine ⟨h, ?_⟩
      unfold enter
      split
      · cases c <;> simp
      · simp)
  obtain ⟨ok, hok⟩ := C69_returns f s c
  cases ok with
  | false => exact hok
  | true => exact absurd hok hi.2.1

/-- when AddTunnelOverride succeeds the new tunnel is there, those with its subscriber address or incoming TEID are gone, all
others are still there -/
theorem C69_override (f : Nat → Bool) (s : Sys) (p : PDP) (hs : s.Ok) (h : (call f s (.override p)).2 = .done true) :
    ∃ l l', s.tuns = some l ∧ (call f s (.override p)).1.tuns = some l' ∧
      ∀ q, q ∈ l' ↔ q = p ∨ (q ∈ l ∧ q.ms ≠ p.ms ∧ q.itei ≠ p.itei) := by
  cases hen : s.enabled with
  | false => rw [C69_not_enabled f s _ hen] at h; simp at h
  | true =>
    cases hl : s.tuns with
    | none => rw [C69_no_device f s _ hl] at h; simp at h
    | some l =>
      have := override_inv f s p l hs hl hen
      rw [h] at this
      obtain ⟨l', h1, h2⟩ := this
      exact ⟨l, l', rfl, h1, h2⟩

/-- when it fails, only tunnels with that address or TEID may be missing and none is new -/
theorem C69_override_fails (f : Nat → Bool) (s : Sys) (p : PDP) (l : List PDP) (hs : s.Ok) (hl : s.tuns = some l)
    (h : (call f s (.override p)).2 = .done false) :
    ∃ l', (call f s (.override p)).1.tuns = some l' ∧ (∀ q ∈ l', q ∈ l) ∧
      ∀ q ∈ l, q.ms ≠ p.ms → q.itei ≠ p.itei → q ∈ l' := by
  cases hen : s.enabled with
  | false =>
    rw [C69_not_enabled f s _ hen]
    exact ⟨l, hl, fun _ h => h, fun _ h _ _ => h⟩
  | true =>
    have := override_inv f s p l hs hl hen
    rw [h] at this
    obtain ⟨l', h1, -, h2, h3⟩ := this
    exact ⟨l', h1, h2, h3⟩

def OverInv2 (p : PDP) (s : Sys) : Pc → Prop
  | .lookMS p' => p' = p ∧ ∃ l, s.tuns = some l
  | .dropMS p' q => p' = p ∧ ∃ l, s.tuns = some l ∧ q ∈ l ∧ q.ms = p.ms
  | .lookITEI p' => p' = p ∧ ∃ l, s.tuns = some l ∧ ∀ q ∈ l, q.ms ≠ p.ms
  | .dropITEI p' q => p' = p ∧ ∃ l, s.tuns = some l ∧ (∀ q ∈ l, q.ms ≠ p.ms) ∧ q ∈ l ∧ q.itei = p.itei
  | .install p' => p' = p ∧ ∃ l, s.tuns = some l ∧ ∀ q ∈ l, q.ms ≠ p.ms ∧ q.itei ≠ p.itei
  | .done ok => ok = true
  | _ => False

theorem overInv2_step (p : PDP) (s : Sys) (pc : Pc) (hs : s.Ok) (h : OverInv2 p s pc) :
    OverInv2 p (step false s pc).1 (step false s pc).2 := by
  cases pc <;> simp only [step]
  case lookMS p' =>
    obtain ⟨rfl, l, hl⟩ := h
    split
    · next q e =>
      obtain ⟨-, l', hl', hq, hms⟩ := kByMS_some e
      exact ⟨rfl, l', hl', hq, hms⟩
    · next e => exact ⟨rfl, l, hl, kByMS_none hl e⟩
  case dropMS p' q =>
    obtain ⟨rfl, l, hl, hq, hms⟩ := h
    rw [kDel_some.2 ⟨rfl, l, hl, ⟨q, hq, rfl⟩, rfl⟩]
    refine ⟨rfl, _, tuns_setTuns hl _, ?_⟩
    intro x hx hxm
    obtain ⟨hx, hne⟩ := List.mem_filter.1 hx
    have := ok_tuns hs hl x hx q hq (Or.inl (hxm.trans hms.symm))
    subst this
    simp at hne
  case lookITEI p' =>
    obtain ⟨rfl, l, hl, hm⟩ := h
    split
    · next q e =>
      obtain ⟨-, l', hl', hq, hms⟩ := kByITEI_some e
      rw [hl] at hl'
      cases hl'
      exact ⟨rfl, l, hl, hm, hq, hms⟩
    · next e => exact ⟨rfl, l, hl, fun q hq => ⟨hm q hq, kByITEI_none hl e q hq⟩⟩
  case dropITEI p' q =>
    obtain ⟨rfl, l, hl, hm, hq, hms⟩ := h
    rw [kDel_some.2 ⟨rfl, l, hl, ⟨q, hq, rfl⟩, rfl⟩]
    refine ⟨rfl, _, tuns_setTuns hl _, ?_⟩
    intro x hx
    obtain ⟨hx, hne⟩ := List.mem_filter.1 hx
    refine ⟨hm x hx, ?_⟩
    rw [← hms]
    simpa using hne
  case install p' =>
    obtain ⟨rfl, l, hl, hn⟩ := h
    rw [kAdd_some.2 ⟨rfl, l, hl, hn, rfl⟩]
    rfl
  case done b => exact h
  all_goals exact h.elim

/-- when no kernel call fails AddTunnelOverride succeeds, whatever tunnels there are -/
theorem C69_override_succeeds (f : Nat → Bool) (hf : ∀ i, f i = false) (s : Sys) (p : PDP) (l : List PDP) (hs : s.Ok)
    (hl : s.tuns = some l) (hen : s.enabled = true) : (call f s (.override p)).2 = .done true := by
  have := call_inv (fun s pc => s.Ok ∧ OverInv2 p s pc) f s (.override p)
    (fun i s pc h => ⟨step_ok _ _ _ h.1, by rw [hf i]; exact overInv2_step p s pc h.1 h.2⟩) (by
      simp only [enter, hen, if_true]
      exact ⟨hs, rfl, l, hl⟩)
  obtain ⟨ok, hok⟩ := C69_returns f s (.override p)
  rw [hok] at this ⊢
  have h2 : ok = true := this.2
  rw [h2]

theorem call_delITEI_eq (f : Nat → Bool) (s : Sys) (i : Nat) (h : s.enabled = true) : call f s (.delITEI i) =
    (match kByITEI (f 0) s i with
    | none => (s, .done false)
    | some q =>
      match kDel (f 1) s q with
      | none => (s, .done false)
      | some s' => ({ s' with reserved := s'.reserved.filter (· ≠ i) }, .done true)) := by
  have he : enter s (.delITEI i) = .findITEI i := by simp only [enter, h, if_true]
  rw [call_cons, he]
  cases e : kByITEI (f 0) s i with
  | none =>
    have h1 : step (f 0) s (.findITEI i) = (s, .done false) := by simp only [step, e]
    rw [h1, foldl_done]
  | some q =>
    have h1 : step (f 0) s (.findITEI i) = (s, .remove q i) := by simp only [step, e]
    rw [h1, foldl_step]
    cases e2 : kDel (f 1) s q with
    | none =>
      have h2 : step (f 1) s (.remove q i) = (s, .done false) := by simp only [step, e2]
      rw [h2, foldl_done]
      simp only [e2]
    | some s' =>
      have h2 : step (f 1) s (.remove q i) = (s', .release i) := by simp only [step, e2]
      rw [h2, foldl_step]
      have h3 : step (f 2) s' (.release i) = ({ s' with reserved := s'.reserved.filter (· ≠ i) }, .done true) := rfl
      rw [h3, foldl_done]
      simp only [e2]

theorem call_delMS_eq (f : Nat → Bool) (s : Sys) (a : Bytes) (h : s.enabled = true) : call f s (.delMS a) =
    (match kByMS (f 0) s a with
    | none => (s, .done false)
    | some q =>
      match kDel (f 1) s q with
      | none => (s, .done false)
      | some s' => ({ s' with reserved := s'.reserved.filter (· ≠ q.itei) }, .done true)) := by
  have he : enter s (.delMS a) = .findMS a := by simp only [enter, h, if_true]
  rw [call_cons, he]
  cases e : kByMS (f 0) s a with
  | none =>
    have h1 : step (f 0) s (.findMS a) = (s, .done false) := by simp only [step, e]
    rw [h1, foldl_done]
  | some q =>
    have h1 : step (f 0) s (.findMS a) = (s, .remove q q.itei) := by simp only [step, e]
    rw [h1, foldl_step]
    cases e2 : kDel (f 1) s q with
    | none =>
      have h2 : step (f 1) s (.remove q q.itei) = (s, .done false) := by simp only [step, e2]
      rw [h2, foldl_done]
      simp only [e2]
    | some s' =>
      have h2 : step (f 1) s (.remove q q.itei) = (s', .release q.itei) := by simp only [step, e2]
      rw [h2, foldl_step]
      have h3 : step (f 2) s' (.release q.itei) = ({ s' with reserved := s'.reserved.filter (· ≠ q.itei) }, .done true) := rfl
      rw [h3, foldl_done]
      simp only [e2]

/-- DelTunnelByITEI succeeds when there is a tunnel with the TEID and no kernel call fails -/
theorem C69_del_itei_iff (f : Nat → Bool) (s : Sys) (i : Nat) : (call f s (.delITEI i)).2 = .done true ↔
    s.enabled = true ∧ f 0 = false ∧ f 1 = false ∧ ∃ l, s.tuns = some l ∧ ∃ q ∈ l, q.itei = i := by
  cases h : s.enabled with
  | false => rw [C69_not_enabled f s _ h]; simp
  | true =>
    rw [call_delITEI_eq f s i h]
    simp only [true_and]
    cases e : kByITEI (f 0) s i with
    | none =>
      simp only [Pc.done.injEq, Bool.false_eq_true, false_iff]
      rintro ⟨h0, -, l, hl, q, hq, hqi⟩
      rw [h0] at e
      exact kByITEI_none hl e q hq hqi
    | some q =>
      obtain ⟨h0, l, hl, hq, hqi⟩ := kByITEI_some e
      cases e2 : kDel (f 1) s q with
      | none =>
        simp only [e2, Pc.done.injEq, Bool.false_eq_true, false_iff]
        rintro ⟨-, h1, l1, hl1, -⟩
        have := kDel_some.2 ⟨h1, l, hl, ⟨q, hq, rfl⟩, rfl⟩
        rw [e2] at this
        cases this
      | some s' =>
        obtain ⟨h1, -⟩ := kDel_some.1 e2
        simp only [e2, true_iff]
        exact ⟨h0, h1, l, hl, q, hq, hqi⟩

/-- then that tunnel is gone, all others are there, and the TEID may be given out again -/
theorem C69_del_itei (f : Nat → Bool) (s : Sys) (i : Nat) (l : List PDP) (hl : s.tuns = some l)
    (h : (call f s (.delITEI i)).2 = .done true) :
    (call f s (.delITEI i)).1.tuns = some (l.filter (fun q => q.itei ≠ i)) ∧
      ∀ t, t ∈ (call f s (.delITEI i)).1.reserved ↔ t ∈ s.reserved ∧ t ≠ i := by
  obtain ⟨hen, h0, h1, l', hl', hq⟩ := (C69_del_itei_iff f s i).1 h
  rw [hl] at hl'
  cases hl'
  rw [call_delITEI_eq f s i hen]
  rw [h0, h1]
  cases e : kByITEI false s i with
  | none =>
    obtain ⟨q, hq, hqi⟩ := hq
    exact absurd hqi (kByITEI_none hl e q hq)
  | some q =>
    obtain ⟨-, l', hl', hq, hqi⟩ := kByITEI_some e
    rw [hl] at hl'
    cases hl'
    simp only [kDel_some.2 ⟨rfl, l, hl, ⟨q, hq, rfl⟩, rfl⟩]
    subst hqi
    have ht := tuns_setTuns hl (l.filter fun x => x.itei ≠ q.itei)
    refine ⟨?_, fun t => ?_⟩
    · simpa [Sys.tuns] using ht
    · simp [(setTuns_link s _).2.2.2.1]

/-- DelTunnelByMSAddress succeeds when there is a tunnel with the address and no kernel call fails -/
theorem C69_del_ms_iff (f : Nat → Bool) (s : Sys) (a : Bytes) : (call f s (.delMS a)).2 = .done true ↔
    s.enabled = true ∧ f 0 = false ∧ f 1 = false ∧ ∃ l, s.tuns = some l ∧ ∃ q ∈ l, q.ms = a := by
  cases h : s.enabled with
  | false => rw [C69_not_enabled f s _ h]; simp
  | true =>
    rw [call_delMS_eq f s a h]
    simp only [true_and]
    cases e : kByMS (f 0) s a with
    | none =>
      simp only [Pc.done.injEq, Bool.false_eq_true, false_iff]
      rintro ⟨h0, -, l, hl, q, hq, hqi⟩
      rw [h0] at e
      exact kByMS_none hl e q hq hqi
    | some q =>
      obtain ⟨h0, l, hl, hq, hqi⟩ := kByMS_some e
      cases e2 : kDel (f 1) s q with
      | none =>
        simp only [e2, Pc.done.injEq, Bool.false_eq_true, false_iff]
        rintro ⟨-, h1, l1, hl1, -⟩
        have := kDel_some.2 ⟨h1, l, hl, ⟨q, hq, rfl⟩, rfl⟩
        rw [e2] at this
        cases this
      | some s' =>
        obtain ⟨h1, -⟩ := kDel_some.1 e2
        simp only [e2, true_iff]
        exact ⟨h0, h1, l, hl, q, hq, hqi⟩

/-- then that tunnel is gone, all others are there, and its incoming TEID may be given out again -/
theorem C69_del_ms (f : Nat → Bool) (s : Sys) (a : Bytes) (l : List PDP) (hs : s.Ok) (hl : s.tuns = some l)
    (h : (call f s (.delMS a)).2 = .done true) :
    (call f s (.delMS a)).1.tuns = some (l.filter (fun q => q.ms ≠ a)) ∧
      ∃ q ∈ l, q.ms = a ∧ ∀ t, t ∈ (call f s (.delMS a)).1.reserved ↔ t ∈ s.reserved ∧ t ≠ q.itei := by
  obtain ⟨hen, h0, h1, l', hl', hq⟩ := (C69_del_ms_iff f s a).1 h
  rw [hl] at hl'
  cases hl'
  rw [call_delMS_eq f s a hen]
  rw [h0, h1]
  cases e : kByMS false s a with
  | none =>
    obtain ⟨q, hq, hqi⟩ := hq
    exact absurd hqi (kByMS_none hl e q hq)
  | some q =>
    clear hq
    obtain ⟨-, l', hl', hq, hqi⟩ := kByMS_some e
    rw [hl] at hl'
    cases hl'
    simp only [kDel_some.2 ⟨rfl, l, hl, ⟨q, hq, rfl⟩, rfl⟩]
    subst hqi
    have ht := tuns_setTuns hl (l.filter fun x => x.itei ≠ q.itei)
    have he : l.filter (fun x => x.itei ≠ q.itei) = l.filter (fun x => x.ms ≠ q.ms) := by
      refine List.filter_congr fun x hx => ?_
      have hd := ok_tuns hs hl x hx q hq
      by_cases c : x = q
      · subst c; simp
      · have c1 : x.itei ≠ q.itei := fun h => c (hd (Or.inr h))
        have c2 : x.ms ≠ q.ms := fun h => c (hd (Or.inl h))
        simp [c1, c2]
    refine ⟨?_, q, hq, rfl, fun t => ?_⟩
    · rw [he] at ht
      simp only [he]
      simpa [Sys.tuns] using ht
    · simp [(setTuns_link s _).2.2.2.1]

/-- a deletion that fails changes nothing -/
theorem C69_del_fails (f : Nat → Bool) (s : Sys) (c : Call) (hc : (∃ i, c = .delITEI i) ∨ ∃ a, c = .delMS a)
    (h : (call f s c).2 = .done false) : (call f s c).1 = s := by
  cases hen : s.enabled with
  | false => rw [C69_not_enabled f s _ hen]
  | true =>
    rcases hc with ⟨i, rfl⟩ | ⟨a, rfl⟩
    · rw [call_delITEI_eq f s i hen] at h ⊢
      cases e : kByITEI (f 0) s i with
      | none => rfl
      | some q =>
        simp only [e] at h ⊢
        cases e2 : kDel (f 1) s q with
        | none => rfl
        | some s' => simp [e2] at h
    · rw [call_delMS_eq f s a hen] at h ⊢
      cases e : kByMS (f 0) s a with
      | none => rfl
      | some q =>
        simp only [e] at h ⊢
        cases e2 : kDel (f 1) s q with
        | none => rfl
        | some s' => simp [e2] at h

/-! ### the connection -/

/-- EnableKernelGTP that succeeds: a new device without tunnels, no relay; all other devices are as before -/
theorem C69_enable (f : EnableFaults) (s : Sys) (d : String) (h : (enable f s d).2 = true) :
    s.dev d = none ∧ (enable f s d).1.enabled = true ∧ (enable f s d).1.tuns = some [] ∧ (enable f s d).1.relay = [] ∧
      (enable f s d).1.reserved = s.reserved ∧ ∀ x, x ≠ d → (enable f s d).1.dev x = s.dev x := by
  unfold enable at h ⊢
  by_cases c1 : s.sock = false ∧ f.sock = true
  · rw [if_pos c1] at h; simp at h
  · rw [if_neg c1] at h ⊢
    simp only at h ⊢
    by_cases c2 : f.file = true
    · rw [if_pos c2] at h; simp at h
    · rw [if_neg c2] at h ⊢
      by_cases c3 : f.add = true ∨ (s.dev d).isSome = true
      · rw [if_pos c3] at h; simp at h
      · rw [if_neg c3] at h ⊢
        by_cases c4 : f.setUp = true
        · rw [if_pos c4] at h; simp at h
        · rw [if_neg c4] at h ⊢
          by_cases c5 : f.setMTU = true
          · rw [if_pos c5] at h; simp at h
          · rw [if_neg c5]
            have : s.dev d = none := by
              cases e : s.dev d with
              | none => rfl
              | some l => simp [e] at c3
            refine ⟨this, rfl, by simp [Sys.tuns], rfl, rfl, fun x hx => by simp [hx]⟩

/-- a call of EnableKernelGTP that fails leaves the mode, the relays and all other devices as they were -/
theorem C69_enable_fails (f : EnableFaults) (s : Sys) (d : String) (h : (enable f s d).2 = false) :
    (enable f s d).1.enabled = s.enabled ∧ (enable f s d).1.relay = s.relay ∧
    (∀ x, x ≠ d → (enable f s d).1.dev x = s.dev x) ∧ (∀ l, s.dev d = some l → (enable f s d).1.dev d = some l) := by
  unfold enable at h ⊢
  by_cases h1 : s.sock = false ∧ f.sock
  · simp [h1]
  simp only [h1, if_false] at h ⊢
  by_cases h2 : f.file
  · simp [h2]
  simp only [h2] at h ⊢
  by_cases h3 : f.add ∨ (s.dev d).isSome
  · simp [h3]
  have h4 : s.dev d = none := by
    cases e : s.dev d with
    | none => rfl
    | some l => simp [e] at h3
  simp only [h3] at h ⊢
  cases h5 : f.setUp <;> cases h6 : f.setMTU <;> simp [h5, h6, h4] at h ⊢ <;> intro x hx <;> simp [hx]

/-- it succeeds when nothing fails and the name is free -/
theorem C69_enable_succeeds (s : Sys) (d : String) (h : s.dev d = none) : (enable .zero s d).2 = true := by
  simp [enable, EnableFaults.zero, h]

/-- with kernel tunnels RelayTo and CloseRelay fail and change nothing -/
theorem C69_relay_refused (s : Sys) (t : Nat) (h : s.enabled = true) : relayTo s t = (s, false) ∧ closeRelay s t = (s, false) := by
  simp [relayTo, closeRelay, h]

/-- without, they succeed -/
theorem C69_relay_accepted (s : Sys) (t : Nat) (h : s.enabled = false) :
    (relayTo s t).2 = true ∧ (∀ x, x ∈ (relayTo s t).1.relay ↔ x = t ∨ x ∈ s.relay) ∧
    (closeRelay s t).2 = true ∧ (∀ x, x ∈ (closeRelay s t).1.relay ↔ x ∈ s.relay ∧ x ≠ t) ∧
    (∀ x, x ∈ (closeRelay s t).1.reserved ↔ x ∈ s.reserved ∧ x ≠ t) := by
  simp only [relayTo, closeRelay, h, Bool.false_eq_true, if_false, true_and]
  refine ⟨fun x => ?_, fun x => by simp, fun x => by simp⟩
  by_cases c : x = t <;> simp [c]

/-- when the connection ends its device is deleted with all tunnels, no other is -/
theorem C69_shutdown (s : Sys) (d : String) (b : Bool) (hen : s.enabled = true) (hl : s.link = some (d, b)) (x : String) :
    (shutdown false s).dev x = if x = d then none else s.dev x := by
  simp [shutdown, hen, hl]

/-- without kernel tunnels no device is touched -/
theorem C69_shutdown_off (fail : Bool) (s : Sys) (hen : s.enabled = false) : shutdown fail s = s := by
  simp [shutdown, hen]

/-! ### any number of calls at a time -/

/-- in no execution do two tunnels of a device share an address or an incoming TEID -/
theorem C69_distinct (m : Machine) (hm : m.sys.Ok) (es : List Event) : (m.run es).sys.Ok := by
  induction es generalizing m with
  | nil => exact hm
  | cons e es ih =>
    refine ih (m.step e) ?_
    cases e with
    | start i c =>
      simp only [Machine.step]
      split <;> exact hm
    | go i fail => exact step_ok fail m.sys (m.pcs i) hm

/-- the tunnels a call may install -/
def Call.gives (c : Call) (p : PDP) : Prop := c = .add p ∨ c = .override p

def Pc.gives : Pc → PDP → Prop
  | .lookMS p, x => x = p
  | .dropMS p _, x => x = p
  | .lookITEI p, x => x = p
  | .dropITEI p _, x => x = p
  | .install p, x => x = p
  | _, _ => False

theorem enter_gives (s : Sys) (c : Call) (x : PDP) (h : (enter s c).gives x) : c.gives x := by
  unfold enter at h
  split at h
  · cases c <;> simp_all [Pc.gives, Call.gives]
  · exact h.elim

theorem step_gives (fail : Bool) (s : Sys) (pc : Pc) (x : PDP) (h : (step fail s pc).2.gives x) : pc.gives x := by
  cases pc <;> simp only [step] at h
  case lookMS p => split at h <;> exact h
  case dropMS p q => exact h
  case lookITEI p => split at h <;> exact h
  case dropITEI p q => exact h
  case install p => split at h <;> exact h.elim
  case findITEI i => split at h <;> exact h.elim
  case findMS a => split at h <;> exact h.elim
  case remove q i => split at h <;> exact h.elim
  case release i => exact h.elim
  case done b => exact h.elim

/-- what a step does to the tunnels of a device: none appears but the one being installed, none goes but those with the TEID
of a tunnel found before -/
theorem step_dev (fail : Bool) (s : Sys) (pc : Pc) (d : String) :
    (∀ l', (step fail s pc).1.dev d = some l' → ∃ l, s.dev d = some l ∧ ∀ x ∈ l', x ∈ l ∨ pc.gives x) ∧
    (∀ l, s.dev d = some l → ∃ l', (step fail s pc).1.dev d = some l' ∧
      ∀ x ∈ l, x ∉ l' → ∃ q, x.itei = q.itei ∧ ((∃ p, pc = .dropMS p q) ∨ (∃ p, pc = .dropITEI p q) ∨ ∃ i, pc = .remove q i)) := by
  have same : ∀ pc' : Pc, (∀ l', s.dev d = some l' → ∃ l, s.dev d = some l ∧ ∀ x ∈ l', x ∈ l ∨ pc'.gives x) := by
    intro pc' l' h
    exact ⟨l', h, fun x hx => Or.inl hx⟩
  have same2 : ∀ P : PDP → Prop, (∀ l, s.dev d = some l → ∃ l', s.dev d = some l' ∧ ∀ x ∈ l, x ∉ l' → P x) := by
    intro P l h
    exact ⟨l, h, fun x hx hn => absurd hx hn⟩
  have hdel : ∀ q s' pc', kDel fail s q = some s' →
      (∀ l', s'.dev d = some l' → ∃ l, s.dev d = some l ∧ ∀ x ∈ l', x ∈ l ∨ Pc.gives pc' x) ∧
      (∀ l, s.dev d = some l → ∃ l', s'.dev d = some l' ∧ ∀ x ∈ l, x ∉ l' → x.itei = q.itei) := by
    intro q s' pc' e
    obtain ⟨-, l, hl, -, rfl⟩ := kDel_some.1 e
    obtain ⟨d', hd', hdl⟩ := tuns_dev hl
    simp only [Sys.setTuns, hd']
    by_cases c : d = d'
    · subst c
      simp only [if_true]
      refine ⟨?_, ?_⟩
      · rintro l' h
        cases h
        exact ⟨l, hdl, fun x hx => Or.inl (List.mem_filter.1 hx).1⟩
      · intro l1 h1
        rw [hdl] at h1
        cases h1
        refine ⟨_, rfl, fun x hx hn => ?_⟩
        refine Classical.byContradiction fun hne => ?_
        exact hn (List.mem_filter.2 ⟨hx, by simpa using hne⟩)
    · simp only [c, if_false]
      exact ⟨same pc', same2 _⟩
  cases pc <;> simp only [step]
  case lookMS p => split <;> exact ⟨same _, same2 _⟩
  case dropMS p q =>
    cases e : kDel fail s q with
    | none => exact ⟨same _, same2 _⟩
    | some s' =>
      obtain ⟨h1, h2⟩ := hdel q s' (.dropMS p q) e
      refine ⟨h1, fun l hl => ?_⟩
      obtain ⟨l', hl', h3⟩ := h2 l hl
      exact ⟨l', hl', fun x hx hn => ⟨q, h3 x hx hn, Or.inl ⟨p, rfl⟩⟩⟩
  case lookITEI p => split <;> exact ⟨same _, same2 _⟩
  case dropITEI p q =>
    cases e : kDel fail s q with
    | none => exact ⟨same _, same2 _⟩
    | some s' =>
      obtain ⟨h1, h2⟩ := hdel q s' (.dropITEI p q) e
      refine ⟨h1, fun l hl => ?_⟩
      obtain ⟨l', hl', h3⟩ := h2 l hl
      exact ⟨l', hl', fun x hx hn => ⟨q, h3 x hx hn, Or.inr (Or.inl ⟨p, rfl⟩)⟩⟩
  case install p =>
    split
    · next s' e =>
      obtain ⟨-, l, hl, -, rfl⟩ := kAdd_some.1 e
      obtain ⟨d', hd', hdl⟩ := tuns_dev hl
      simp only [Sys.setTuns, hd']
      by_cases c : d = d'
      · subst c
        simp only [if_true]
        refine ⟨?_, ?_⟩
        · rintro l' h
          cases h
          refine ⟨l, hdl, fun x hx => ?_⟩
          simpa [Pc.gives] using hx
        · intro l1 h1
          rw [hdl] at h1
          cases h1
          exact ⟨_, rfl, fun x hx hn => absurd (List.mem_append_left _ hx) hn⟩
      · simp only [c, if_false]
        exact ⟨same _, same2 _⟩
    · exact ⟨same _, same2 _⟩
  case findITEI i => split <;> exact ⟨same _, same2 _⟩
  case findMS a => split <;> exact ⟨same _, same2 _⟩
  case remove q i =>
    split
    · next s' e =>
      obtain ⟨h1, h2⟩ := hdel q s' (.remove q i) e
      refine ⟨h1, fun l hl => ?_⟩
      obtain ⟨l', hl', h3⟩ := h2 l hl
      exact ⟨l', hl', fun x hx hn => ⟨q, h3 x hx hn, Or.inr (Or.inr ⟨i, rfl⟩)⟩⟩
    · exact ⟨same _, same2 _⟩
  case release i => exact ⟨same _, same2 _⟩
  case done b => exact ⟨same _, same2 _⟩

/-- every tunnel was there before or was given to AddTunnel or AddTunnelOverride -/
theorem C69_origin (m : Machine) (hq : ∀ i, ∃ ok, m.pcs i = .done ok) (es : List Event) (d : String) (l' : List PDP)
    (h : (m.run es).sys.dev d = some l') : ∀ p ∈ l', (∃ l, m.sys.dev d = some l ∧ p ∈ l) ∨
      ∃ i c, Event.start i c ∈ es ∧ c.gives p := by
  suffices H : ∀ (es : List Event) (m' : Machine) (G : PDP → Prop),
      (∀ l, m'.sys.dev d = some l → ∀ p ∈ l, G p) → (∀ i p, (m'.pcs i).gives p → G p) →
      (∀ i c p, Event.start i c ∈ es → c.gives p → G p) → ∀ l, (m'.run es).sys.dev d = some l → ∀ p ∈ l, G p by
    refine H es m (fun p => (∃ l, m.sys.dev d = some l ∧ p ∈ l) ∨ ∃ i c, Event.start i c ∈ es ∧ c.gives p) ?_ ?_ ?_ l' h
    · intro l hl p hp; exact Or.inl ⟨l, hl, hp⟩
    · intro i p hp
      obtain ⟨ok, e⟩ := hq i
      rw [e] at hp
      exact hp.elim
    · intro i c p he hc; exact Or.inr ⟨i, c, he, hc⟩
  clear h hq m es l'
  intro es
  induction es with
  | nil => intro m' G h1 _ _ l hl; exact h1 l hl
  | cons e es ih =>
    intro m' G h1 h2 h3 l hl
    refine ih (m'.step e) G ?_ ?_ ?_ l hl
    · cases e with
      | start i c =>
        simp only [Machine.step]
        split <;> exact h1
      | go i fail =>
        intro l hl p hp
        obtain ⟨l0, hl0, h0⟩ := (step_dev fail m'.sys (m'.pcs i) d).1 l hl
        rcases h0 p hp with h0 | h0
        · exact h1 l0 hl0 p h0
        · exact h2 i p h0
    · cases e with
      | start i c =>
        intro j p hp
        simp only [Machine.step] at hp
        split at hp
        · simp only at hp
          split at hp
          · exact h3 i c p List.mem_cons_self (enter_gives _ _ _ hp)
          · exact h2 j p hp
        · exact h2 j p hp
      | go i fail =>
        intro j p hp
        simp only [Machine.step] at hp
        split at hp
        · exact h2 i p (step_gives _ _ _ _ hp)
        · exact h2 j p hp
    · intro i c p he
      exact h3 i c p (List.mem_cons_of_mem _ he)

/-- the calls that name a tunnel by its subscriber address or its incoming TEID -/
def Call.names (c : Call) (x : PDP) : Prop :=
  match c with
  | .add _ => False
  | .override p => p.ms = x.ms ∨ p.itei = x.itei
  | .delITEI i => i = x.itei
  | .delMS a => a = x.ms

/-- a call on its way that will not delete x -/
def Pc.spares (x : PDP) : Pc → Prop
  | .lookMS p => p.ms ≠ x.ms ∧ p.itei ≠ x.itei
  | .dropMS p q => (p.ms ≠ x.ms ∧ p.itei ≠ x.itei) ∧ q.itei ≠ x.itei
  | .lookITEI p => p.ms ≠ x.ms ∧ p.itei ≠ x.itei
  | .dropITEI _ q => q.itei ≠ x.itei
  | .findITEI i => i ≠ x.itei
  | .findMS a => a ≠ x.ms
  | .remove q _ => q.itei ≠ x.itei
  | _ => True

theorem enter_spares (s : Sys) (c : Call) (x : PDP) (h : ¬ c.names x) : (enter s c).spares x := by
  unfold enter
  split
  · cases c <;> simp_all [Call.names, Pc.spares]
  · trivial

theorem step_spares (fail : Bool) (s : Sys) (pc : Pc) (x : PDP) (l : List PDP) (hs : s.Ok) (hl : s.tuns = some l) (hx : x ∈ l)
    (h : pc.spares x) : (step fail s pc).2.spares x := by
  cases pc <;> simp only [step]
  case lookMS p =>
    split
    · next q e =>
      obtain ⟨-, l', hl', hq, hms⟩ := kByMS_some e
      rw [hl] at hl'
      cases hl'
      refine ⟨h, fun hi => ?_⟩
      have := ok_tuns hs hl q hq x hx (Or.inr hi)
      subst this
      exact h.1 hms.symm
    · exact h
  case dropMS p q => exact h.1
  case lookITEI p =>
    split
    · next q e =>
      obtain ⟨-, l', hl', hq, hi⟩ := kByITEI_some e
      simp only [Pc.spares]
      rw [hi]
      exact h.2
    · trivial
  case dropITEI p q => trivial
  case install p => split <;> trivial
  case findITEI i =>
    split
    · next q e =>
      obtain ⟨-, l', hl', hq, hi⟩ := kByITEI_some e
      simp only [Pc.spares]
      rw [hi]
      exact h
    · trivial
  case findMS a =>
    split
    · next q e =>
      obtain ⟨-, l', hl', hq, hms⟩ := kByMS_some e
      rw [hl] at hl'
      cases hl'
      intro hi
      have := ok_tuns hs hl q hq x hx (Or.inr hi)
      subst this
      exact h hms.symm
    · trivial
  case remove q i => split <;> trivial
  case release i => trivial
  case done b => trivial

theorem tuns_step (fail : Bool) (s : Sys) (pc : Pc) (x : PDP) (l : List PDP) (hl : s.tuns = some l) (hx : x ∈ l)
    (h : pc.spares x) : ∃ l', (step fail s pc).1.tuns = some l' ∧ x ∈ l' := by
  obtain ⟨d, hd, hdl⟩ := tuns_dev hl
  obtain ⟨l', hl', hn⟩ := (step_dev fail s pc d).2 l hdl
  refine ⟨l', ?_, ?_⟩
  · simp only [Sys.tuns, (step_frame fail s pc).1, hd, hl']
  · refine Classical.byContradiction fun hc => ?_
    obtain ⟨q, hq, hp⟩ := hn x hx hc
    rcases hp with ⟨p, rfl⟩ | ⟨p, rfl⟩ | ⟨i, rfl⟩
    · exact h.2 hq.symm
    · exact h hq.symm
    · exact h hq.symm

/-- whatever calls overlap, a tunnel stays as long as none of them names its subscriber address or its incoming TEID -/
theorem C69_kept (m : Machine) (hm : m.sys.Ok) (hq : ∀ i, ∃ ok, m.pcs i = .done ok) (es : List Event) (x : PDP)
    (l : List PDP) (hl : m.sys.tuns = some l) (hx : x ∈ l) (hes : ∀ i c, Event.start i c ∈ es → ¬ c.names x) :
    ∃ l', (m.run es).sys.tuns = some l' ∧ x ∈ l' := by
  have hsp : ∀ i, (m.pcs i).spares x := by
    intro i
    obtain ⟨ok, e⟩ := hq i
    rw [e]
    trivial
  clear hq
  induction es generalizing m l with
  | nil => exact ⟨l, hl, hx⟩
  | cons e es ih =>
    have hes' : ∀ i c, Event.start i c ∈ es → ¬ c.names x := fun i c h => hes i c (List.mem_cons_of_mem _ h)
    cases e with
    | start i c =>
      have hc := hes i c List.mem_cons_self
      have h1 : (m.step (.start i c)).sys = m.sys := by
        simp only [Machine.step]
        split <;> rfl
      refine ih (m.step (.start i c)) (by rw [h1]; exact hm) l (by rw [h1]; exact hl) hx hes' ?_
      intro j
      simp only [Machine.step]
      split
      · simp only
        split
        · exact enter_spares _ _ _ hc
        · exact hsp j
      · exact hsp j
    | go i fail =>
      obtain ⟨l', hl', hx'⟩ := tuns_step fail m.sys (m.pcs i) x l hl hx (hsp i)
      refine ih (m.step (.go i fail)) (step_ok fail m.sys (m.pcs i) hm) l' hl' hx' hes' ?_
      intro j
      simp only [Machine.step]
      split
      · exact step_spares fail m.sys (m.pcs i) x l hm hl hx (hsp i)
      · exact hsp j

/-- AddTunnel and AddTunnelOverride never change which TEIDs are in use -/
theorem C69_reserved (f : Nat → Bool) (s : Sys) (p : PDP) :
    (call f s (.add p)).1.reserved = s.reserved ∧ (call f s (.override p)).1.reserved = s.reserved := by
  have hstep : ∀ fail s' pc, (s'.reserved = s.reserved ∧ ((∃ ok, pc = .done ok) ∨ ∃ q, pc.gives q)) →
      (step fail s' pc).1.reserved = s.reserved ∧
        ((∃ ok, (step fail s' pc).2 = .done ok) ∨ ∃ q, (step fail s' pc).2.gives q) := by
    rintro fail s' pc ⟨h, hp⟩
    have hdel : ∀ q, ((kDel fail s' q).getD s').reserved = s.reserved := by
      intro q
      cases e : kDel fail s' q with
      | none => exact h
      | some s'' =>
        obtain ⟨-, l, -, -, rfl⟩ := kDel_some.1 e
        exact (setTuns_link _ _).2.2.2.1.trans h
    cases pc <;> simp only [step]
    case lookMS p => split <;> exact ⟨h, Or.inr ⟨p, rfl⟩⟩
    case dropMS p q => exact ⟨hdel q, Or.inr ⟨p, rfl⟩⟩
    case lookITEI p => split <;> exact ⟨h, Or.inr ⟨p, rfl⟩⟩
    case dropITEI p q => exact ⟨hdel q, Or.inr ⟨p, rfl⟩⟩
    case install p =>
      split
      · next s'' e =>
        obtain ⟨-, l, -, -, rfl⟩ := kAdd_some.1 e
        exact ⟨(setTuns_link _ _).2.2.2.1.trans h, Or.inl ⟨_, rfl⟩⟩
      · exact ⟨h, Or.inl ⟨_, rfl⟩⟩
    case done ok => exact ⟨h, Or.inl ⟨_, rfl⟩⟩
    all_goals
      rcases hp with ⟨ok, hp⟩ | ⟨q, hp⟩
      · cases hp
      · exact hp.elim
  have h0 : ∀ c : Call, (c = .add p ∨ c = .override p) → ((∃ ok, enter s c = .done ok) ∨ ∃ q, (enter s c).gives q) := by
    intro c hc
    unfold enter
    split
    · rcases hc with rfl | rfl <;> exact Or.inr ⟨p, rfl⟩
    · exact Or.inl ⟨_, rfl⟩
  exact ⟨(call_inv (fun s' pc => s'.reserved = s.reserved ∧ ((∃ ok, pc = .done ok) ∨ ∃ q, pc.gives q)) f s (.add p)
      (fun i s' pc h => hstep (f i) s' pc h) ⟨rfl, h0 _ (Or.inl rfl)⟩).1,
    (call_inv (fun s' pc => s'.reserved = s.reserved ∧ ((∃ ok, pc = .done ok) ∨ ∃ q, pc.gives q)) f s (.override p)
      (fun i s' pc h => hstep (f i) s' pc h) ⟨rfl, h0 _ (Or.inr rfl)⟩).1⟩

/-! ### departures -/

/-- a subscriber moved to a new incoming TEID with AddTunnelOverride: the old one stays in use for ever though no tunnel has
it, unless CloseRelay were called, which is refused -/
theorem C69_replaced_teid_kept_wrong (f : Nat → Bool) (s : Sys) (p q : PDP) (l : List PDP) (hs : s.Ok) (hl : s.tuns = some l)
    (hq : q ∈ l) (hms : q.ms = p.ms) (hne : q.itei ≠ p.itei) (hr : q.itei ∈ s.reserved)
    (h : (call f s (.override p)).2 = .done true) :
    q.itei ∈ (call f s (.override p)).1.reserved ∧
      (∃ l', (call f s (.override p)).1.tuns = some l' ∧ ∀ x ∈ l', x.itei ≠ q.itei) ∧
      (∀ g, (call g (call f s (.override p)).1 (.delITEI q.itei)).2 = .done false) ∧
      closeRelay (call f s (.override p)).1 q.itei = ((call f s (.override p)).1, false) := by
  obtain ⟨l1, l', hl1, hl', hmem⟩ := C69_override f s p hs h
  rw [hl] at hl1
  cases hl1
  have hnone : ∀ x ∈ l', x.itei ≠ q.itei := by
    intro x hx hxi
    rcases (hmem x).1 hx with rfl | ⟨hxl, hxm, -⟩
    · exact hne hxi.symm
    · have := ok_tuns hs hl x hxl q hq (Or.inr hxi)
      subst this
      exact hxm hms
  refine ⟨by rw [(C69_reserved f s p).2]; exact hr, ⟨l', hl', hnone⟩, fun g => ?_, ?_⟩
  · obtain ⟨ok, hok⟩ := C69_returns g (call f s (.override p)).1 (.delITEI q.itei)
    cases ok with
    | false => exact hok
    | true =>
      obtain ⟨-, -, -, l2, hl2, x, hx, hxi⟩ := (C69_del_itei_iff _ _ _).1 hok
      rw [hl'] at hl2
      cases hl2
      exact absurd hxi (hnone x hx)
  · refine (C69_relay_refused _ _ ?_).2
    rw [(C69_frame f s (.override p)).2.1]
    cases hen : s.enabled with
    | true => rfl
    | false =>
      rw [C69_not_enabled f s _ hen] at h
      simp at h

/-- a connection with kernel tunnels on the device gtp0 and the given tunnels -/
def demo (l : List PDP) : Sys := ⟨fun d => if d = "gtp0" then some l else none, true, some ("gtp0", true), true, [], [5, 6]⟩

def tunA : PDP := ⟨[10, 0, 0, 1], [172, 16, 0, 1], 100, 5⟩
def tunA6 : PDP := ⟨[10, 0, 0, 1], [172, 16, 0, 1], 101, 6⟩
def tunB : PDP := ⟨[10, 0, 0, 1], [172, 16, 0, 2], 102, 5⟩

/-- an AddTunnelOverride that fails may already have deleted the tunnel it was to replace -/
theorem C69_override_fails_wrong : ∃ (f : Nat → Bool) (s : Sys) (p q : PDP), s.Ok ∧ s.tuns = some [q] ∧
    (call f s (.override p)).2 = .done false ∧ (call f s (.override p)).1.tuns = some [] := by
  refine ⟨fun i => i = 3, demo [tunA], tunA6, tunA, ?_, rfl, by decide, by decide⟩
  intro d l h
  simp only [demo] at h
  split at h
  · cases h
    intro p hp q hq _
    simp only [List.mem_singleton] at hp hq
    rw [hp, hq]
  · cases h

/-- overlapping calls: DelTunnelByMSAddress for the subscriber 172.16.0.1 deletes the tunnel of 172.16.0.2 and frees its TEID,
all calls succeed and no call but the one that installed it names that tunnel -/
theorem C69_overlap_wrong : ∃ es : List Event,
    (∀ i c, Event.start i c ∈ es → c = .delMS tunA.ms ∨ c = .override tunA6 ∨ c = .add tunB) ∧
    (((Machine.mk (demo [tunA]) fun _ => .done true).run (es.take 10)).sys.tuns = some [tunA6, tunB]) ∧
    (((Machine.mk (demo [tunA]) fun _ => .done true).run es).sys.tuns = some [tunA6]) ∧
    (((Machine.mk (demo [tunA]) fun _ => .done true).run es).sys.reserved = [6]) ∧
    (((Machine.mk (demo [tunA]) fun _ => .done true).run es).pcs 0 = .done true) := by
  refine ⟨[.start 0 (.delMS tunA.ms), .go 0 false, .start 1 (.override tunA6), .go 1 false, .go 1 false, .go 1 false, .go 1 false,
    .start 2 (.add tunB), .go 2 false, .go 2 false, .go 0 false, .go 0 false], ?_, by decide, by decide, by decide, by decide⟩
  intro i c h
  simp only [List.mem_cons, Event.start.injEq, reduceCtorEq, List.not_mem_nil, or_false, false_or] at h
  rcases h with ⟨-, rfl⟩ | ⟨-, rfl⟩ | ⟨-, rfl⟩
  · exact Or.inl rfl
  · exact Or.inr (Or.inl rfl)
  · exact Or.inr (Or.inr rfl)

/-- EnableKernelGTP that fails after the device was made leaves the device: no further attempt with that name succeeds -/
theorem C69_enable_retry_wrong (f : EnableFaults) (s : Sys) (d : String) (h1 : f.sock = false) (h2 : f.file = false)
    (h3 : f.add = false) (h4 : f.setUp = true ∨ f.setMTU = true) (hd : s.dev d = none) :
    (enable f s d).2 = false ∧ (enable f s d).1.dev d = some [] ∧ ∀ g, (enable g (enable f s d).1 d).2 = false := by
  have key : (enable f s d).2 = false ∧ (enable f s d).1.dev d = some [] := by
    rcases h4 with h4 | h4
    · simp [enable, h1, h2, h3, h4, hd]
    · cases h5 : f.setUp <;> simp [enable, h1, h2, h3, h4, h5, hd]
  refine ⟨key.1, key.2, fun g => ?_⟩
  cases e : (enable g (enable f s d).1 d).2 with
  | false => rfl
  | true =>
    have := (C69_enable g _ d e).1
    rw [key.2] at this
    cases this

/-- EnableKernelGTP called again with a name in use fails and from then on every call on tunnels fails, though the tunnels are
still in the kernel; when the connection ends the device of that name is deleted and its own is not -/
theorem C69_enable_twice_wrong (s : Sys) (d d2 : String) (l l2 : List PDP) (hen : s.enabled = true)
    (_hlink : s.link = some (d, true)) (hd : s.dev d = some l) (hd2 : s.dev d2 = some l2) (hne : d ≠ d2) (hk : s.sock = true) :
    (enable .zero s d2).2 = false ∧ (enable .zero s d2).1.enabled = true ∧ (enable .zero s d2).1.dev d = some l ∧
      (∀ f c, (call f (enable .zero s d2).1 c).2 = .done false) ∧
      (shutdown false (enable .zero s d2).1).dev d = some l ∧ (shutdown false (enable .zero s d2).1).dev d2 = none := by
  have e : enable .zero s d2 = ({ s with link := some (d2, false) }, false) := by
    simp [enable, EnableFaults.zero, hk, hd2]
  rw [e]
  refine ⟨rfl, hen, hd, fun f c => C69_no_device f _ c rfl, ?_, ?_⟩
  · simp [shutdown, hen, hne, hd]
  · simp [shutdown, hen]

/-! ### examples -/

/-- moving subscriber A to incoming TEID 6 -/
example : (call (fun _ => false) (demo [tunA]) (.override tunA6)).1.tuns = some [tunA6] ∧
    (call (fun _ => false) (demo [tunA]) (.override tunA6)).2 = .done true ∧
    (call (fun _ => false) (demo [tunA]) (.override tunA6)).1.reserved = [5, 6] := by decide

/-- the TEID of A given to subscriber B -/
example : (call (fun _ => false) (demo [tunA]) (.override tunB)).1.tuns = some [tunB] ∧
    (call (fun _ => false) (demo [tunA]) (.add tunB)).2 = .done false ∧
    (call (fun _ => false) (demo [tunA6]) (.add tunB)).1.tuns = some [tunA6, tunB] := by decide

example : (call (fun _ => false) (demo [tunA6, tunB]) (.delMS tunB.ms)).1.tuns = some [tunA6] ∧
    (call (fun _ => false) (demo [tunA6, tunB]) (.delMS tunB.ms)).1.reserved = [6] ∧
    (call (fun _ => false) (demo [tunA6, tunB]) (.delITEI 6)).1.tuns = some [tunB] ∧
    (call (fun _ => false) (demo [tunA6, tunB]) (.delITEI 7)).2 = .done false := by decide

example : (enable .zero ⟨fun _ => none, false, none, false, [7], [5]⟩ "gtp0").2 = true ∧
    (enable .zero ⟨fun _ => none, false, none, false, [7], [5]⟩ "gtp0").1.relay = [] := by decide

end Verif.V1.Tunnel

namespace Verif.V1.Tunnel
/-! ### cases that meet the hypotheses: subscribers A on TEID 6 and B on TEID 5, in a kernel where no call fails and in one
where every call fails -/

theorem demo_ok : (demo [tunA6, tunB]).Ok := by
  intro d l h
  by_cases hd : d = "gtp0"
  · subst hd
    have : l = [tunA6, tunB] := by simpa [demo] using h.symm
    subst this
    unfold Distinct
    decide
  · simp [demo, hd] at h

example := C69_not_enabled (fun _ => false) ⟨fun _ => none, false, none, false, [7], [5]⟩ (.add tunA) rfl
example := C69_add (fun _ => false) (demo [tunA6]) tunB [tunA6] rfl (by decide)
example := C69_add_fails (fun _ => false) (demo [tunA]) tunB (by decide)
example := C69_no_device (fun _ => false) ⟨fun _ => none, true, some ("gtp0", false), true, [], [5]⟩ (.override tunA) rfl
example := C69_override (fun _ => false) (demo [tunA6, tunB]) tunA demo_ok (by decide)
example := C69_override_fails (fun _ => true) (demo [tunA6, tunB]) tunA [tunA6, tunB] demo_ok rfl (by decide)
/-- the first tunnel is gone and the new one is not there: the kernel refuses only the last call -/
example := C69_override_fails (fun i => i == 4) (demo [tunA6, tunB]) tunA [tunA6, tunB] demo_ok rfl (by decide)
example := C69_override_succeeds (fun _ => false) (fun _ => rfl) (demo [tunA6, tunB]) tunA [tunA6, tunB] demo_ok rfl rfl
example := C69_del_itei (fun _ => false) (demo [tunA6, tunB]) 6 [tunA6, tunB] rfl (by decide)
example := C69_del_ms (fun _ => false) (demo [tunA6, tunB]) tunB.ms [tunA6, tunB] demo_ok rfl (by decide)
example := C69_del_fails (fun _ => false) (demo [tunA6, tunB]) (.delITEI 7) (.inl ⟨7, rfl⟩) (by decide)
example := C69_del_fails (fun i => i == 1) (demo [tunA6, tunB]) (.delMS tunB.ms) (.inr ⟨_, rfl⟩) (by decide)
example := C69_enable .zero ⟨fun d => if d = "gtp1" then some [tunA] else none, false, none, false, [7], [5]⟩ "gtp0" (by decide)
example := C69_enable_fails .zero ⟨fun d => if d = "gtp1" then some [tunA] else none, false, none, false, [7], [5]⟩ "gtp1"
  (by decide)
example := C69_enable_succeeds ⟨fun d => if d = "gtp1" then some [tunA] else none, false, none, false, [7], [5]⟩ "gtp0"
  (by decide)
example := C69_relay_refused (demo [tunA]) 7 rfl
example := C69_relay_accepted ⟨fun _ => none, false, none, false, [7], [5, 7]⟩ 7 rfl
example := C69_shutdown (demo [tunA]) "gtp0" true rfl rfl "gtp0"
example := C69_shutdown_off true ⟨fun d => if d = "gtp1" then some [tunA] else none, false, none, false, [7], [5]⟩ rfl
/-- two goroutines: one deletes A while the other moves B -/
def demoEvents : List Event := [.start 0 (.delITEI 6), .start 1 (.override ⟨tunB.peer, tunB.ms, 9, 9⟩), .go 0 false,
  .go 1 false, .go 1 false, .go 0 false, .go 1 false, .go 1 false, .go 0 false]
example := C69_distinct ⟨demo [tunA6, tunB], fun _ => .done true⟩ demo_ok demoEvents
example := C69_origin ⟨demo [tunA6, tunB], fun _ => .done true⟩ (fun _ => ⟨true, rfl⟩) demoEvents "gtp0"
  [⟨tunB.peer, tunB.ms, 9, 9⟩] (by decide)
example := C69_kept ⟨demo [tunA6, tunB], fun _ => .done true⟩ demo_ok (fun _ => ⟨true, rfl⟩)
  [.start 0 (.delITEI 6), .go 0 false, .start 1 (.add tunA), .go 0 false, .go 1 false, .go 0 false] tunB [tunA6, tunB] rfl
  (by simp) (by
    intro i c h
    simp only [List.mem_cons, Event.start.injEq, reduceCtorEq, false_or, List.not_mem_nil, or_false] at h
    rcases h with ⟨-, rfl⟩ | ⟨-, rfl⟩ <;> simp [Call.names, tunB])
example := C69_replaced_teid_kept_wrong (fun _ => false) (demo [tunA6, tunB]) ⟨tunA.peer, tunA.ms, 9, 9⟩ tunA6 [tunA6, tunB]
  demo_ok rfl (by simp) (by decide) (by decide) (by decide) (by decide)
example := C69_enable_retry_wrong ⟨false, false, false, true, false⟩ ⟨fun _ => none, false, none, false, [7], [5]⟩ "gtp0"
  rfl rfl rfl (.inl rfl) rfl
example := C69_enable_twice_wrong ⟨fun d => if d = "gtp1" then some [tunA] else if d = "gtp0" then some [] else none, true,
  some ("gtp1", true), true, [], [5]⟩ "gtp1" "gtp0" [tunA] [] rfl rfl (by decide) (by decide) (by decide) rfl
end Verif.V1.Tunnel
