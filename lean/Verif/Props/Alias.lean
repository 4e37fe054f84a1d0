import Verif.Model.Alias
import Verif.Proofs.V2Grouped
import Verif.Props.V2IE
/-
Property theorem C49: editing a received grouped element and the other elements of the message.
-/
set_option linter.unusedSimpArgs false
namespace Verif.V2
open Res Spec

variable (g : UInt8 → Bool)

/-! ### where parsing puts the payloads -/

mutual
/-- the element `x`, its payload and its children's seen in the memory from `off` on -/
def place (off : Nat) : IE → RIE
  | .mk t n i p cs => .mk t n i (.view (off + 4) p.length) (places (off + 4) cs)
def places (off : Nat) : List IE → List RIE
  | [] => []
  | c :: cs => place off c :: places (off + c.marshalLen g) cs
end

mutual
/-- an element made by the program, in memory of its own -/
def fresh : IE → RIE
  | .mk t n i p cs => .mk t n i (.own p) (freshs cs)
def freshs : List IE → List RIE
  | [] => []
  | c :: cs => fresh c :: freshs cs
end

mutual
theorem deref_fresh (m : Bytes) : ∀ x, (fresh x).deref m = x
  | .mk t n i p cs => by simp [fresh, RIE.deref, Pay.read, derefs_freshs m cs]
theorem derefs_freshs (m : Bytes) : ∀ cs, derefs m (freshs cs) = cs
  | [] => rfl
  | c :: cs => by simp [freshs, derefs, deref_fresh m c, derefs_freshs m cs]
end

mutual
theorem marshalLen_place (off : Nat) : ∀ x, (place g off x).marshalLen g = x.marshalLen g
  | .mk t n i p cs => by simp [place, RIE.marshalLen, IE.marshalLen, Pay.length, rmarshalLens_places (off + 4) cs]
theorem rmarshalLens_places (off : Nat) : ∀ cs, rmarshalLens g (places g off cs) = marshalLens g cs
  | [] => rfl
  | c :: cs => by simp [places, rmarshalLens, marshalLens, marshalLen_place off c, rmarshalLens_places _ cs]
end

/-- parsing with memory is parsing of the octets, with the payloads left where they are -/
theorem rparse_aux (fuel : Nat) :
    (∀ b off, rparseF g fuel b off = (parseF g fuel b >>= fun x => ok (place g off x))) ∧
    (∀ b off, rparseMultiF g fuel b off = (parseMultiF g fuel b >>= fun xs => ok (places g off xs))) := by
  induction fuel with
  | zero => exact ⟨fun _ _ => rfl, fun b _ => by by_cases h : b.length > 0 <;> simp [rparseMultiF, parseMultiF, h, places]⟩
  | succ k ih =>
    constructor
    · intro b off
      rw [rparseF, parseF]
      by_cases h4 : b.length < 4
      · simp [h4]
      simp only [h4, if_false]
      cases idx b 0 <;> simp only [bind_ok, bind_err, bind_panic, bind_diverge]
      rename_i t
      cases slice b 1 3 <;> simp only [bind_ok, bind_err, bind_panic, bind_diverge]
      rename_i s
      cases rd16 s <;> simp only [bind_ok, bind_err, bind_panic, bind_diverge]
      rename_i n
      by_cases hn : n.toNat > b.length - 4
      · simp [hn]
      simp only [hn, if_false]
      cases idx b 3 <;> simp only [bind_ok, bind_err, bind_panic, bind_diverge]
      rename_i i
      cases hp : slice b 4 (4 + n.toNat) <;> simp only [bind_ok, bind_err, bind_panic, bind_diverge]
      rename_i p
      have hl : p.length = n.toNat := by
        obtain ⟨h1, h2, rfl⟩ := slice_ok_iff.mp hp
        simp; omega
      by_cases hg : g t = true
      · simp only [hg, if_true, ih.2]
        cases parseMultiF g k p <;> simp [place, hl]
      · simp [hg, place, hl, places]
    · intro b off
      rw [rparseMultiF, parseMultiF]
      by_cases h0 : b.length > 0
      · simp only [h0, if_true, ih.1]
        cases parseF g k b <;> simp only [bind_ok, bind_err, bind_panic, bind_diverge]
        rename_i x
        rw [marshalLen_place]
        cases sliceFrom b (x.marshalLen g) <;> simp only [bind_ok, bind_err, bind_panic, bind_diverge]
        rename_i r
        rw [ih.2]
        cases parseMultiF g k r <;> simp [places]
      · simp [h0, places]

/-- what is parsed: the elements of Model/V2IE.lean, in place -/
theorem rparseMulti_eq (b : Bytes) (off : Nat) :
    rparseMulti g b off = (parseMulti g b >>= fun xs => ok (places g off xs)) := (rparse_aux g _).2 b off

mutual
/-- an element in place is seen unchanged in every memory that holds its octets there -/
theorem deref_place : ∀ (x : IE) (pre post : Bytes), wf g x = true → (place g pre.length x).deref (pre ++ enc g x ++ post) = x
  | .mk t n i p cs, pre, post, h => by
    have hp : enc g (.mk t n i p cs) = (t :: be16 n ++ [i]) ++ p := by
      rw [enc_of_wf g h]; rfl
    rw [hp, place, RIE.deref, IE.mk.injEq]
    refine ⟨rfl, rfl, rfl, ?_, ?_⟩
    · have : pre ++ ((t :: be16 n ++ [i]) ++ p) ++ post = (pre ++ (t :: be16 n ++ [i])) ++ (p ++ post) := by simp
      rw [Pay.read, this, show pre.length + 4 = (pre ++ (t :: be16 n ++ [i])).length by simp]
      rw [List.drop_left, List.take_left]
    · by_cases hg : g t = true
      · obtain ⟨-, h2, h3⟩ := (wf_grouped g hg).mp h
        have := derefs_places cs (pre ++ (t :: be16 n ++ [i])) post h3
        rw [← h2] at this
        rw [show pre.length + 4 = (pre ++ (t :: be16 n ++ [i])).length by simp, ← List.append_assoc]
        exact this
      · obtain ⟨-, rfl⟩ := (wf_plain g hg).mp h
        rfl
theorem derefs_places : ∀ (cs : List IE) (pre post : Bytes), wfs g cs = true →
    derefs (pre ++ encs g cs ++ post) (places g pre.length cs) = cs
  | [], _, _, _ => rfl
  | c :: cs, pre, post, h => by
    simp only [wfs, Bool.and_eq_true] at h
    rw [places, derefs, encs, List.cons.injEq]
    constructor
    · have := deref_place c pre (encs g cs ++ post) h.1
      simpa using this
    · have := derefs_places cs (pre ++ enc g c) post h.2
      rw [List.length_append, ← marshalLen_enc] at this
      simpa using this
end

theorem places_append (as bs : List IE) (off : Nat) :
    places g off (as ++ bs) = places g off as ++ places g (off + marshalLens g as) bs := by
  induction as generalizing off with
  | nil => rfl
  | cons a as ih => simp [places, marshalLens, ih, Nat.add_assoc]

/-! ### Remove -/

theorem rremove_mem {typ ins : UInt8} {cs : List RIE} {m : Bytes} {nc : List (Option RIE)} {k : Nat} {b : Bytes}
    {r : Bytes × List (Option RIE) × Pay} (h : rremove g m typ ins cs nc k (.own b) = ok r) : r.1 = m ∧ ∃ b', r.2.2 = .own b' := by
  induction cs generalizing nc k b with
  | nil => simp only [rremove, ok.injEq] at h; subst h; exact ⟨rfl, b, rfl⟩
  | cons c cs ih =>
    rw [rremove] at h
    split at h
    · split at h
      · simp at h
      · exact ih h
    · split at h
      · simp only [marshal_eq, Pay.append] at h
        exact ih h
      · simp at h

/-- `Remove` never touches the received buffer: whatever the element, every other element of the message stays as it is. -/
theorem C49_remove (m : Bytes) (x : RIE) (typ ins : UInt8) {m' : Bytes} {x' : RIE} (h : x.remove g m typ ins = ok (m', x')) :
    m' = m ∧ ∀ y : RIE, y.deref m' = y.deref m := by
  have : m' = m := by
    cases x with
    | mk t n i p cs =>
      rw [RIE.remove] at h
      split at h
      · obtain ⟨r, h1, h2⟩ := bind_eq_ok.mp h
        have := (rremove_mem g h1).1
        simp only at h2
        split at h2
        · simp only [ok.injEq, Prod.mk.injEq] at h2
          rw [← h2.1]; exact this
        · simp at h2
      · simp only [ok.injEq, Prod.mk.injEq] at h
        exact h.1.symm
  exact ⟨this, fun y => by rw [this]⟩

/-! ### Add -/

/-- `append` with room: octets behind the slice are overwritten -/
theorem append_room {m s : Bytes} {o n : Nat} (h : o + n + s.length ≤ m.length) :
    Pay.append m s (.view o n) = (m.take (o + n) ++ s ++ m.drop (o + n + s.length), .view o (n + s.length)) := by
  simp [Pay.append, h]
theorem append_no_room {m s : Bytes} {o n : Nat} (h : ¬ o + n + s.length ≤ m.length) :
    Pay.append m s (.view o n) = (m, .own ((m.drop o).take n ++ s)) := by
  simp [Pay.append, h]

def lift (ies : List (Option IE)) : List (Option RIE) := ies.map (Option.map fresh)

theorem radd_own (ies : List (Option IE)) (m b : Bytes) (cs : List RIE) :
    radd g (lift ies) m (.own b) cs = ok (m, .own (b ++ rawEncs g (ies.filterMap id)), cs ++ (ies.filterMap id).map fresh) := by
  induction ies generalizing b cs with
  | nil => simp [lift, radd, rawEncs]
  | cons x xs ih =>
    cases x with
    | none => simpa [lift, radd] using ih b cs
    | some c =>
      have := ih (b ++ rawEnc g c) (cs ++ [fresh c])
      simp only [lift] at this
      simp [lift, radd, deref_fresh, marshal_eq, Pay.append, this, rawEncs]

theorem derefs_append (m : Bytes) (a b : List RIE) : derefs m (a ++ b) = derefs m a ++ derefs m b := by
  induction a with
  | nil => rfl
  | cons x xs ih => simp [derefs, ih]

theorem derefs_map_fresh (m : Bytes) (cs : List IE) : derefs m (cs.map fresh) = cs := by
  induction cs with
  | nil => rfl
  | cons x xs ih => simp [derefs, ih, deref_fresh]

/-- The general effect of the loop of `Add` on a view: of the octets to append, those of the first children that fit are written
over what follows the view. -/
theorem radd_view (ies : List (Option IE)) (m : Bytes) (o n : Nat) (cs : List RIE) (hm : o + n ≤ m.length) :
    ∃ done p', done <+: ies.filterMap id ∧ o + n + (rawEncs g done).length ≤ m.length ∧
      (o + n + (rawEncs g (ies.filterMap id)).length ≤ m.length → done = ies.filterMap id) ∧
      radd g (lift ies) m (.view o n) cs =
        ok (m.take (o + n) ++ rawEncs g done ++ m.drop (o + n + (rawEncs g done).length), p', cs ++ (ies.filterMap id).map fresh) ∧
      p'.read (m.take (o + n) ++ rawEncs g done ++ m.drop (o + n + (rawEncs g done).length)) =
        (m.drop o).take n ++ rawEncs g (ies.filterMap id) ∧
      p'.length = n + (rawEncs g (ies.filterMap id)).length := by
  induction ies generalizing m n cs with
  | nil =>
    refine ⟨[], .view o n, List.nil_prefix, by simpa [rawEncs], fun _ => rfl, ?_, ?_, ?_⟩
    · simp [lift, radd, rawEncs]
    · simp [rawEncs, Pay.read]
    · simp [rawEncs, Pay.length]
  | cons x xs ih =>
    cases x with
    | none =>
      obtain ⟨done, p', h1, h2, h3, h4, h5, h6⟩ := ih m n cs hm
      exact ⟨done, p', by simpa using h1, h2, by simpa using h3, by simpa [lift, radd] using h4, by simpa using h5, by simpa using h6⟩
    | some c =>
      by_cases hr : o + n + (rawEnc g c).length ≤ m.length
      · generalize hm1 : m.take (o + n) ++ rawEnc g c ++ m.drop (o + n + (rawEnc g c).length) = m1
        have hl1 : m1.length = m.length := by rw [← hm1]; simp; omega
        obtain ⟨done, p', h1, h2, h3, h4, h5, h6⟩ := ih m1 (n + (rawEnc g c).length) (cs ++ [fresh c]) (by omega)
        have ht : m1.take (o + (n + (rawEnc g c).length)) = m.take (o + n) ++ rawEnc g c := by
          rw [← hm1, List.take_left' (by simp; omega)]
        have hd : m1.drop (o + (n + (rawEnc g c).length) + (rawEncs g done).length) =
            m.drop (o + n + (rawEnc g c).length + (rawEncs g done).length) := by
          rw [← hm1, List.drop_append, List.drop_of_length_le (by simp; omega), List.drop_drop]
          simp only [List.nil_append]
          congr 1
          simp; omega
        have e : m1.take (o + (n + (rawEnc g c).length)) ++ rawEncs g done ++
            m1.drop (o + (n + (rawEnc g c).length) + (rawEncs g done).length) =
            m.take (o + n) ++ rawEncs g (c :: done) ++ m.drop (o + n + (rawEncs g (c :: done)).length) := by
          rw [ht, hd, rawEncs]
          simp [Nat.add_assoc]
        refine ⟨c :: done, p', ?_, ?_, ?_, ?_, ?_, ?_⟩
        · simpa using h1
        · simp only [rawEncs, List.length_append]; omega
        · intro h
          simp only [List.filterMap_cons_some (f := id) rfl, rawEncs, List.length_append] at h ⊢
          rw [h3 (by omega)]
        · have : radd g (lift (some c :: xs)) m (.view o n) cs =
              radd g (lift xs) m1 (.view o (n + (rawEnc g c).length)) (cs ++ [fresh c]) := by
            simp [lift, radd, deref_fresh, marshal_eq, append_room hr, hm1]
          rw [this, h4, e]
          simp
        · rw [← e, h5]
          have : (m1.drop o).take (n + (rawEnc g c).length) = (m.drop o).take n ++ rawEnc g c := by
            have h7 : (m1.take (o + (n + (rawEnc g c).length))).drop o = (m1.drop o).take (n + (rawEnc g c).length) := by
              rw [List.drop_take]; congr 1; omega
            rw [← h7, ht, List.drop_append_of_le_length (by simp; omega), List.drop_take]
            congr 2; omega
          rw [this]
          simp [rawEncs]
        · rw [h6]
          simp [rawEncs]; omega
      · refine ⟨[], .own ((m.drop o).take n ++ rawEncs g ((some c :: xs).filterMap id)), List.nil_prefix, by simpa [rawEncs],
          ?_, ?_, rfl, ?_⟩
        · intro h
          simp only [List.filterMap_cons_some (f := id) rfl, rawEncs, List.length_append] at h
          omega
        · have : radd g (lift (some c :: xs)) m (.view o n) cs =
              radd g (lift xs) m (.own ((m.drop o).take n ++ rawEnc g c)) (cs ++ [fresh c]) := by
            simp [lift, radd, deref_fresh, marshal_eq, append_no_room hr]
          rw [this, radd_own]
          simp [rawEncs]
        · simp [Pay.length]; omega

/-- The setting of C49: the memory `m` holds, between `pre` and `post` (the rest of the message and of the receive buffer), the
elements `as ++ x :: bs`; `end_` is where `x` ends. -/
structure Received (m : Bytes) (as : List IE) (x : IE) (bs : List IE) (pre post : Bytes) : Prop where
  mem : m = pre ++ encs g (as ++ x :: bs) ++ post
  wf : wfs g (as ++ x :: bs) = true
  grouped : g x.typ = true

variable {g} in
/-- these are the elements parsing gives, and they are seen as they were sent -/
theorem Received.parsed {m as x bs pre post} (h : Received g m as x bs pre post) :
    rparseMulti g (encs g (as ++ x :: bs)) pre.length = ok (places g pre.length (as ++ x :: bs)) ∧
    derefs m (places g pre.length (as ++ x :: bs)) = as ++ x :: bs := by
  refine ⟨?_, ?_⟩
  · rw [rparseMulti_eq, parseMulti_encs g _ h.wf]; rfl
  · rw [h.mem]; exact derefs_places g _ _ _ h.wf

/-- offset of `x` and the end of it -/
def at_ (as : List IE) (pre : Bytes) : Nat := pre.length + marshalLens g as
def end_ (as : List IE) (x : IE) (pre : Bytes) : Nat := at_ g as pre + x.marshalLen g

variable {g} in
theorem Received.end_le {m as x bs pre post} (h : Received g m as x bs pre post) : end_ g as x pre ≤ m.length := by
  rw [h.mem]; simp [end_, at_, encs_append, encs, marshalLens_encs, marshalLen_enc]; omega

variable {g} in
theorem Received.before {m as x bs pre post} (h : Received g m as x bs pre post) :
    m.take (end_ g as x pre) = pre ++ encs g as ++ enc g x := by
  rw [h.mem]
  have : pre ++ encs g (as ++ x :: bs) ++ post = (pre ++ encs g as ++ enc g x) ++ (encs g bs ++ post) := by
    simp [encs_append, encs]
  rw [this, List.take_left' (by simp [end_, at_, marshalLens_encs, marshalLen_enc]; omega)]

variable {g} in
theorem Received.behind {m as x bs pre post} (h : Received g m as x bs pre post) :
    m.drop (end_ g as x pre) = encs g bs ++ post := by
  rw [h.mem]
  have : pre ++ encs g (as ++ x :: bs) ++ post = (pre ++ encs g as ++ enc g x) ++ (encs g bs ++ post) := by
    simp [encs_append, encs]
  rw [this, List.drop_left' (by simp [end_, at_, marshalLens_encs, marshalLen_enc]; omega)]

variable {g} in
/-- What `Add` does in a received message: the element itself becomes what the value model says; the octets of the first children
that fit (`done`) are written over the octets following the element. -/
theorem Received.add {m as x bs pre post} (h : Received g m as x bs pre post) (ies : List (Option IE)) :
    ∃ done m' x', (place g (at_ g as pre) x).add g m (lift ies) = ok (m', x') ∧ x.add g ies = ok (x'.deref m') ∧
      done <+: ies.filterMap id ∧ (rawEncs g done).length ≤ (encs g bs ++ post).length ∧
      ((rawEncs g (ies.filterMap id)).length ≤ (encs g bs ++ post).length → done = ies.filterMap id) ∧
      m' = pre ++ encs g as ++ enc g x ++ (rawEncs g done ++ (encs g bs ++ post).drop (rawEncs g done).length) := by
  have hwx : Spec.wf g x = true := (wfs_iff g _).mp h.wf x (by simp)
  have he := h.end_le
  have hb := h.before
  have hd := h.behind
  have hm2 : m.length = end_ g as x pre + (encs g bs ++ post).length := by
    have := congrArg List.length hd
    simp only [List.length_drop] at this
    omega
  cases x with
  | mk t n i p cs =>
    have hg := h.grouped
    simp only [IE.typ] at hg
    obtain ⟨hn, hp, hcs⟩ := (wf_grouped g hg).mp hwx
    have ho : at_ g as pre + 4 + p.length = end_ g as (.mk t n i p cs) pre := by
      rw [end_, marshalLen_enc, length_enc, body, if_pos hg, hp]; omega
    obtain ⟨done, p', h1, h2, h3, h4, h5, h6⟩ := radd_view g ies m (at_ g as pre + 4) p.length (places g (at_ g as pre + 4) cs) (by omega)
    rw [ho] at h2 h3 h4 h5
    generalize hm' : m.take (end_ g as (.mk t n i p cs) pre) ++ rawEncs g done ++
      m.drop (end_ g as (.mk t n i p cs) pre + (rawEncs g done).length) = m' at h4 h5
    have hm'' : m' = pre ++ encs g as ++ enc g (.mk t n i p cs) ++
        (rawEncs g done ++ (encs g bs ++ post).drop (rawEncs g done).length) := by
      rw [← hm', hb, ← List.drop_drop, hd]; simp
    have hold : (m.drop (at_ g as pre + 4)).take p.length = p := by
      have := (deref_place g (.mk t n i p cs) (pre ++ encs g as) (encs g bs ++ post) hwx)
      rw [place, RIE.deref, IE.mk.injEq] at this
      have h7 := this.2.2.2.1
      rw [Pay.read, List.length_append, ← marshalLens_encs] at h7
      have e : m = pre ++ encs g as ++ enc g (.mk t n i p cs) ++ (encs g bs ++ post) := by
        rw [h.mem]; simp [encs_append, encs]
      rw [e]; exact h7
    refine ⟨done, m', .mk t (UInt16.ofNat p'.length) i p' (places g (at_ g as pre + 4) cs ++ (ies.filterMap id).map fresh), ?_, ?_, h1,
      by omega, fun hh => h3 (by omega), hm''⟩
    · rw [place, RIE.add, if_pos hg, h4]; rfl
    · rw [add_eq g hg, RIE.deref, h5, h6, hold, derefs_append, derefs_map_fresh]
      have : derefs m' (places g (at_ g as pre + 4) cs) = cs := by
        have := (deref_place g (.mk t n i p cs) (pre ++ encs g as)
          (rawEncs g done ++ (encs g bs ++ post).drop (rawEncs g done).length) hwx)
        rw [place, RIE.deref, IE.mk.injEq] at this
        have h7 := this.2.2.2.2
        rw [List.length_append, ← marshalLens_encs] at h7
        rw [hm'']; exact h7
      rw [this, List.length_append]

/-- C49, the part that holds.  Adding children to a received grouped element gives that element the children and leaves the
elements before it alone.  Those behind it are left alone when the first child does not fit into the octets from there to the end
of the buffer; there are none when the element is the last one.  (Full statement: those behind it are always left alone.) -/
theorem C49_partial {m as x bs pre post} (h : Received g m as x bs pre post) (ies : List (Option IE)) :
    ∃ m' x', (place g (at_ g as pre) x).add g m (lift ies) = ok (m', x') ∧ x.add g ies = ok (x'.deref m') ∧
      derefs m' (places g pre.length as) = as ∧ m'.length = m.length ∧
      ((∀ c ∈ (ies.filterMap id).head?, (encs g bs ++ post).length < c.marshalLen g) → m' = m ∧
        derefs m' (places g (end_ g as x pre) bs) = bs) := by
  obtain ⟨done, m', x', h1, h2, h3, h4, h5, h6⟩ := h.add ies
  have hwa : wfs g as = true := (wfs_iff g _).mpr fun y hy => (wfs_iff g _).mp h.wf y (by simp [hy])
  have hwb : wfs g bs = true := (wfs_iff g _).mpr fun y hy => (wfs_iff g _).mp h.wf y (by simp [hy])
  have e : m = pre ++ encs g as ++ enc g x ++ (encs g bs ++ post) := by rw [h.mem]; simp [encs_append, encs]
  refine ⟨m', x', h1, h2, ?_, ?_, ?_⟩
  · rw [h6]
    have := derefs_places g as pre (enc g x ++ (rawEncs g done ++ (encs g bs ++ post).drop (rawEncs g done).length)) hwa
    simpa using this
  · rw [h6, e]
    simp only [List.length_append, List.length_drop] at h4 ⊢
    omega
  · intro hc
    have hdone : done = [] := by
      cases hd : done with
      | nil => rfl
      | cons c r =>
        exfalso
        rw [hd] at h3 h4
        obtain ⟨q, hq⟩ := h3
        have := hc c (by rw [← hq]; rfl)
        rw [rawEncs, List.length_append, length_rawEnc] at h4
        omega
    have hmm : m' = m := by rw [h6, e, hdone]; simp [rawEncs]
    refine ⟨hmm, ?_⟩
    rw [hmm, e]
    have := derefs_places g bs (pre ++ encs g as ++ enc g x) post hwb
    rw [show (pre ++ encs g as ++ enc g x).length = end_ g as x pre by
      simp [end_, at_, marshalLens_encs, marshalLen_enc]; omega] at this
    simpa using this

/-- C49 fails for every element followed by another one, whenever there is room: with `c` a plain child and `y` the next
element without children, both with a payload, and these payloads differing in their first octet, `y` changes. -/
theorem C49_damages {m as x bs pre post} {tc ic ty iy : UInt8} {nc ny : UInt16} {c0 y0 : UInt8} {pc py : Bytes}
    (h : Received g m as x (.mk ty ny iy (y0 :: py) [] :: bs) pre post) (hc : g tc = false)
    (hne : c0 ≠ y0) (hroom : 4 + (c0 :: pc).length ≤ (encs g (.mk ty ny iy (y0 :: py) [] :: bs) ++ post).length) :
    ∃ m' x', (place g (at_ g as pre) x).add g m (lift [some (.mk tc nc ic (c0 :: pc) [])]) = ok (m', x') ∧
      (place g (end_ g as x pre) (.mk ty ny iy (y0 :: py) [])).deref m ≠
        (place g (end_ g as x pre) (.mk ty ny iy (y0 :: py) [])).deref m' ∧
      (place g (end_ g as x pre) (.mk ty ny iy (y0 :: py) [])).deref m = .mk ty ny iy (y0 :: py) [] := by
  obtain ⟨done, m', x', h1, -, -, -, h5, h6⟩ := h.add [some (.mk tc nc ic (c0 :: pc) [])]
  have hrc : rawEncs g [IE.mk tc nc ic (c0 :: pc) []] = tc :: be16 nc ++ [ic] ++ (c0 :: pc) := by
    simp [rawEncs, rawEnc, hc]
  have hd : done = [.mk tc nc ic (c0 :: pc) []] := h5 (by
    simp only [List.filterMap_cons_some (f := id) rfl, List.filterMap_nil, hrc]
    simp at hroom ⊢; omega)
  have hwy : Spec.wf g (.mk ty ny iy (y0 :: py) []) = true := (wfs_iff g _).mp h.wf _ (by simp)
  have e : m = pre ++ encs g as ++ enc g x ++ (enc g (.mk ty ny iy (y0 :: py) []) ++ (encs g bs ++ post)) := by
    rw [h.mem]; simp [encs_append, encs]
  have hel : (pre ++ encs g as ++ enc g x).length = end_ g as x pre := by
    simp [end_, at_, marshalLens_encs, marshalLen_enc]; omega
  have hsame : (place g (end_ g as x pre) (.mk ty ny iy (y0 :: py) [])).deref m = .mk ty ny iy (y0 :: py) [] := by
    have := deref_place g (.mk ty ny iy (y0 :: py) []) (pre ++ encs g as ++ enc g x) (encs g bs ++ post) hwy
    rw [hel] at this
    rw [e]
    simpa only [List.append_assoc] using this
  refine ⟨m', x', h1, ?_, hsame⟩
  rw [hsame]
  intro hq
  have hq := (IE.mk.inj hq).2.2.2.1
  rw [Pay.read, h6, hd, hrc] at hq
  have : pre ++ encs g as ++ enc g x ++ (tc :: be16 nc ++ [ic] ++ (c0 :: pc) ++
      (encs g (.mk ty ny iy (y0 :: py) [] :: bs) ++ post).drop (tc :: be16 nc ++ [ic] ++ (c0 :: pc)).length) =
      (pre ++ encs g as ++ enc g x ++ (tc :: be16 nc ++ [ic])) ++ (c0 :: (pc ++
      (encs g (.mk ty ny iy (y0 :: py) [] :: bs) ++ post).drop (tc :: be16 nc ++ [ic] ++ (c0 :: pc)).length)) := by simp
  rw [this, List.drop_left' (by simp [← hel]; omega)] at hq
  simp at hq
  exact hne hq.1.symm

/-- elements not received but built by the program share no memory: `Add` leaves the memory alone -/
theorem C49_built (m : Bytes) (x : IE) (ies : List (Option IE)) :
    ∃ x', (fresh x).add g m (lift ies) = ok (m, x') ∧ x.add g ies = ok (x'.deref m) := by
  cases x with
  | mk t n i p cs =>
    by_cases hg : g t = true
    · refine ⟨_, by rw [fresh, RIE.add, if_pos hg, radd_own]; rfl, ?_⟩
      rw [add_eq g hg, RIE.deref, derefs_append, derefs_map_fresh, derefs_freshs]
      rfl
    · exact ⟨fresh (.mk t n i p cs), by simp [fresh, RIE.add, hg], by simp [IE.add, hg, deref_fresh]⟩

/-- A received message with a Bearer Context holding an EBI, followed by a Recovery element: adding a Cause to the Bearer Context
turns the restart counter 7 into the cause value 16. -/
theorem C49_wrong :
    let m : Bytes := [93, 0, 5, 0, 73, 0, 1, 0, 5, 3, 0, 1, 0, 7, 0]
    ∃ bc rec m' bc', rparseMulti defaultGrouped (m.take 14) 0 = ok [bc, rec] ∧ rec.deref m = newIE 3 0 [7] ∧
      bc.add defaultGrouped m (lift [some (newIE 2 0 [16, 0])]) = ok (m', bc') ∧ rec.deref m' = newIE 3 0 [16] := by
  refine ⟨_, _, _, _, rfl, by decide, rfl, by decide⟩

-- non-trivial: the message of `C49_wrong`, and a child that does not fit behind the Bearer Context
example : Received defaultGrouped [93, 0, 5, 0, 73, 0, 1, 0, 5, 3, 0, 1, 0, 7, 0] []
    (.mk 93 5 0 [73, 0, 1, 0, 5] [newIE 73 0 [5]]) [newIE 3 0 [7]] [] [0] := ⟨by decide, by decide, by decide⟩
example : ∃ x', (place defaultGrouped 0 (.mk 93 5 0 [73, 0, 1, 0, 5] [newIE 73 0 [5]])).add defaultGrouped
    [93, 0, 5, 0, 73, 0, 1, 0, 5, 3, 0, 1, 0, 7, 0] (lift [some (newIE 2 0 [16, 0, 0])]) =
    ok ([93, 0, 5, 0, 73, 0, 1, 0, 5, 3, 0, 1, 0, 7, 0], x') ∧
    x'.deref [93, 0, 5, 0, 73, 0, 1, 0, 5, 3, 0, 1, 0, 7, 0] =
      .mk 93 12 0 [73, 0, 1, 0, 5, 2, 0, 3, 0, 16, 0, 0] [newIE 73 0 [5], newIE 2 0 [16, 0, 0]] := ⟨_, rfl, by decide⟩
-- removing from it does not disturb the Recovery behind it
example : ∃ m' x', (place defaultGrouped 0 (.mk 93 5 0 [73, 0, 1, 0, 5] [newIE 73 0 [5]])).remove defaultGrouped
    [93, 0, 5, 0, 73, 0, 1, 0, 5, 3, 0, 1, 0, 7, 0] 73 0 = ok (m', x') ∧ x'.deref m' = .mk 93 0 0 [] [] := ⟨_, _, rfl, by decide⟩

end Verif.V2

namespace Verif.V2
open Res Spec
/-! ### cases that meet the hypotheses -/

theorem aliasEx : Received defaultGrouped [93, 0, 5, 0, 73, 0, 1, 0, 5, 3, 0, 1, 0, 7, 0] []
    (.mk 93 5 0 [73, 0, 1, 0, 5] [newIE 73 0 [5]]) [newIE 3 0 [7]] [] [0] := ⟨by decide, by decide, by decide⟩
example := C49_remove (g := defaultGrouped) [93, 0, 5, 0, 73, 0, 1, 0, 5, 3, 0, 1, 0, 7, 0]
  (place defaultGrouped 0 (.mk 93 5 0 [73, 0, 1, 0, 5] [newIE 73 0 [5]])) 73 0 rfl
example := C49_partial (g := defaultGrouped) aliasEx [some (newIE 2 0 [16, 0, 0]), none]
example := C49_damages (g := defaultGrouped) (tc := 80) (ic := 0) (nc := 1) (c0 := 9) (pc := []) (y0 := 7) (py := []) aliasEx
  (by decide) (by decide) (by decide)
end Verif.V2
