import Verif.Model.Nil
/-
Helper lemmas for C107: the nil-aware code of Model/Nil.lean against Model/Msg.lean.
-/
namespace Verif.Msg
open Res
variable {ι η : Type}

/-- the message without its nil entries -/
def NMessage.strip (m : NMessage η ι) : Message η ι := ⟨m.schema, m.hdr, fun f => (m.fields f).filterMap id⟩

theorem lenListN_ok (io : IEOps ι) (chk : Bool) : ∀ l : List (Option ι), (none ∈ l → chk = true) →
    lenListN io chk l = ok ((l.filterMap id).map io.mlen).sum
  | [], _ => rfl
  | none :: xs, h => by
    have hc := h List.mem_cons_self
    have ih := lenListN_ok io chk xs fun _ => hc
    simp only [lenListN, hc, if_true]
    rw [← hc, ih]; simp
  | some x :: xs, h => by
    have ih := lenListN_ok io chk xs fun hx => h (List.mem_cons_of_mem _ hx)
    simp [lenListN, ih]

theorem lenListN_bad (io : IEOps ι) : ∀ l : List (Option ι), none ∈ l → lenListN io false l = .panic
  | none :: xs, _ => by simp [lenListN]
  | some x :: xs, h => by
    have ih := lenListN_bad io xs (by simpa using h)
    simp [lenListN, ih]

theorem lenListN_or (io : IEOps ι) (chk : Bool) (l : List (Option ι)) : lenListN io chk l = .panic ∨ ∃ n, lenListN io chk l = ok n := by
  cases chk with
  | true => exact Or.inr ⟨_, lenListN_ok io true l fun _ => rfl⟩
  | false =>
    rcases Classical.em (none ∈ l) with h | h
    · exact Or.inl (lenListN_bad io l h)
    · exact Or.inr ⟨_, lenListN_ok io false l fun h' => absurd h' h⟩

theorem bodyLenN_ok (io : IEOps ι) (ck : Checks) (F : Nat → List (Option ι)) : ∀ fs : List Nat,
    (∀ f ∈ fs, none ∈ F f → ck.len f = true) →
    bodyLenN io ck F fs = ok (fs.map (fun f => (((F f).filterMap id).map io.mlen).sum)).sum
  | [], _ => rfl
  | f :: fs, h => by
    have ih := bodyLenN_ok io ck F fs fun x hx => h x (List.mem_cons_of_mem _ hx)
    simp [bodyLenN, lenListN_ok io (ck.len f) (F f) (h f List.mem_cons_self), ih]

theorem bodyLenN_bad (io : IEOps ι) (ck : Checks) (F : Nat → List (Option ι)) (f : Nat) (hn : none ∈ F f) (hc : ck.len f = false) :
    ∀ fs : List Nat, f ∈ fs → bodyLenN io ck F fs = .panic
  | x :: fs, h => by
    rcases Classical.em (x = f) with e | e
    · subst e; simp [bodyLenN, hc, lenListN_bad io _ hn]
    · have ih := bodyLenN_bad io ck F f hn hc fs (by
        rcases List.mem_cons.1 h with h | h
        · exact absurd h.symm e
        · exact h)
      rcases lenListN_or io (ck.len x) (F x) with h' | ⟨n, h'⟩ <;> simp [bodyLenN, h', ih]

theorem marshalLenN_ok (ho : HdrOps η) (io : IEOps ι) (ck : Checks) (m : NMessage η ι)
    (h : ∀ f ∈ m.schema.lens, none ∈ m.fields f → ck.len f = true) : marshalLenN ho io ck m = ok (marshalLen ho io m.strip) := by
  simp [marshalLenN, bodyLenN_ok io ck m.fields _ h, marshalLen, bodyLen, NMessage.strip]

theorem marshalLenN_bad (ho : HdrOps η) (io : IEOps ι) (ck : Checks) (m : NMessage η ι) (f : Nat) (hf : f ∈ m.schema.lens)
    (hn : none ∈ m.fields f) (hc : ck.len f = false) : marshalLenN ho io ck m = .panic := by
  simp [marshalLenN, bodyLenN_bad io ck m.fields f hn hc _ hf]

theorem writeListN_ok (io : IEOps ι) (adv chk : Bool) : ∀ (l : List (Option ι)) (off : Nat) (b : Bytes), (none ∈ l → chk = true) →
    writeListN io adv chk l off b = writeList io adv (l.filterMap id) off b
  | [], _, _, _ => rfl
  | none :: xs, off, b, h => by
    have hc := h List.mem_cons_self
    have ih := writeListN_ok io adv chk xs off b fun _ => hc
    simp only [writeListN, hc, if_true]
    rw [← hc, ih]; simp
  | some x :: xs, off, b, h => by
    have ih := fun o b => writeListN_ok io adv chk xs o b fun hx => h (List.mem_cons_of_mem _ hx)
    simp [writeListN, writeList, ih]

theorem writeFieldsN_ok (io : IEOps ι) (ck : Checks) (F : Nat → List (Option ι)) : ∀ (es : List Entry) (off : Nat) (b : Bytes),
    (∀ e ∈ es, none ∈ F e.field → ck.to e.field = true) →
    writeFieldsN io ck F es off b = writeFields io (fun f => (F f).filterMap id) es off b
  | [], _, _, _ => rfl
  | e :: es, off, b, h => by
    have ih := fun o b => writeFieldsN_ok io ck F es o b fun x hx => h x (List.mem_cons_of_mem _ hx)
    simp [writeFieldsN, writeFields, writeListN_ok io e.adv (ck.to e.field) (F e.field) off b (h e List.mem_cons_self), ih]

/-- nil entries only where they are checked -/
def NMessage.Good (ck : Checks) (m : NMessage η ι) : Prop := ∀ f, none ∈ m.fields f → ck.len f = true ∧ ck.to f = true

/-- the result of serialising a message without nil, with its fields as they were -/
def NMessage.back (m : NMessage η ι) (r : Res (Message η ι × Bytes)) : Res (NMessage η ι × Bytes) :=
  r >>= fun x => ok ({ m with hdr := x.1.hdr }, x.2)

theorem marshalToN_ok (ho : HdrOps η) (io : IEOps ι) (ck : Checks) (m : NMessage η ι) (h : m.Good ck) (b : Bytes) :
    marshalToN ho io ck m b = m.back (marshalTo ho io m.strip b) := by
  have hl : ∀ m' : NMessage η ι, m'.fields = m.fields → marshalLenN ho io ck m' = ok (marshalLen ho io m'.strip) := fun m' e =>
    marshalLenN_ok ho io ck m' fun f _ hn => (h f (e ▸ hn)).1
  unfold marshalToN marshalTo NMessage.back
  rw [hl m rfl]
  cases hb : m.schema.lenCheck <;> cases hr : m.schema.reset
  all_goals
    simp only [NMessage.strip, hb, hr, hl, Res.bind_ok, if_true, Bool.false_and, Bool.true_and, Bool.false_eq_true, if_false]
    rw [writeFieldsN_ok io ck m.fields _ _ _ fun e _ hn => (h _ hn).2]
    repeat' split
    all_goals first
      | rfl
      | contradiction
      | simp only [bind_panic, bind_err]; done
      | simp only [bind_assoc', bind_ok]

theorem marshalN_ok (ho : HdrOps η) (io : IEOps ι) (ck : Checks) (m : NMessage η ι) (h : m.Good ck) :
    marshalN ho io ck m = m.back (marshal ho io m.strip) := by
  unfold marshalN marshal
  rw [marshalLenN_ok ho io ck m fun f _ hn => (h f hn).1]
  simp only [bind_ok]
  split
  · rfl
  · exact marshalToN_ok ho io ck m h _

theorem marshalN_bad (ho : HdrOps η) (io : IEOps ι) (ck : Checks) (m : NMessage η ι) (f : Nat) (hf : f ∈ m.schema.lens)
    (hn : none ∈ m.fields f) (hc : ck.len f = false) :
    marshalN ho io ck m = .panic ∧ ∀ b, marshalToN ho io ck m b = .panic := by
  have hl : ∀ m' : NMessage η ι, m'.fields = m.fields → m'.schema = m.schema → marshalLenN ho io ck m' = .panic := fun m' e e' =>
    marshalLenN_bad ho io ck m' f (e' ▸ hf) (e ▸ hn) hc
  refine ⟨by simp [marshalN, hl], fun b => ?_⟩
  unfold marshalToN
  rw [hl m rfl rfl]
  cases hb : m.schema.lenCheck <;> cases hr : m.schema.reset <;> simp [hl]

/-- the arguments of a constructor without nil -/
theorem classifyN_eq (io : IEOps ι) (s : Schema) (l : List (Option ι)) : classifyN io s l = newFields io s l := by
  unfold classifyN newFields classify
  generalize (Fields.empty : Fields ι) = F
  induction l generalizing F with
  | nil => rfl
  | cons x l ih => cases x <;> simp [ih]

end Verif.Msg
