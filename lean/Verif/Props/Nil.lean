import Verif.Proofs.Nil
import Verif.Model.V2Session
/-
C107: an element that is nil counts as left out.  The constructors of elements return nil for values they cannot represent, so that nil
turns up in argument lists and fields.  Model: Model/Nil.lean, `newGrouped` and `IE.add` of Model/V2IE.lean, Model/V2Session.lean.
-/
namespace Verif.Msg
open Res

/-- the arguments without nil -/
def given {ι : Type} (l : List (Option ι)) : List (Option ι) := l.filter Option.isSome

theorem filterMap_given {ι : Type} (l : List (Option ι)) : (given l).filterMap id = l.filterMap id := by
  induction l with
  | nil => rfl
  | cons x l ih => cases x <;> simp [given] at ih ⊢ <;> exact ih

/-- **C107** every constructor of a message puts its arguments into the fields as if the nil ones had not been given (`newFields` is what
`newMessage` of the three versions uses) -/
theorem C107_fields {ι : Type} (io : IEOps ι) (s : Schema) (l : List (Option ι)) :
    classifyN io s l = classifyN io s (given l) ∧ classifyN io s l = newFields io s l := by
  refine ⟨?_, classifyN_eq io s l⟩
  rw [classifyN_eq, classifyN_eq]
  unfold newFields
  rw [filterMap_given]

end Verif.Msg

namespace Verif.V2
open Res Msg

/-- **C107** constructors of messages -/
theorem C107_new (g : UInt8 → Bool) (s : Schema) (teid seq : UInt32) (l : List (Option IE)) :
    newMessage g s teid seq l = newMessage g s teid seq (given l) := by
  unfold newMessage newFields
  rw [filterMap_given]

theorem newGrouped_go (g : UInt8 → Bool) : ∀ (l : List (Option IE)) (p : Bytes) (cs : List IE),
    newGrouped.go g l p cs = newGrouped.go g (given l) p cs
  | [], _, _ => rfl
  | none :: l, p, cs => by
    have : given (none :: l) = given l := rfl
    rw [this, newGrouped.go]
    exact newGrouped_go g l p cs
  | some c :: l, p, cs => by
    have : given (some c :: l) = some c :: given l := rfl
    rw [this, newGrouped.go, newGrouped.go]
    cases c.marshal g <;> simp only [newGrouped_go g l]

theorem add_go (g : UInt8 → Bool) : ∀ (l : List (Option IE)) (p : Bytes) (cs : List IE), IE.add.go g l p cs = IE.add.go g (given l) p cs
  | [], _, _ => rfl
  | none :: l, p, cs => by
    have : given (none :: l) = given l := rfl
    rw [this, IE.add.go]
    exact add_go g l p cs
  | some c :: l, p, cs => by
    have : given (some c :: l) = some c :: given l := rfl
    rw [this, IE.add.go, IE.add.go]
    cases c.marshal g <;> simp only [add_go g l]

/-- **C107** grouped elements: made from elements, and elements added -/
theorem C107_grouped (g : UInt8 → Bool) (t : UInt8) (i : IE) (l : List (Option IE)) :
    newGrouped g t l = newGrouped g t (given l) ∧ i.add g l = i.add g (given l) := by
  refine ⟨?_, ?_⟩
  · unfold newGrouped
    cases newIE t 0 []
    simp only
    rw [newGrouped_go]
  · cases i
    simp only [IE.add]
    rw [add_go]

theorem ieLoop_given (g : UInt8 → Bool) (s b : Nat) : ∀ (l : List (Option IE)) (c : Conn.Conn),
    Conn.ieLoop g s b l c = Conn.ieLoop g s b (given l) c
  | [], _ => rfl
  | none :: l, c => by
    have : given (none :: l) = given l := rfl
    rw [this, Conn.ieLoop]
    exact ieLoop_given g s b l c
  | some i :: l, c => by
    have : given (some i :: l) = some i :: given l := rfl
    rw [this, Conn.ieLoop, Conn.ieLoop, funext (ieLoop_given g s b l)]

/-- **C107** the session and the request that CreateSession makes -/
theorem C107_session (c : Conn.Conn) (g : UInt8 → Bool) (n : UInt32) (s b : Nat) (a : Send.Addr) (l : List (Option IE)) (w : Bool) :
    Conn.parseCreateSession c g s b a l = Conn.parseCreateSession c g s b a (given l) ∧
    Conn.createSession c g n s b a l w = Conn.createSession c g n s b a (given l) w := by
  have h : Conn.parseCreateSession c g s b a l = Conn.parseCreateSession c g s b a (given l) := ieLoop_given g s b l _
  refine ⟨h, ?_⟩
  unfold Conn.createSession
  rw [h, C107_new]

/-- the list fields in which the code looks for nil: AdditionalIEs but in two message types, and IEs of a Generic message -/
def Looked (s : Schema) (f : Nat) : Prop :=
  (s.fields[f]? = some "AdditionalIEs" ∧ s.name ≠ "EchoRequest" ∧ s.name ≠ "CreateSessionResponse") ∨ s.fields[f]? = some "IEs"

instance (s : Schema) (f : Nat) : Decidable (Looked s f) := by unfold Looked; exact inferInstance

theorem looked_table : ∀ s ∈ Tab.all, ∀ f ∈ s.multi,
    (Looked s f → (checks s).len f = true ∧ (checks s).to f = true) ∧ (¬ Looked s f → (checks s).len f = false ∧ f ∈ s.lens) := by
  decide +kernel

theorem scalar_ok (s : Schema) (f : Nat) (h : f ∉ s.multi) : (checks s).len f = true ∧ (checks s).to f = true := by
  simp [checks, checksOf, h]

theorem generic_ok (t : UInt8) (f : Nat) : (f = 0 → (checks (genericSchema t)).len f = true ∧ (checks (genericSchema t)).to f = true) := by
  rintro rfl
  exact ⟨rfl, rfl⟩

/-- **C107** a message some of whose fields are nil, or hold nil among their elements, has the size and goes out with the octets (or the
error) of the message without them, and keeps them; partial: nil entries in list fields only where `Looked`.  `back` puts the header of
the message without nil, which MarshalTo has written to, into the message. -/
theorem C107_sent_partial (g : UInt8 → Bool) (m : NMessage) (hs : m.schema ∈ Tab.all ∨ ∃ t, m.schema = genericSchema t)
    (h : ∀ f ∈ m.schema.multi, none ∈ m.fields f → Looked m.schema f) :
    marshalLenMsgN g m = ok (marshalLen hdrOps (ieOps g) m.strip) ∧ marshalMsgN g m = m.back (marshalMsg g m.strip) ∧
    ∀ b, marshalToMsgN g m b = m.back (marshalTo hdrOps (ieOps g) m.strip b) := by
  have hg : m.Good (checks m.schema) := by
    intro f hn
    rcases Classical.em (f ∈ m.schema.multi) with hf | hf
    · rcases hs with hs | ⟨t, ht⟩
      · exact (looked_table _ hs f hf).1 (h f hf hn)
      · rw [ht] at hf ⊢
        exact generic_ok t f (by simpa [genericSchema] using hf)
    · exact scalar_ok _ f hf
  exact ⟨marshalLenN_ok _ _ _ m fun f _ hn => (hg f hn).1, marshalN_ok _ _ _ m hg, marshalToN_ok _ _ _ m hg⟩

/-- departure: nil in any other list field makes MarshalLen, Marshal and MarshalTo panic, whatever else the message holds -/
theorem C107_sent_wrong (g : UInt8 → Bool) (m : NMessage) (hs : m.schema ∈ Tab.all) (f : Nat) (hf : f ∈ m.schema.multi)
    (hl : ¬ Looked m.schema f) (hn : none ∈ m.fields f) :
    marshalLenMsgN g m = .panic ∧ marshalMsgN g m = .panic ∧ ∀ b, marshalToMsgN g m b = .panic := by
  obtain ⟨h1, h2⟩ := (looked_table _ hs f hf).2 hl
  exact ⟨marshalLenN_bad _ _ _ m f h2 hn h1, marshalN_bad _ _ _ m f h2 hn h1⟩

/-- departure: a Generic message skips nil when it is serialised, and can be made without TEID, but NewGeneric and AddIE panic on nil -/
theorem C107_generic_wrong (g : UInt8 → Bool) (t : UInt8) (teid seq : UInt32) (m : Message) (l : List (Option IE)) (h : none ∈ l) :
    newGeneric g t teid seq l = .panic ∧ addIE g m l = .panic ∧
    marshalMsgN g (newGenericNoTEIDN t teid seq l) =
      (newGenericNoTEIDN t teid seq l).back (marshalMsg g (newGenericNoTEID t teid seq (l.filterMap id))) := by
  have hx : l.all Option.isSome = false := by
    rw [← Bool.not_eq_true, List.all_eq_true]
    exact fun hx => absurd (hx none h) (by simp)
  refine ⟨by simp [newGeneric, hx], by simp [addIE, hx], ?_⟩
  have := (C107_sent_partial g (newGenericNoTEIDN t teid seq l) (Or.inr ⟨t, rfl⟩) (by
    intro f hf _
    have : f = 0 := by simpa [newGenericNoTEIDN, genericSchema] using hf
    subst this
    exact Or.inr rfl)).2.1
  rw [this]
  congr 2
  unfold NMessage.strip newGenericNoTEIDN newGenericNoTEID
  congr 1
  funext f
  by_cases hf : f = 0 <;> simp [hf, upd, Fields.empty]

/-! ### examples -/

-- an APN that cannot be made is left out; a Bearer Context in a list panics
example : newGrouped defaultGrouped 93 [none, some (newIE 73 0 [5]), none] = ok (some (IE.mk 93 5 0 [73, 0, 1, 0, 5] [newIE 73 0 [5]])) := by
  decide +kernel

def exNil : NMessage := ⟨Tab.echoResponse, Header.new 0x40 2 0 7 [], fun f =>
  if f = 0 then [some (newIE 3 0 [9])] else if f = 3 then [none, some (newIE 99 0 [1]), none] else []⟩

example : Tab.echoResponse.fields[3]? = some "AdditionalIEs" ∧ (marshalMsgN defaultGrouped exNil >>= fun r => ok r.2) =
    ok [0x40, 2, 0, 14, 0, 0, 7, 0, 3, 0, 1, 0, 9, 99, 0, 1, 0, 1] := by
  decide +kernel

example : (marshalMsgN defaultGrouped ⟨Tab.echoRequest, Header.new 0x40 1 0 7 [], fun f => if f = 3 then [none] else []⟩) = .panic := by
  refine (C107_sent_wrong _ _ (by simp [Tab.all]) 3 (by decide +kernel) (by decide +kernel) ?_).2.1
  simp

example : ∃ f ∈ Tab.createSessionRequest.multi, ¬ Looked Tab.createSessionRequest f ∧
    Tab.createSessionRequest.fields[f]? = some "BearerContextsToBeCreated" := by decide +kernel

end Verif.V2

namespace Verif.V1
open Res Msg

/-- **C107** constructors of GTPv1 messages -/
theorem C107_new (s : Schema) (teid : UInt32) (seq : UInt16) (l : List (Option TLV.IE)) :
    newMessage s teid seq l = newMessage s teid seq (given l) := by
  unfold newMessage newFields
  rw [filterMap_given]

theorem nil_table : ∀ s ∈ Tab.all, ∀ f ∈ s.multi, (checks s).len f = true ∧ (checks s).to f = true := by decide +kernel

/-- **C107** every GTPv1 message -/
theorem C107_sent (m : NMessage) (hs : m.schema ∈ Tab.all ∨ ∃ t, m.schema = genericSchema t) :
    marshalLenMsgN m = ok (marshalLen hdrOps ieOps m.strip) ∧ marshalMsgN m = m.back (marshalMsg m.strip) ∧
    ∀ b, marshalToMsgN m b = m.back (marshalTo hdrOps ieOps m.strip b) := by
  have hg : m.Good (checks m.schema) := by
    intro f hn
    rcases Classical.em (f ∈ m.schema.multi) with hf | hf
    · rcases hs with hs | ⟨t, ht⟩
      · exact nil_table _ hs f hf
      · rw [ht] at hf ⊢
        have : f = 0 := by simpa [genericSchema] using hf
        subst this
        exact ⟨rfl, rfl⟩
    · simp [checks, checksOf, hf]
  exact ⟨marshalLenN_ok _ _ _ m fun f _ hn => (hg f hn).1, marshalN_ok _ _ _ m hg, marshalToN_ok _ _ _ m hg⟩

-- a GTPv1 Generic message with nil among its elements
example : (marshalMsgN ⟨genericSchema 70, Header.new 0x32 70 1 2 [], fun f => if f = 0 then [none, some (TLV.newIE TLV.v1 14 [9])] else []⟩
    >>= fun r => ok (r.2.drop 12)) = ok [14, 9] := by
  decide +kernel

end Verif.V1

namespace Verif.V0
open Res Msg

/-- **C107** constructors of GTPv0 messages -/
theorem C107_new (s : Schema) (seq label : UInt16) (tid : UInt64) (l : List (Option TLV.IE)) :
    newMessage s seq label tid l = newMessage s seq label tid (given l) := by
  unfold newMessage newFields
  rw [filterMap_given]

theorem nil_table : ∀ s ∈ Tab.all, ∀ f ∈ s.multi, (checks s).len f = true ∧ (checks s).to f = true := by decide +kernel

/-- **C107** every GTPv0 message -/
theorem C107_sent (m : NMessage) (hs : m.schema ∈ Tab.all ∨ ∃ t, m.schema = genericSchema t) :
    marshalLenMsgN m = ok (marshalLen hdrOps ieOps m.strip) ∧ marshalMsgN m = m.back (marshalMsg m.strip) ∧
    ∀ b, marshalToMsgN m b = m.back (marshalTo hdrOps ieOps m.strip b) := by
  have hg : m.Good (checks m.schema) := by
    intro f hn
    rcases Classical.em (f ∈ m.schema.multi) with hf | hf
    · rcases hs with hs | ⟨t, ht⟩
      · exact nil_table _ hs f hf
      · rw [ht] at hf ⊢
        have : f = 0 := by simpa [genericSchema] using hf
        subst this
        exact ⟨rfl, rfl⟩
    · simp [checks, checksOf, hf]
  exact ⟨marshalLenN_ok _ _ _ m fun f _ hn => (hg f hn).1, marshalN_ok _ _ _ m hg, marshalToN_ok _ _ _ m hg⟩

-- an Echo Response of GTPv0 with nil among its additional elements
example : (marshalMsgN ⟨Tab.echoResponse, Header.new 0x1e 2 1 0 0 [], fun f =>
    if f = 0 then [some (TLV.newIE TLV.v0 14 [9])] else if f = 2 then [none] else []⟩ >>= fun r => ok (r.2.drop 20)) = ok [14, 9] := by
  decide +kernel

end Verif.V0

namespace Verif.V2
open Res Msg
/-! ### cases that meet the hypotheses -/

example := C107_sent_partial defaultGrouped exNil (.inl (by show Tab.echoResponse ∈ Tab.all; simp [Tab.all])) (by
  intro f hf _
  have e : Tab.echoResponse.multi = [3] := by decide +kernel
  rw [show exNil.schema = Tab.echoResponse from rfl, e] at hf
  simp at hf; subst hf
  show Looked Tab.echoResponse 3
  decide +kernel)
example := C107_generic_wrong defaultGrouped 240 1 2 (newMessage defaultGrouped (genericSchema 240) 1 2 []) [some (newIE 3 0 [9]), none] (by simp)
end Verif.V2

namespace Verif.V1
open Res Msg

example := C107_sent ⟨genericSchema 70, Header.new 0x32 70 1 2 [], fun f => if f = 0 then [none, some (TLV.newIE TLV.v1 14 [9])] else []⟩
  (.inr ⟨70, rfl⟩)
end Verif.V1

namespace Verif.V0
open Res Msg

example := C107_sent ⟨Tab.echoResponse, Header.new 0x1e 2 1 0 0 [], fun f =>
    if f = 0 then [some (TLV.newIE TLV.v0 14 [9])] else if f = 2 then [none] else []⟩ (.inl (by simp [Tab.all]))
end Verif.V0
