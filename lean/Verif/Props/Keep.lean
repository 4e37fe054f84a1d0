import Verif.Proofs.Keep
import Verif.Proofs.Msg
/-
C109: a message that was read and is kept, and the buffer it was read from.  Model: Model/Keep.lean.  In the theorems `d` are the octets
that were read, `m` is what the buffer holds when the program looks at the message.
-/
namespace Verif

namespace Msg
variable {ι : Type}
theorem positions_mem {io : IEOps ι} {P : ι → Prop} : ∀ {xs : List ι} {off : Nat}, (∀ x ∈ xs, P x) → ∀ q ∈ positions io off xs, P q.1
  | [], _, _, q, hq => by simp [positions] at hq
  | x :: xs, off, h, q, hq => by
    rw [positions, List.mem_cons] at hq
    rcases hq with rfl | hq
    · exact h x List.mem_cons_self
    · exact positions_mem (fun y hy => h y (List.mem_cons_of_mem _ hy)) q hq
end Msg

namespace V2
open Res Msg Spec

/-- **C109** (meaning of the model) looked at while the buffer still holds the octets, the message is the one Parse returns according to
Model/V2Msg.lean, on which all other theorems are -/
theorem C109_now (g : UInt8 → Bool) (d post : Bytes) :
    (keepMsg g d >>= fun R => ok (view (mem g) (d ++ post) R)) = parseMsg g d := by
  unfold keepMsg parseMsg
  split
  · rfl
  · cases idx d 1 with
    | err e => rfl
    | panic => rfl
    | diverge => rfl
    | ok t => exact keep_now (memLaws g) (fun m o x => by cases x; rfl) (fun m o x => by cases x; rfl) _ d post

theorem keepMsg_ok {g : UInt8 → Bool} {d : Bytes} {R : Msg.Message Header (IE × Nat)} (h : keepMsg g d = ok R) :
    ∃ t, keep hdrOps (ieOps g) (mem g) (schemaOf t) d = ok R := by
  unfold keepMsg at h
  split at h
  · cases h
  · cases ht : idx d 1 with
    | err e => rw [ht] at h; cases h
    | panic => rw [ht] at h; cases h
    | diverge => rw [ht] at h; cases h
    | ok t => rw [ht] at h; exact ⟨t, h⟩

/-- **C109** a kept message is the same as when it was read exactly if the buffer still holds the octets of the payload where they were:
other octets of the buffer, those of the header among them, may be overwritten; any change in the payload changes the message -/
theorem C109_iff {g : UInt8 → Bool} {d : Bytes} {R : Msg.Message Header (IE × Nat)} (h : keepMsg g d = ok R) (m : Bytes) :
    view (mem g) m R = view (mem g) d R ↔ look m R.hdr.start R.hdr.payload.length = R.hdr.payload := by
  obtain ⟨t, ht⟩ := keepMsg_ok h
  rw [keep_iff (memLaws g) (fun m o x => by cases x; rfl) (fun m o x => by cases x; rfl) ht]
  show ({ R.hdr with payload := look m R.hdr.start R.hdr.payload.length } : Header) = R.hdr ↔ _
  constructor
  · intro e; exact congrArg Header.payload e
  · intro e; rw [e]

theorem seens_length (g : UInt8 → Bool) (m : Bytes) : ∀ (cs : List IE) (off : Nat), (seens g m off cs).length = cs.length
  | [], _ => rfl
  | c :: cs, off => by rw [seens, List.length_cons, List.length_cons, seens_length g m cs]

/-- **C109** whatever the buffer holds, the struct, the flags, type, length, TEID and sequence number of the header stay, and so do the
elements in each field with their types, lengths, instances and numbers of children -/
theorem C109_numbers (g : UInt8 → Bool) (R : Msg.Message Header (IE × Nat)) (m m' : Bytes) :
    (view (mem g) m R).schema = (view (mem g) m' R).schema ∧
    { (view (mem g) m R).hdr with payload := [] } = { (view (mem g) m' R).hdr with payload := [] } ∧
    ∀ f, ((view (mem g) m R).fields f).map (fun x => (x.typ, x.len, x.rawInst, x.children.length)) =
      ((view (mem g) m' R).fields f).map (fun x => (x.typ, x.len, x.rawInst, x.children.length)) := by
  refine ⟨rfl, rfl, fun f => ?_⟩
  simp only [view, List.map_map]
  apply List.map_congr_left
  rintro ⟨⟨t, n, i, p, cs⟩, o⟩ _
  simp [mem, seen, IE.typ, IE.len, IE.rawInst, IE.children, seens_length]

/-- **C109** each element has for payload what the buffer now holds at its place, and is (with its children, at any depth) the same as
when it was read exactly if these octets are -/
theorem C109_element {g : UInt8 → Bool} {d : Bytes} {R : Msg.Message Header (IE × Nat)} (h : keepMsg g d = ok R) {f : Nat} {x : IE} {o : Nat}
    (hx : (x, o) ∈ R.fields f) (m : Bytes) :
    (seen g m o x).payload = look m (o + 4) x.payload.length ∧ seen g d o x = x ∧
    (seen g m o x = x ↔ look m (o + 4) x.payload.length = x.payload) := by
  obtain ⟨t, ht⟩ := keepMsg_ok h
  unfold keep at ht
  cases hp : hdrOps.parse d with
  | err e => rw [hp] at ht; cases ht
  | panic => rw [hp] at ht; cases ht
  | diverge => rw [hp] at ht; cases ht
  | ok hh =>
    rw [hp] at ht
    simp only [Res.bind_ok] at ht
    split at ht
    · cases ht; simp [Fields.empty] at hx
    · cases hm : (ieOps g).parseMulti (hdrOps.payload hh) with
      | err e => rw [hm] at ht; cases ht
      | panic => rw [hm] at ht; cases ht
      | diverge => rw [hm] at ht; cases ht
      | ok xs =>
        rw [hm] at ht; cases ht
        have hw := (wfs_iff g xs).1 ((parseMulti_ok_iff g _ _).1 hm).1
        have w : wf g x = true := classify_mem (ioAt (ieOps g)) _ _ (fun q => wf g q.1 = true) _ (positions_mem hw) f _ hx
        have hd := (memLaws g).hdr hp []
        rw [List.append_nil] at hd
        have es := positions_seen (memLaws g) hm ((memLaws g).pay hp d hd)
        have hs : seen g d o x = x := by
          have key : ∀ (xs : List IE) (off : Nat), (positions (ieOps g) off xs).map (fun p => (mem g).seen d p.2 p.1) = xs →
              ∀ q ∈ positions (ieOps g) off xs, seen g d q.2 q.1 = q.1 := by
            intro xs
            induction xs with
            | nil => intro off _ q hq; simp [positions] at hq
            | cons y ys ih =>
              intro off e q hq
              rw [positions, List.map_cons, List.cons.injEq] at e
              rw [positions, List.mem_cons] at hq
              rcases hq with rfl | hq
              · exact e.1
              · exact ih _ e.2 q hq
          exact classify_mem (ioAt (ieOps g)) _ _ (fun q => seen g d q.2 q.1 = q.1) _ (key xs _ es) f _ hx
        exact ⟨by cases x; rfl, hs, seen_iff g w m o⟩

/-- **C109** departure: a program that reads the next datagram into the same buffer has another message in its hands, as soon as one octet
where the payload was differs -/
theorem C109_reused_wrong {g : UInt8 → Bool} {d next : Bytes} {R : Msg.Message Header (IE × Nat)} (h : keepMsg g d = ok R)
    (hd : look next R.hdr.start R.hdr.payload.length ≠ R.hdr.payload) : view (mem g) next R ≠ view (mem g) d R :=
  fun e => hd ((C109_iff h next).1 e)

/-- an Echo Request with Recovery 7 is read; then one with Recovery 9 into the same buffer: the first now says 9, with its own sequence
number -/
example : (match keepMsg defaultGrouped [0x40, 1, 0, 9, 0, 0, 1, 0, 3, 0, 1, 0, 7] with
    | ok R => ((view (mem defaultGrouped) [0x40, 1, 0, 9, 0, 0, 2, 0, 3, 0, 1, 0, 9] R).fields 0, R.hdr.seq) | _ => default) =
      ([.mk 3 1 0 [9] []], 1) := by decide +kernel

end V2

namespace V1
open Res Msg Spec

/-- the slices of a header: contents of extension headers and payload, each with its place -/
def pieces (h : Header) : List (Nat × Bytes) :=
  let rec go : Nat → List Ext → List (Nat × Bytes)
    | _, [] => []
    | off, e :: es => (off + 1, e.content) :: go (off + e.marshalLen) es
  go h.extsAt h.exts ++ [(h.start, h.payload)]

theorem seenExts_iff (m : Bytes) : ∀ (l : List Ext) (off : Nat),
    seenExts m off l = l ↔ ∀ q ∈ pieces.go off l, look m q.1 q.2.length = q.2
  | [], _ => by simp [seenExts, pieces.go]
  | e :: l, off => by
    rw [seenExts, List.cons.injEq, seenExts_iff m l, pieces.go, List.forall_mem_cons]
    constructor
    · rintro ⟨a, b⟩; exact ⟨congrArg Ext.content a, b⟩
    · rintro ⟨a, b⟩
      exact ⟨by simp only at a; rw [a], b⟩

theorem hseen_iff (h : Header) (m : Bytes) : mem.hseen m h = h ↔ ∀ q ∈ pieces h, look m q.1 q.2.length = q.2 := by
  show ({ h with exts := seenExts m h.extsAt h.exts, payload := look m h.start h.payload.length } : Header) = h ↔ _
  unfold pieces
  rw [List.forall_mem_append, ← seenExts_iff]
  simp only [List.mem_singleton, forall_eq]
  constructor
  · intro e; exact ⟨congrArg Header.exts e, congrArg Header.payload e⟩
  · rintro ⟨a, b⟩; rw [a, b]

/-- **C109** (meaning of the model) as for GTPv2 -/
theorem C109_now (d post : Bytes) : (keepMsg d >>= fun R => ok (R.view (d ++ post))) = parseMsg d := by
  unfold keepMsg parseMsg
  split
  · rfl
  · cases idx d 1 with
    | err e => rfl
    | panic => rfl
    | diverge => rfl
    | ok t =>
      simp only [Res.bind_ok]
      split
      · cases hp : Header.parse d with
        | err e => rfl
        | panic => rfl
        | diverge => rfl
        | ok h => simp only [Res.bind_ok, KeptMsg.view]; rw [hseen_parse hp]
      · rw [← keep_now memLaws (fun m o x => rfl) (fun m o x => rfl) (schemaOf t) d post]
        cases keep hdrOps ieOps mem (schemaOf t) d <;> rfl

/-- **C109** the numbers of a header, and types, lengths and the chain of its extension headers, stay -/
theorem C109_numbers (h : Header) (m : Bytes) :
    { mem.hseen m h with exts := [], payload := [] } = { h with exts := [], payload := [] } ∧
    (mem.hseen m h).exts.map (fun e => (e.typ, e.length, e.next)) = h.exts.map (fun e => (e.typ, e.length, e.next)) := by
  refine ⟨rfl, ?_⟩
  show (seenExts m h.extsAt h.exts).map _ = _
  generalize h.extsAt = off
  generalize h.exts = l
  induction l generalizing off with
  | nil => rfl
  | cons e l ih => rw [seenExts, List.map_cons, List.map_cons, ih]

/-- **C109** GTPv1, T-PDUs included: the same exactly if the buffer still holds the payload and the contents of the extension headers -/
theorem C109_iff {d : Bytes} {R : KeptMsg} (h : keepMsg d = ok R) (m : Bytes) :
    R.view m = R.view d ↔ ∀ q ∈ pieces R.hdr, look m q.1 q.2.length = q.2 := by
  unfold keepMsg at h
  split at h
  · cases h
  · cases ht : idx d 1 with
    | err e => rw [ht] at h; cases h
    | panic => rw [ht] at h; cases h
    | diverge => rw [ht] at h; cases h
    | ok t =>
      rw [ht] at h
      simp only [Res.bind_ok] at h
      split at h
      · cases hp : Header.parse d with
        | err e => rw [hp] at h; cases h
        | panic => rw [hp] at h; cases h
        | diverge => rw [hp] at h; cases h
        | ok hh =>
          rw [hp] at h; cases h
          have e := hseen_parse hp []
          rw [List.append_nil] at e
          simp only [KeptMsg.view, KeptMsg.hdr, AnyMsg.tpdu.injEq]
          rw [e]; exact hseen_iff hh m
      · cases hk : keep hdrOps ieOps mem (schemaOf t) d with
        | err e => rw [hk] at h; cases h
        | panic => rw [hk] at h; cases h
        | diverge => rw [hk] at h; cases h
        | ok K =>
          rw [hk] at h; cases h
          simp only [KeptMsg.view, KeptMsg.hdr, AnyMsg.msg.injEq]
          rw [keep_iff memLaws (fun m o x => rfl) (fun m o x => rfl) hk]
          exact hseen_iff K.hdr m

/-- a T-PDU with payload 1 2 3 is read, 9 9 9 is written over it -/
example : (match keepMsg [0x30, 255, 0, 3, 0, 0, 0, 1, 1, 2, 3] with
    | ok R => (match R.view [0x30, 255, 0, 3, 0, 0, 0, 2, 9, 9, 9] with | .tpdu h => (h.teid, h.payload) | _ => default) | _ => default) =
    (1, [9, 9, 9]) := by decide +kernel

end V1

namespace V0
open Res Msg

/-- **C109** (meaning of the model) as for GTPv2 -/
theorem C109_now (d post : Bytes) : (keepMsg d >>= fun R => ok (R.view (d ++ post))) = parseMsg d := by
  unfold keepMsg parseMsg
  split
  · rfl
  · cases idx d 1 with
    | err e => rfl
    | panic => rfl
    | diverge => rfl
    | ok t =>
      simp only [Res.bind_ok]
      split
      · cases hp : Header.parse d with
        | err e => rfl
        | panic => rfl
        | diverge => rfl
        | ok h => simp only [Res.bind_ok, KeptMsg.view]; rw [hseen_parse hp]
      · rw [← keep_now memLaws (fun m o x => rfl) (fun m o x => rfl) (schemaOf t) d post]
        cases keep hdrOps ieOps mem (schemaOf t) d <;> rfl

/-- **C109** GTPv0, T-PDUs included -/
theorem C109_iff {d : Bytes} {R : KeptMsg} (h : keepMsg d = ok R) (m : Bytes) :
    R.view m = R.view d ↔ look m 20 R.hdr.payload.length = R.hdr.payload := by
  have hs : ∀ hh : Header, mem.hseen m hh = hh ↔ look m 20 hh.payload.length = hh.payload := by
    intro hh
    show ({ hh with payload := look m 20 hh.payload.length } : Header) = hh ↔ _
    constructor
    · intro e; exact congrArg Header.payload e
    · intro e; rw [e]
  unfold keepMsg at h
  split at h
  · cases h
  · cases ht : idx d 1 with
    | err e => rw [ht] at h; cases h
    | panic => rw [ht] at h; cases h
    | diverge => rw [ht] at h; cases h
    | ok t =>
      rw [ht] at h
      simp only [Res.bind_ok] at h
      split at h
      · cases hp : Header.parse d with
        | err e => rw [hp] at h; cases h
        | panic => rw [hp] at h; cases h
        | diverge => rw [hp] at h; cases h
        | ok hh =>
          rw [hp] at h; cases h
          have e := hseen_parse hp []
          rw [List.append_nil] at e
          simp only [KeptMsg.view, KeptMsg.hdr, AnyMsg.tpdu.injEq]
          rw [e]; exact hs hh
      · cases hk : keep hdrOps ieOps mem (schemaOf t) d with
        | err e => rw [hk] at h; cases h
        | panic => rw [hk] at h; cases h
        | diverge => rw [hk] at h; cases h
        | ok K =>
          rw [hk] at h; cases h
          simp only [KeptMsg.view, KeptMsg.hdr, AnyMsg.msg.injEq]
          rw [keep_iff memLaws (fun m o x => rfl) (fun m o x => rfl) hk]
          exact hs K.hdr

end V0

namespace TLV
/-- **C109** elements of GTPv1 and GTPv0: type and length stay, the payload is what the buffer holds at its place -/
theorem C109_element (c : Cfg) (m : Bytes) (o : Nat) (x : IE) :
    (seen c m o x).typ = x.typ ∧ (seen c m o x).length = x.length ∧
    (seen c m o x).payload = look m (o + c.valueAt x.typ) x.payload.length ∧
    (seen c m o x = x ↔ look m (o + c.valueAt x.typ) x.payload.length = x.payload) := by
  refine ⟨rfl, rfl, rfl, ?_⟩
  unfold seen
  constructor
  · intro e; exact congrArg IE.payload e
  · intro e; rw [e]
end TLV
end Verif

namespace Verif
/-! ### cases that meet the hypotheses -/
namespace V2
open Res Msg Spec
def keepEx : Bytes := [0x40, 1, 0, 9, 0, 0, 1, 0, 3, 0, 1, 0, 7]
example := C109_iff (g := defaultGrouped) (d := keepEx) rfl [0x40, 1, 0, 9, 0, 0, 2, 0, 3, 0, 1, 0, 9]
/-- the Recovery element at octet 8 -/
example := C109_element (g := defaultGrouped) (d := keepEx) rfl (f := 0) (x := .mk 3 1 0 [7] []) (o := 8) (.head _)
  [0x40, 1, 0, 9, 0, 0, 2, 0, 3, 0, 1, 0, 9]
example := C109_reused_wrong (g := defaultGrouped) (d := keepEx) (next := [0x40, 1, 0, 9, 0, 0, 2, 0, 3, 0, 1, 0, 9]) rfl
  (by decide +kernel)
end V2
namespace V1
open Res
example := C109_iff (d := [0x30, 255, 0, 3, 0, 0, 0, 1, 1, 2, 3]) rfl [0x30, 255, 0, 3, 0, 0, 0, 2, 9, 9, 9]
end V1
namespace V0
example := C109_iff (d := [0x1e, 1, 0, 0, 0, 1, 0, 2, 0xff, 0xff, 0xff, 0xff, 0, 0, 0, 0, 0, 0, 0, 3]) rfl (List.replicate 30 9)
end V0
namespace TLV
example := C109_element v1 [9, 9, 9, 9, 9, 9, 9] 1 ⟨131, 3, [1, 2, 3]⟩
end TLV
end Verif
