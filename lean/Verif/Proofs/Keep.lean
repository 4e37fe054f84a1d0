import Verif.Model.Keep
import Verif.Proofs.Declare
import Verif.Props.V2Header
import Verif.Props.V1Header
import Verif.Props.V0Msg
import Verif.Proofs.V1IE
/-
Helper lemmas for C109: messages kept while their buffer is used again.
-/
namespace Verif

theorem look_append (pre p post : Bytes) : look (pre ++ p ++ post) pre.length p.length = p := by
  simp [look]

/-- the octets found at a place are there -/
theorem look_split {m p : Bytes} {off : Nat} (h : look m off p.length = p) (h0 : p ≠ []) :
    ∃ pre post, m = pre ++ p ++ post ∧ pre.length = off := by
  have hl : off + p.length ≤ m.length := by
    have e := congrArg List.length h
    simp [look] at e
    have : 0 < p.length := List.length_pos_iff.2 h0
    omega
  refine ⟨m.take off, m.drop (off + p.length), ?_, by simp; omega⟩
  unfold look at h
  rw [List.append_assoc, ← List.drop_drop]
  conv => lhs; rw [← List.take_append_drop off m]
  congr 1
  conv => rhs; lhs; rw [← h]
  exact (List.take_append_drop _ _).symm

namespace Msg
open Res
variable {ι η : Type}

structure MemLaws (ho : HdrOps η) (io : IEOps ι) (mm : Mem η ι) : Prop where
  hdr : ∀ {d : Bytes} {h : η}, ho.parse d = ok h → ∀ post, mm.hseen (d ++ post) h = h
  pay : ∀ {d : Bytes} {h : η}, ho.parse d = ok h → ∀ m, mm.hseen m h = h → look m (mm.start h) (ho.payload h).length = ho.payload h
  elems : ∀ {b : Bytes} {xs : List ι}, io.parseMulti b = ok xs → ∀ pre post,
    (positions io pre.length xs).map (fun p => mm.seen (pre ++ b ++ post) p.2 p.1) = xs
  none : ∀ {xs : List ι}, io.parseMulti [] = ok xs → xs = []

variable {ho : HdrOps η} {io : IEOps ι} {mm : Mem η ι}

/-- the elements are seen as they were when the payload of the header is -/
theorem positions_seen (L : MemLaws ho io mm) {b : Bytes} {xs : List ι} (h : io.parseMulti b = ok xs) {m : Bytes} {off : Nat}
    (hm : look m off b.length = b) : (positions io off xs).map (fun p => mm.seen m p.2 p.1) = xs := by
  by_cases h0 : b = []
  · subst h0; rw [L.none h]; rfl
  · obtain ⟨pre, post, rfl, rfl⟩ := look_split hm h0
    exact L.elems h pre post

theorem view_classify (s : Schema) (h : η) (ps : List (ι × Nat)) (m : Bytes) :
    view mm m ⟨s, h, classify (ioAt io) s.unRules s.unDefault ps⟩ = ⟨s, mm.hseen m h, fun f =>
      (classify (ioAt io) s.unRules s.unDefault ps f).map fun p => mm.seen m p.2 p.1⟩ := rfl

/-- fields as seen, when types and instances are numbers of the structs -/
theorem fields_seen (ht : ∀ m o x, io.typ (mm.seen m o x) = io.typ x) (hi : ∀ m o x, io.inst (mm.seen m o x) = io.inst x)
    (s : Schema) (ps : List (ι × Nat)) (m : Bytes) :
    (fun f => (classify (ioAt io) s.unRules s.unDefault ps f).map fun p => mm.seen m p.2 p.1) =
      classify io s.unRules s.unDefault (ps.map fun p => mm.seen m p.2 p.1) :=
  (classify_map (ioAt io) io (fun p : ι × Nat => mm.seen m p.2 p.1) (fun p => ht m p.2 p.1) (fun p => hi m p.2 p.1) _ _ _).symm

variable (L : MemLaws ho io mm) (ht : ∀ m o x, io.typ (mm.seen m o x) = io.typ x) (hi : ∀ m o x, io.inst (mm.seen m o x) = io.inst x)
include L ht hi

/-- looked at right after reading, the message is what `unmarshal` gives -/
theorem keep_now (s : Schema) (d post : Bytes) :
    (keep ho io mm s d >>= fun R => ok (view mm (d ++ post) R)) = unmarshal ho io s d := by
  unfold keep unmarshal
  cases hp : ho.parse d with
  | err e => rfl
  | panic => rfl
  | diverge => rfl
  | ok h =>
    simp only [Res.bind_ok]
    by_cases hc : (s.early && decide ((ho.payload h).length < 2)) = true
    · rw [if_pos hc, if_pos hc]
      simp only [Res.bind_ok, view]
      rw [L.hdr hp]; rfl
    · rw [if_neg hc, if_neg hc]
      cases hm : io.parseMulti (ho.payload h) with
      | err e => rfl
      | panic => rfl
      | diverge => rfl
      | ok xs =>
        simp only [Res.bind_ok]
        rw [view_classify, fields_seen ht hi, L.hdr hp, positions_seen L hm (L.pay hp _ (L.hdr hp _))]

/-- and the same later exactly if its header is -/
theorem keep_iff {s : Schema} {d : Bytes} {R : Message η (ι × Nat)} (h : keep ho io mm s d = ok R) (m : Bytes) :
    view mm m R = view mm d R ↔ mm.hseen m R.hdr = R.hdr := by
  have hd : mm.hseen d R.hdr = R.hdr := by
    unfold keep at h
    cases hp : ho.parse d with
    | err e => rw [hp] at h; cases h
    | panic => rw [hp] at h; cases h
    | diverge => rw [hp] at h; cases h
    | ok hh =>
      have e := L.hdr hp []
      rw [List.append_nil] at e
      rw [hp] at h
      simp only [Res.bind_ok] at h
      split at h
      · cases h; exact e
      · cases hm : io.parseMulti (ho.payload hh) with
        | err e => rw [hm] at h; cases h
        | panic => rw [hm] at h; cases h
        | diverge => rw [hm] at h; cases h
        | ok xs => rw [hm] at h; cases h; exact e
  constructor
  · intro e
    have e1 : (view mm m R).hdr = (view mm d R).hdr := by rw [e]
    exact e1.trans hd
  · intro e
    unfold keep at h
    cases hp : ho.parse d with
    | err e => rw [hp] at h; cases h
    | panic => rw [hp] at h; cases h
    | diverge => rw [hp] at h; cases h
    | ok hh =>
      rw [hp] at h
      simp only [Res.bind_ok] at h
      split at h
      · cases h
        simp only [view] at e hd ⊢
        rw [e, hd]; rfl
      · cases hm : io.parseMulti (ho.payload hh) with
        | err e => rw [hm] at h; cases h
        | panic => rw [hm] at h; cases h
        | diverge => rw [hm] at h; cases h
        | ok xs =>
          rw [hm] at h; cases h
          simp only at e hd ⊢
          rw [view_classify, view_classify, fields_seen ht hi, fields_seen ht hi, e, hd,
            positions_seen L hm (L.pay hp _ e), positions_seen L hm (L.pay hp _ hd)]

end Msg

/-! ### GTPv2 -/
namespace V2
open Res Msg Spec

mutual
theorem seen_enc (g : UInt8 → Bool) : ∀ (x : IE) (pre post : Bytes), wf g x = true → seen g (pre ++ enc g x ++ post) pre.length x = x
  | .mk t n i p cs, pre, post, h => by
    have hp : enc g (.mk t n i p cs) = (t :: be16 n ++ [i]) ++ p := by rw [enc_of_wf g h]; rfl
    have hpre : pre.length + 4 = (pre ++ (t :: be16 n ++ [i])).length := by simp
    rw [hp, seen, IE.mk.injEq, hpre, ← List.append_assoc pre]
    refine ⟨rfl, rfl, rfl, look_append _ _ _, ?_⟩
    by_cases hg : g t = true
    · obtain ⟨-, h2, h3⟩ := (wf_grouped g hg).mp h
      rw [h2]; exact seens_encs g cs _ post h3
    · obtain ⟨-, rfl⟩ := (wf_plain g hg).mp h
      rfl
theorem seens_encs (g : UInt8 → Bool) : ∀ (cs : List IE) (pre post : Bytes), wfs g cs = true →
    seens g (pre ++ encs g cs ++ post) pre.length cs = cs
  | [], _, _, _ => rfl
  | c :: cs, pre, post, h => by
    simp only [wfs, Bool.and_eq_true] at h
    rw [seens, encs, List.cons.injEq]
    constructor
    · have := seen_enc g c pre (encs g cs ++ post) h.1
      simpa using this
    · have := seens_encs g cs (pre ++ enc g c) post h.2
      rw [List.length_append, ← marshalLen_enc] at this
      simpa using this
end

theorem seens_positions (g : UInt8 → Bool) (m : Bytes) : ∀ (xs : List IE) (off : Nat),
    (positions (ieOps g) off xs).map (fun p => seen g m p.2 p.1) = seens g m off xs
  | [], _ => rfl
  | x :: xs, off => by
    rw [positions, List.map_cons, seens, seens_positions g m xs]; rfl

/-- an element is seen as it was exactly if its payload is -/
theorem seen_iff (g : UInt8 → Bool) {x : IE} (h : wf g x = true) (m : Bytes) (off : Nat) :
    seen g m off x = x ↔ look m (off + 4) x.payload.length = x.payload := by
  obtain ⟨t, n, i, p, cs⟩ := x
  rw [seen, IE.mk.injEq]
  constructor
  · rintro ⟨-, -, -, e, -⟩; exact e
  · intro e
    refine ⟨rfl, rfl, rfl, e, ?_⟩
    by_cases hg : g t = true
    · obtain ⟨-, h2, h3⟩ := (wf_grouped g hg).mp h
      by_cases h0 : p = []
      · cases cs with
        | nil => rfl
        | cons c cs =>
          rw [h0, encs] at h2
          have := congrArg List.length h2
          rw [List.length_append, length_enc] at this
          simp at this
          omega
      · obtain ⟨pre, post, rfl, hl⟩ := look_split e h0
        rw [← hl, h2]
        exact seens_encs g cs pre post h3
    · obtain ⟨-, rfl⟩ := (wf_plain g hg).mp h
      rfl

theorem payload_at {d : Bytes} {h : Header} (hp : Header.parse d = ok h) :
    ∃ pre post, d = pre ++ h.payload ++ post ∧ pre.length = h.start := by
  obtain ⟨tail, e, -⟩ := (C10_parse_total_faithful d).2 h hp
  have hl := length_encH h
  have hh := hasTEID_iff h
  by_cases c : h.flags.toNat / 8 % 2 = 1
  · refine ⟨[h.flags, h.typ] ++ be16 h.length ++ be32 h.teid ++ be24 h.seq ++ [h.spare], tail, ?_, ?_⟩
    · rw [e]; simp [encH, c]
    · rw [Header.start, hh]; simp [c]
  · refine ⟨[h.flags, h.typ] ++ be16 h.length ++ be24 h.seq ++ [h.spare], tail, ?_, ?_⟩
    · rw [e]; simp [encH, c]
    · rw [Header.start, hh]; simp [c]

theorem memLaws (g : UInt8 → Bool) : MemLaws hdrOps (ieOps g) (mem g) where
  hdr := by
    intro d h hp post
    obtain ⟨pre, q, e, hl⟩ := payload_at hp
    show ({ h with payload := look (d ++ post) h.start h.payload.length } : Header) = h
    rw [e, ← hl, List.append_assoc, look_append]
  pay := by
    intro d h _ m e
    exact congrArg Header.payload e
  elems := by
    intro b xs h pre post
    obtain ⟨h1, rfl⟩ := (parseMulti_ok_iff g _ _).1 h
    exact (seens_positions g _ xs _).trans (seens_encs g xs pre post h1)
  none := by
    intro xs h
    have : parseMulti g [] = ok [] := rfl
    rw [show (ieOps g).parseMulti [] = parseMulti g [] from rfl, this] at h
    cases h; rfl

end V2

/-! ### GTPv1 and GTPv0 elements -/
namespace TLV
open Res Msg

theorem valueAt_eq {c : Cfg} {p : Spec.Proto} (A : Agree c p) (t : UInt8) :
    c.valueAt t = if t.toNat < 128 then 1 else if p.short t then 2 else 3 := by
  unfold Cfg.valueAt
  rw [A.short]
  by_cases h : t.toNat < 128
  · have hs : ¬ p.short t = true := fun hs => by have := A.above t hs; omega
    simp [isTV, h, hs]
  · by_cases hs : p.short t = true <;> simp [isTV, h, hs]

theorem enc_split {c : Cfg} {p : Spec.Proto} (A : Agree c p) (x : IE) : ∃ hd : Bytes, Spec.enc p x = hd ++ x.payload ∧ hd.length = c.valueAt x.typ := by
  rw [valueAt_eq A]
  unfold Spec.enc
  split
  · exact ⟨[x.typ], rfl, rfl⟩
  · split
    · exact ⟨[_, _], rfl, rfl⟩
    · exact ⟨[_, _, _], rfl, rfl⟩

theorem seen_enc {c : Cfg} {p : Spec.Proto} (A : Agree c p) (x : IE) (pre post : Bytes) :
    seen c (pre ++ Spec.enc p x ++ post) pre.length x = x := by
  obtain ⟨hd, e, hl⟩ := enc_split A x
  unfold seen
  rw [e, ← hl, ← List.length_append, ← List.append_assoc pre, look_append]

theorem seen_positions {c : Cfg} {p : Spec.Proto} (A : Agree c p) : ∀ (xs : List IE) (pre post : Bytes), (∀ x ∈ xs, Spec.wf p x = true) →
    (positions (ieOps c) pre.length xs).map (fun q => seen c (pre ++ Spec.encs p xs ++ post) q.2 q.1) = xs
  | [], _, _, _ => rfl
  | x :: xs, pre, post, h => by
    have e : Spec.encs p (x :: xs) = Spec.enc p x ++ Spec.encs p xs := rfl
    rw [positions, List.map_cons, List.cons.injEq, e]
    constructor
    · have := seen_enc A x pre (Spec.encs p xs ++ post)
      simpa using this
    · have := seen_positions A xs (pre ++ Spec.enc p x) post (fun y hy => h y (List.mem_cons_of_mem _ hy))
      rw [List.length_append, length_enc A x (h x List.mem_cons_self)] at this
      simpa [ieOps] using this

theorem elems_seen {c : Cfg} {p : Spec.Proto} (A : Agree c p) {b : Bytes} {xs : List IE} (h : parseMulti c b = ok xs) (pre post : Bytes) :
    (positions (ieOps c) pre.length xs).map (fun q => seen c (pre ++ b ++ post) q.2 q.1) = xs := by
  obtain ⟨h1, rfl, -⟩ := (parseMulti_ok_iff A b xs).1 h
  exact seen_positions A xs pre post h1

end TLV

namespace V1
open Res Msg Spec

/-- an extension header whose content fills it -/
theorem encExt_split (e : Ext) (h : (e.content.length + 2) % 4 = 0) :
    encExt e = [UInt8.ofNat (units e)] ++ e.content ++ [e.next] := by
  have : 4 * units e - 2 - e.content.length = 0 := by unfold units; omega
  simp [encExt, this]

theorem seenExts_enc : ∀ (l : List Ext) (pre post : Bytes), (∀ e ∈ l, (e.content.length + 2) % 4 = 0) →
    seenExts (pre ++ (l.map encExt).flatten ++ post) pre.length l = l
  | [], _, _, _ => rfl
  | e :: l, pre, post, h => by
    have he := encExt_split e (h e List.mem_cons_self)
    rw [seenExts, List.cons.injEq]
    constructor
    · have := look_append (pre ++ [UInt8.ofNat (units e)]) e.content ([e.next] ++ (l.map encExt).flatten ++ post)
      simp only [List.length_append, List.length_singleton] at this
      simp only [List.map_cons, List.flatten_cons, he]
      rw [show pre ++ ([UInt8.ofNat (units e)] ++ e.content ++ [e.next] ++ (l.map encExt).flatten) ++ post =
        pre ++ [UInt8.ofNat (units e)] ++ e.content ++ ([e.next] ++ (l.map encExt).flatten ++ post) by simp, this]
    · have := seenExts_enc l (pre ++ encExt e) post (fun x hx => h x (List.mem_cons_of_mem _ hx))
      rw [List.length_append, length_encExt] at this
      simpa using this

theorem extsAt_eq (h : Header) : h.extsAt = 8 + (encOpt h).length := by
  rw [length_encOpt]
  unfold Header.extsAt
  rw [hasSeq_eq, hasNPDU_eq, hasExt_eq]
  cases bit h.flags 0 <;> cases bit h.flags 1 <;> cases bit h.flags 2 <;> rfl

theorem hseen_parse {d : Bytes} {h : Header} (hp : Header.parse d = ok h) (post : Bytes) : mem.hseen (d ++ post) h = h := by
  obtain ⟨a1, a2, a3, a4, a5, a6, a7, a8, a9, a10, a11, a12⟩ := C22_header_faithful d h hp
  have hlen : 8 + (encOpt h).length ≤ h.length.toNat + 8 := by
    have := length_encH' h; omega
  have hd : d = d.take (8 + (encOpt h).length) ++ (encExts h ++ h.payload) ++ d.drop (h.length.toNat + 8) := by
    rw [a12]
    conv => lhs; rw [← List.take_append_drop (h.length.toNat + 8) d, ← List.take_append_drop (8 + (encOpt h).length) (d.take (h.length.toNat + 8))]
    rw [List.take_take, Nat.min_eq_left hlen]
  have hpre : (d.take (8 + (encOpt h).length)).length = h.extsAt := by
    rw [extsAt_eq, List.length_take]; omega
  generalize d.take (8 + (encOpt h).length) = pre at hd hpre
  generalize d.drop (h.length.toNat + 8) = q at hd
  have hexts : encExts h = (h.exts.map encExt).flatten ∧ ∀ e ∈ h.exts, (e.content.length + 2) % 4 = 0 := by
    by_cases c : bit h.flags 2 = true
    · exact ⟨by simp [encExts, c], fun e he => ((a2 c).2 e he).2⟩
    · have := (a3 (by simpa using c)).2
      rw [this]; simp [encExts, c]
  have hst : h.start = (pre ++ encExts h).length := by
    rw [Header.start, List.length_append, hpre, hexts.1, length_encExts]
  have e1 : seenExts (d ++ post) h.extsAt h.exts = h.exts := by
    have := seenExts_enc h.exts pre (h.payload ++ q ++ post) hexts.2
    rw [← hpre, hd, hexts.1]
    simpa using this
  have e2 : look (d ++ post) h.start h.payload.length = h.payload := by
    have := look_append (pre ++ encExts h) h.payload (q ++ post)
    rw [hst, hd]
    simpa using this
  show ({ h with exts := seenExts (d ++ post) h.extsAt h.exts, payload := look (d ++ post) h.start h.payload.length } : Header) = h
  rw [e1, e2]

theorem memLaws : MemLaws hdrOps ieOps mem where
  hdr := fun hp post => hseen_parse hp post
  pay := by
    intro d h _ m e
    exact congrArg Header.payload e
  elems := fun h pre post => TLV.elems_seen TLV.agree_v1 h pre post
  none := by
    intro xs h
    have : TLV.parseMulti TLV.v1 [] = ok [] := rfl
    rw [show ieOps.parseMulti [] = TLV.parseMulti TLV.v1 [] from rfl, this] at h
    cases h; rfl

end V1

namespace V0
open Res Msg

theorem hseen_parse {d : Bytes} {h : Header} (hp : Header.parse d = ok h) (post : Bytes) : mem.hseen (d ++ post) h = h := by
  obtain ⟨a, b, -⟩ := Header.parse_faithful d h hp
  have hd : d = d.take 20 ++ h.payload := by rw [b, List.take_append_drop]
  have hl : (d.take 20).length = 20 := by simp; omega
  generalize d.take 20 = pre at hd hl
  show ({ h with payload := look (d ++ post) 20 h.payload.length } : Header) = h
  rw [hd, ← hl, look_append]

theorem memLaws : MemLaws hdrOps ieOps mem where
  hdr := fun hp post => hseen_parse hp post
  pay := by
    intro d h _ m e
    exact congrArg Header.payload e
  elems := fun h pre post => TLV.elems_seen TLV.agree_v0 h pre post
  none := by
    intro xs h
    have : TLV.parseMulti TLV.v0 [] = ok [] := rfl
    rw [show ieOps.parseMulti [] = TLV.parseMulti TLV.v0 [] from rfl, this] at h
    cases h; rfl

end V0
end Verif
