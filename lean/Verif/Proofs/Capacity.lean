import Verif.Model.Capacity
import Verif.Proofs.V2Msg
/-
Helper lemmas for C89: calls that write through slices of a memory, compared with the models that treat a buffer as a list.
-/
namespace Verif.Cap
open Res
variable {α β : Type}

/-- the outcome of a call without its result -/
def fate : Res α → Res Unit
  | ok _ => ok ()
  | err e => err e
  | .panic => .panic
  | .diverge => .diverge

/-- `f`, writing through slice `s`, does what `p` does to a buffer without spare capacity -/
structure SimAt (s : Sl) (m : Bytes) (r : Res α × Bytes) (q : Res (α × Bytes)) : Prop where
  len : r.2.length = m.length
  frame : ∀ i, i < s.off ∨ s.off + s.len ≤ i → r.2[i]? = m[i]?
  out : (∀ a b, q = ok (a, b) → r.1 = ok a ∧ s.view r.2 = b) ∧ (∀ e, q = err e → r.1 = err e) ∧ (q = .panic → r.1 = .panic) ∧
    (q = .diverge → r.1 = .diverge)

def Sim (s : Sl) (f : W α) (p : Bytes → Res (α × Bytes)) : Prop :=
  ∀ m, s.off + s.len ≤ m.length → SimAt s m (f m) (p (s.view m))

/-- the same for calls without a result -/
def lift (r : Res Bytes) : Res (Unit × Bytes) := r >>= fun b => ok ((), b)

theorem view_length {s : Sl} {m : Bytes} (h : s.off + s.len ≤ m.length) : (s.view m).length = s.len := by
  simp [Sl.view]; omega

theorem view_get (s : Sl) (m : Bytes) (i : Nat) : (s.view m)[i]? = if i < s.len then m[s.off + i]? else none := by
  simp only [Sl.view, List.getElem?_take, List.getElem?_drop]

theorem sim_pure (s : Sl) (a : α) : Sim s (W.pure a) (fun b => ok (a, b)) := fun m _ =>
  ⟨rfl, fun _ _ => rfl, by
    refine ⟨fun a' b h => ?_, by simp, by simp, by simp⟩
    simp only [ok.injEq, Prod.mk.injEq] at h
    exact ⟨by rw [← h.1]; rfl, h.2⟩⟩

theorem sim_fail (s : Sl) (e : Err) : Sim (α := α) s (fail e) (fun _ => err e) := fun m _ =>
  ⟨rfl, fun _ _ => rfl, by simp, by rintro e' h; cases h; rfl, by simp, by simp⟩

theorem sim_crash (s : Sl) : Sim (α := α) s crash (fun _ => .panic) := fun m _ =>
  ⟨rfl, fun _ _ => rfl, by simp, by simp, fun _ => rfl, by simp⟩

theorem sim_bind {s : Sl} {f : W α} {k : α → W β} {p : Bytes → Res (α × Bytes)} {q : α → Bytes → Res (β × Bytes)}
    (hf : Sim s f p) (hk : ∀ a, Sim s (k a) (q a)) : Sim s (f >>= k) (fun b => p b >>= fun r => q r.1 r.2) := by
  intro m hm
  obtain ⟨h1, h2, h3, h4, h5, h6⟩ := hf m hm
  show SimAt s m (W.bind f k m) (p (s.view m) >>= fun r => q r.1 r.2)
  unfold W.bind
  cases hp : p (s.view m) with
  | ok r =>
    obtain ⟨a, b⟩ := r
    obtain ⟨ha, hb⟩ := h3 a b hp
    have e : f m = (ok a, (f m).2) := by rw [← ha]
    rw [e]
    have := hk a (f m).2 (by omega)
    rw [hb] at this
    exact ⟨this.1.trans h1, fun i hi => (this.2 i hi).trans (h2 i hi), this.3⟩
  | err e =>
    have e' : f m = (err e, (f m).2) := by rw [← h4 e hp]
    rw [e']
    exact ⟨h1, h2, by simp, by intro e' h; cases h; rfl, by simp, by simp⟩
  | panic =>
    have e' : f m = (.panic, (f m).2) := by rw [← h5 hp]
    rw [e']
    exact ⟨h1, h2, by simp, by simp, fun _ => rfl, by simp⟩
  | diverge =>
    have e' : f m = (.diverge, (f m).2) := by rw [← h6 hp]
    rw [e']
    exact ⟨h1, h2, by simp, by simp, by simp, fun _ => rfl⟩

/-- only buffers of the slice's size matter -/
theorem sim_congr {s : Sl} {f : W α} {p q : Bytes → Res (α × Bytes)} (hf : Sim s f p)
    (h : ∀ b, b.length = s.len → p b = q b) : Sim s f q := fun m hm => by
  rw [← h _ (view_length hm)]; exact hf m hm

theorem sim_seq {s : Sl} {f k : W Unit} {p q : Bytes → Res Bytes}
    (hf : Sim s f (fun b => lift (p b))) (hk : Sim s k (fun b => lift (q b))) :
    Sim s (f >>= fun _ => k) (fun b => lift (p b >>= q)) := by
  refine sim_congr (sim_bind hf fun _ => hk) fun b _ => ?_
  unfold lift
  cases p b <;> rfl

theorem sim_put (s : Sl) (i : Nat) (x : UInt8) : Sim s (put s i x) (fun b => lift (setAt b i x)) := by
  intro m hm
  have hl := view_length hm
  unfold put setAt
  dsimp only
  rw [hl]
  by_cases h : i < s.len
  · rw [if_pos h, if_pos h]
    refine ⟨by simp, fun j hj => ?_, fun a b e => ?_, ?_, ?_, ?_⟩
    · show (m.set (s.off + i) x)[j]? = _
      rw [List.getElem?_set, if_neg (by omega)]
    · simp only [lift, bind_ok, ok.injEq, Prod.mk.injEq] at e
      refine ⟨rfl, ?_⟩
      rw [← e.2]
      refine List.ext_getElem? fun j => ?_
      rw [view_get, List.getElem?_set, List.getElem?_set, hl, view_get]
      by_cases hj : j < s.len
      · rw [if_pos hj, if_pos hj]
        by_cases hij : i = j
        · rw [if_pos (by omega), if_pos (by omega), if_pos hij, if_pos h]
        · rw [if_neg (by omega), if_neg hij]
      · rw [if_neg hj, if_neg hj, if_neg (by omega)]
    all_goals simp [lift]
  · rw [if_neg h, if_neg h]
    exact ⟨rfl, fun _ _ => rfl, by simp [lift], by simp [lift], fun _ => rfl, by simp [lift]⟩

theorem get_copy (m src : Bytes) (o n j : Nat) (h : o + n ≤ m.length) :
    (m.take o ++ src.take n ++ m.drop (o + min n src.length))[j]? =
      if o ≤ j ∧ j < o + min n src.length then src[j - o]? else m[j]? := by
  have h1 : (m.take o).length = o := by simp; omega
  have h2 : (src.take n).length = min n src.length := by simp
  by_cases c1 : j < o
  · rw [if_neg (by omega), List.append_assoc, List.getElem?_append_left (by omega), List.getElem?_take, if_pos c1]
  · by_cases c2 : j < o + min n src.length
    · rw [if_pos (by omega), List.append_assoc, List.getElem?_append_right (by omega), h1,
        List.getElem?_append_left (by omega), List.getElem?_take, if_pos (by omega)]
    · rw [if_neg (by omega), List.getElem?_append_right (by simp; omega), List.getElem?_drop]
      congr 1
      simp only [List.length_append, h1, h2]; omega

theorem sim_cp (s : Sl) (lo hi : Nat) (src : Bytes) (hh : hi ≤ s.len) : Sim s (cp s lo hi src) (fun b => lift (copyAt b lo hi src)) := by
  intro m hm
  have hl := view_length hm
  show SimAt s m (W.bind (sub s lo hi) (fun d => fill d src) m) _
  unfold W.bind sub copyAt
  dsimp only
  rw [hl]
  by_cases h : lo ≤ hi
  · rw [if_pos ⟨h, by omega⟩, if_pos ⟨h, hh⟩]
    have hg : ∀ j, (fill ⟨s.off + lo, hi - lo⟩ src m).2[j]? = _ := fun j => get_copy m src (s.off + lo) (hi - lo) j (by omega)
    refine ⟨?_, fun j hj => ?_, fun a b e => ?_, ?_, ?_, ?_⟩
    · show (m.take (s.off + lo) ++ src.take (hi - lo) ++ m.drop (s.off + lo + min (hi - lo) src.length)).length = _
      simp; omega
    · show (fill ⟨s.off + lo, hi - lo⟩ src m).2[j]? = _
      rw [hg, if_neg (by omega)]
    · simp only [lift, bind_ok, ok.injEq, Prod.mk.injEq] at e
      refine ⟨rfl, ?_⟩
      rw [← e.2]
      refine List.ext_getElem? fun j => ?_
      rw [view_get, get_copy _ _ _ _ _ (by omega)]
      show (if j < s.len then (fill ⟨s.off + lo, hi - lo⟩ src m).2[s.off + j]? else none) = _
      rw [hg, view_get]
      by_cases hj : j < s.len
      · rw [if_pos hj, if_pos hj]
        by_cases hc : lo ≤ j ∧ j < lo + min (hi - lo) src.length
        · rw [if_pos hc, if_pos (by omega)]
          congr 1; omega
        · rw [if_neg hc, if_neg (by omega)]
      · rw [if_neg hj, if_neg hj, if_neg (by omega)]
    all_goals simp [lift]
  · rw [if_neg (by omega), if_neg (by omega)]
    exact ⟨rfl, fun _ _ => rfl, by simp [lift], by simp [lift], fun _ => rfl, by simp [lift]⟩

theorem sim_ite {s : Sl} {c : Prop} [Decidable c] {f k : W α} {p q : Bytes → Res (α × Bytes)} (hf : c → Sim s f p) (hk : ¬ c → Sim s k q) :
    Sim s (if c then f else k) (fun b => if c then p b else q b) := by
  by_cases h : c
  · simp only [if_pos h]; exact hf h
  · simp only [if_neg h]; exact hk h

/-- writing through a part of the slice -/
theorem sim_part {s : Sl} (lo hi : Nat) (hh : hi ≤ s.len) (h : lo ≤ hi) {f : W Unit} {p : Bytes → Res Bytes}
    (hf : Sim ⟨s.off + lo, hi - lo⟩ f (fun b => lift (p b))) : Sim s f (fun b => lift (onSub b lo hi p)) := by
  intro m hm
  have hl := view_length hm
  have hv : (Sl.mk (s.off + lo) (hi - lo)).view m = ((s.view m).drop lo).take (hi - lo) := by
    refine List.ext_getElem? fun j => ?_
    rw [view_get, List.getElem?_take, List.getElem?_drop, view_get]
    by_cases hj : j < hi - lo
    · rw [if_pos hj, if_pos hj, if_pos (by omega), Nat.add_assoc]
    · rw [if_neg hj, if_neg hj]
  obtain ⟨h1, h2, h3, h4, h5, h6⟩ := hf m (by show s.off + lo + (hi - lo) ≤ _; omega)
  have hsub : onSub (s.view m) lo hi p =
      (p ((Sl.mk (s.off + lo) (hi - lo)).view m) >>= fun s' => ok ((s.view m).take lo ++ s' ++ (s.view m).drop hi)) := by
    unfold onSub slice
    rw [hl, if_pos ⟨h, hh⟩, hv]; rfl
  refine ⟨h1, fun i hi' => h2 i (by show i < s.off + lo ∨ s.off + lo + (hi - lo) ≤ i; omega), ?_⟩
  simp only [hsub]
  cases hp : p ((Sl.mk (s.off + lo) (hi - lo)).view m) with
  | ok b =>
    obtain ⟨h7, h8⟩ := h3 () b (by simp [hp, lift])
    refine ⟨fun a b' e => ?_, by simp [lift], by simp [lift], by simp [lift]⟩
    simp only [lift, bind_ok, ok.injEq, Prod.mk.injEq] at e
    refine ⟨h7, ?_⟩
    rw [← e.2, ← h8]
    refine List.ext_getElem? fun j => ?_
    have hlen : ((Sl.mk (s.off + lo) (hi - lo)).view (f m).2).length = hi - lo :=
      view_length (by show s.off + lo + (hi - lo) ≤ _; omega)
    have htl : ((s.view m).take lo).length = lo := by simp [hl]; omega
    rw [view_get]
    by_cases c1 : j < lo
    · rw [if_pos (by omega), List.append_assoc, List.getElem?_append_left (by omega), List.getElem?_take, if_pos c1, view_get,
        if_pos (by omega)]
      exact h2 _ (by show _ < s.off + lo ∨ _; omega)
    · by_cases c2 : j < hi
      · rw [if_pos (by omega), List.append_assoc, List.getElem?_append_right (by omega), List.getElem?_append_left (by omega), htl,
          view_get, if_pos (by show j - lo < hi - lo; omega)]
        show _ = (f m).2[s.off + lo + (j - lo)]?
        congr 1; omega
      · rw [List.getElem?_append_right (by simp only [List.length_append, hlen, htl]; omega), List.getElem?_drop, view_get]
        simp only [List.length_append, hlen, htl]
        rw [show hi + (j - (lo + (hi - lo))) = j by omega]
        by_cases c3 : j < s.len
        · rw [if_pos c3, if_pos c3]
          exact h2 _ (by show _ ∨ s.off + lo + (hi - lo) ≤ _; omega)
        · rw [if_neg c3, if_neg c3]
  | err e =>
    refine ⟨by simp [lift], fun e' h => ?_, by simp [lift], by simp [lift]⟩
    simp only [lift, bind_err, err.injEq] at h
    rw [← h]; exact h4 e (by simp [hp, lift])
  | panic => exact ⟨by simp [lift], by simp [lift], fun _ => h5 (by simp [hp, lift]), by simp [lift]⟩
  | diverge => exact ⟨by simp [lift], by simp [lift], by simp [lift], fun _ => h6 (by simp [hp, lift])⟩

/-! ### the functions of the library -/

theorem sim_of_eq {s : Sl} {f f' : W α} {p : Bytes → Res (α × Bytes)} (h : ∀ m, s.off + s.len ≤ m.length → f m = f' m)
    (hf : Sim s f' p) : Sim s f p := fun m hm => by rw [h m hm]; exact hf m hm

theorem sub_ok {s : Sl} {lo hi : Nat} (h : lo ≤ hi) (hh : hi ≤ s.len) (k : Sl → W α) (m : Bytes) (hm : s.off + s.len ≤ m.length) :
    (sub s lo hi >>= k) m = k ⟨s.off + lo, hi - lo⟩ m := by
  show W.bind (sub s lo hi) k m = _
  unfold W.bind sub
  rw [if_pos ⟨h, by omega⟩]

theorem subFrom_ok {s : Sl} {lo : Nat} (h : lo ≤ s.len) (k : Sl → W α) (m : Bytes) :
    (subFrom s lo >>= k) m = k ⟨s.off + lo, s.len - lo⟩ m := by
  show W.bind (subFrom s lo) k m = _
  unfold W.bind subFrom
  rw [if_pos h]

/-- an element with a two octet length is announced with at least three octets -/
def Sound (c : TLV.Cfg) : Prop := ∀ t, TLV.isTV t = false → c.tvLen t = none

theorem sound_v1 : Sound TLV.v1 := by unfold Sound; apply forall_byte; decide +kernel
theorem sound_v0 : Sound TLV.v0 := by unfold Sound; apply forall_byte; decide +kernel

theorem sim_tlvIE (c : TLV.Cfg) (hs : Sound c) (i : TLV.IE) (s : Sl) : Sim s (tlvIE c i s) (fun b => lift (i.marshalTo c b)) := by
  unfold tlvIE TLV.IE.marshalTo
  by_cases h : s.len < i.marshalLen c
  · rw [if_pos h]
    exact sim_congr (sim_fail s .tooShortMarshal) fun b hb => by rw [if_pos (by omega)]; rfl
  rw [if_neg h]
  refine sim_congr (p := fun b => lift (setAt b 0 i.typ >>= fun b => if c.isEhtl i.typ then (do
    let b ← setAt b 1 (UInt8.ofNat i.length.toNat)
    copyAt b 2 (i.marshalLen c) i.payload) else if !TLV.isTV i.typ then (do
    let b ← copyAt b 1 3 (be16 i.length)
    copyAt b 3 (i.marshalLen c) i.payload) else copyAt b 1 (i.marshalLen c) i.payload)) ?_ fun b hb => by rw [if_neg (by omega)]
  refine sim_seq (sim_put _ _ _) ?_
  by_cases he : c.isEhtl i.typ = true
  · simp only [he, if_true]
    exact sim_seq (sim_put _ _ _) (sim_cp _ _ _ _ (by omega))
  · simp only [he]
    by_cases ht : (!TLV.isTV i.typ) = true
    · simp only [ht, if_true]
      have ht' : TLV.isTV i.typ = false := by simpa using ht
      have h3 : 3 ≤ s.len := by
        unfold TLV.IE.marshalLen at h
        rw [hs _ ht'] at h
        have : ¬ i.typ.toNat < 128 := by simpa [TLV.isTV] using ht'
        simp only [this, if_false, he] at h
        simp at h; omega
      exact sim_seq (sim_cp _ _ _ _ h3) (sim_cp _ _ _ _ (by omega))
    · simp only [ht]
      exact sim_cp _ _ _ _ (by omega)

theorem sim_v1Ext (e : V1.Ext) (s : Sl) : Sim s (v1Ext e s) (fun b => lift (e.marshalTo b)) := by
  unfold v1Ext V1.Ext.marshalTo
  by_cases h : s.len < e.marshalLen
  · rw [if_pos h]
    exact sim_congr (sim_fail s .tooShortMarshal) fun b hb => by rw [if_pos (by omega)]; rfl
  rw [if_neg h]
  refine sim_congr (p := fun b => lift (setAt b 0 e.length >>= fun b => if e.length.toNat = 0 then .panic else
    if s.len < e.length.toNat * 4 - 1 + 1 then err .tooShortMarshal else do
    let b ← copyAt b 1 (e.length.toNat * 4 - 1) e.content
    setAt b (e.length.toNat * 4 - 1) e.next)) ?_ fun b hb => ?_
  · refine sim_seq (sim_put _ _ _) ?_
    by_cases h0 : e.length.toNat = 0
    · simp only [h0, if_true]; exact sim_crash s
    simp only [h0, if_false]
    by_cases h1 : s.len < e.length.toNat * 4 - 1 + 1
    · simp only [h1, if_true]; exact sim_fail s .tooShortMarshal
    simp only [h1, if_false]
    exact sim_seq (sim_cp _ _ _ _ (by omega)) (sim_put _ _ _)
  · rw [if_neg (by omega)]
    unfold setAt
    by_cases h0 : 0 < b.length
    · rw [if_pos h0]; simp only [bind_ok, List.length_set, hb]
    · rw [if_neg h0]; rfl

/-- the rest of the slice -/
theorem onSub_from (b : Bytes) (lo : Nat) (h : lo ≤ b.length) (p : Bytes → Res Bytes) :
    onSub b lo b.length p = (sliceFrom b lo >>= fun s => p s >>= fun s' => ok (b.take lo ++ s')) := by
  unfold onSub slice sliceFrom
  rw [if_pos ⟨h, Nat.le_refl _⟩, if_pos h]
  simp only [bind_ok]
  rw [List.take_of_length_le (by simp)]
  simp

theorem sim_v1Exts : ∀ (es : List V1.Ext) (off : Nat) (s : Sl), Sim s (v1Exts es off s) (V1.Ext.writeAll es off)
  | [], off, s => sim_pure s off
  | e :: es, off, s => by
    unfold v1Exts
    refine sim_congr (p := fun b => sliceFrom b off >>= fun t => e.marshalTo t >>= fun t' =>
      V1.Ext.writeAll es (off + e.marshalLen) (b.take off ++ t')) ?_ fun b _ => rfl
    by_cases h : off ≤ s.len
    · refine sim_of_eq (fun m _ => subFrom_ok h _ m) ?_
      have hd := sim_part off s.len (Nat.le_refl _) h (sim_v1Ext e ⟨s.off + off, s.len - off⟩)
      refine sim_congr (sim_bind hd fun _ => sim_v1Exts es (off + e.marshalLen) s) fun b hb => ?_
      rw [← hb] at h ⊢
      rw [onSub_from _ _ h]
      unfold lift sliceFrom
      rw [if_pos h]
      simp only [bind_ok]
      cases e.marshalTo (b.drop off) <;> rfl
    · intro m hm
      have hl := view_length hm
      have : (subFrom s off >>= fun d => v1Ext e d >>= fun _ => v1Exts es (off + e.marshalLen) s) m = (.panic, m) := by
        show W.bind _ _ m = _
        unfold W.bind subFrom
        rw [if_neg h]
      rw [this]
      unfold sliceFrom
      dsimp only
      rw [if_neg (by omega)]
      exact ⟨rfl, fun _ _ => rfl, by simp, by simp, fun _ => rfl, by simp⟩

theorem sim_opt {s : Sl} {c : Bool} {f : W Unit} {p : Bytes → Res Bytes} (h : Sim s f (fun b => lift (p b))) :
    Sim s (if c then f else W.pure ()) (fun b => lift (if c then p b else ok b)) := by
  cases c
  · exact sim_congr (sim_pure s ()) fun b _ => rfl
  · exact h

theorem sim_fillFrom (s : Sl) (off : Nat) (src : Bytes) :
    Sim s (subFrom s off >>= fun d => fill d src) (fun b => lift (copyFrom b off src)) := by
  unfold copyFrom
  by_cases h : off ≤ s.len
  · refine sim_congr (sim_of_eq (fun m hm => ?_) (sim_cp s off s.len src (Nat.le_refl _))) fun b hb => by rw [hb]
    rw [subFrom_ok h]
    exact (sub_ok h (Nat.le_refl _) (fun d => fill d src) m hm).symm
  · intro m hm
    have hl := view_length hm
    have : (subFrom s off >>= fun d => fill d src) m = (.panic, m) := by
      show W.bind _ _ m = _
      unfold W.bind subFrom
      rw [if_neg h]
    rw [this]
    unfold copyAt
    dsimp only
    rw [if_neg (by omega)]
    exact ⟨rfl, fun _ _ => rfl, by simp [lift], by simp [lift], fun _ => rfl, by simp [lift]⟩

theorem sim_v1Header (h : V1.Header) (s : Sl) : Sim s (v1Header h s) (fun b => lift (h.marshalTo b)) := by
  unfold v1Header V1.Header.marshalTo
  by_cases hl : s.len < h.marshalLen
  · rw [if_pos hl]
    exact sim_congr (sim_fail s .tooShortMarshal) fun b hb => by rw [if_pos (by omega)]; rfl
  rw [if_neg hl]
  refine sim_congr (p := fun b => lift (setAt b 0 h.flags >>= fun b => setAt b 1 h.typ >>= fun b => copyAt b 2 4 (be16 h.length) >>=
    fun b => copyAt b 4 8 (be32 h.teid) >>= fun b => h.putSeq b >>= fun b => h.putNPDU b >>= fun b => h.putNext b >>= fun b =>
    h.putExts (if h.hasSeq || h.hasNPDU || h.hasExt then 12 else 8) b >>= fun r => copyFrom r.2 r.1 h.payload)) ?_
    fun b hb => by rw [if_neg (show ¬ b.length < h.marshalLen by omega)]
  have h8 : 8 ≤ s.len := by unfold V1.Header.marshalLen at hl; omega
  have h12 : h.hasSeq = true → 12 ≤ s.len := fun e => by
    unfold V1.Header.marshalLen at hl; rw [e] at hl; simp at hl; omega
  refine sim_seq (sim_put _ _ _) <| sim_seq (sim_put _ _ _) <| sim_seq (sim_cp _ _ _ _ (by omega)) <|
    sim_seq (sim_cp _ _ _ _ (by omega)) <| sim_seq ?_ <| sim_seq (sim_opt (sim_put _ _ _)) <| sim_seq (sim_opt (sim_put _ _ _)) ?_
  · cases hc : h.hasSeq
    · exact sim_congr (sim_pure s ()) fun b _ => by simp [V1.Header.putSeq, hc, lift]
    · simp only [V1.Header.putSeq, hc, if_true]
      exact sim_cp _ _ _ _ (by have := h12 hc; omega)
  · refine sim_congr (sim_bind (p := h.putExts (if h.hasSeq || h.hasNPDU || h.hasExt then 12 else 8)) ?_
      fun off => sim_fillFrom s off h.payload) fun b _ => ?_
    · unfold V1.Header.putExts
      cases h.hasExt
      · exact sim_pure s _
      · exact sim_v1Exts _ _ _
    · unfold lift
      cases h.putExts (if h.hasSeq || h.hasNPDU || h.hasExt then 12 else 8) b <;> rfl

theorem sim_v0Header (h : V0.Header) (s : Sl) : Sim s (v0Header h s) (fun b => lift (h.marshalTo b)) := by
  unfold v0Header V0.Header.marshalTo
  by_cases hl : s.len < h.marshalLen
  · rw [if_pos hl]
    exact sim_congr (sim_fail s .tooShortMarshal) fun b hb => by rw [if_pos (by omega)]; rfl
  rw [if_neg hl]
  have h8 : 20 ≤ s.len := by unfold V0.Header.marshalLen at hl; omega
  refine sim_congr (p := fun b => lift (setAt b 0 h.flags >>= fun b => setAt b 1 h.typ >>= fun b => copyAt b 2 4 (be16 h.length) >>=
    fun b => copyAt b 4 6 (be16 h.seq) >>= fun b => copyAt b 6 8 (be16 h.label) >>= fun b =>
    copyAt b 8 12 (be32 (UInt32.ofNat (h.sndcp.toNat * 2 ^ 24 + 0xffffff))) >>= fun b => copyAt b 12 20 (be64 h.tid) >>= fun b =>
    copyAt b 20 h.marshalLen h.payload)) ?_
    fun b hb => by rw [if_neg (by omega)]
  exact sim_seq (sim_put _ _ _) <| sim_seq (sim_put _ _ _) <| sim_seq (sim_cp _ _ _ _ (by omega)) <|
    sim_seq (sim_cp _ _ _ _ (by omega)) <| sim_seq (sim_cp _ _ _ _ (by omega)) <| sim_seq (sim_cp _ _ _ _ (by omega)) <|
    sim_seq (sim_cp _ _ _ _ (by omega)) (sim_cp _ _ _ _ (by omega))

variable (g : UInt8 → Bool)

mutual
theorem sim_v2IE : ∀ (x : V2.IE) (s : Sl), Sim s (v2IE g x s) (fun b => lift (x.marshalTo g b))
  | .mk t n i p cs, s => by
    unfold v2IE V2.IE.marshalTo
    by_cases h : s.len < 4
    · rw [if_pos h]
      exact sim_congr (sim_fail s .eof) fun b hb => by rw [if_pos (by omega)]; rfl
    rw [if_neg h]
    refine sim_congr (p := fun b => lift (setAt b 0 t >>= fun b => copyAt b 1 3 (be16 n) >>= fun b => setAt b 3 i >>= fun b =>
      if g t then V2.marshalChildren g cs 4 b else if s.len < (V2.IE.mk t n i p cs).marshalLen g then err .eof else
      copyAt b 4 ((V2.IE.mk t n i p cs).marshalLen g) p)) ?_ fun b hb => ?_
    · refine sim_seq (sim_put _ _ _) <| sim_seq (sim_cp _ _ _ _ (by omega)) <| sim_seq (sim_put _ _ _) ?_
      by_cases ht : g t = true
      · simp only [ht, if_true]
        exact sim_v2Children cs 4 s
      · simp only [ht]
        by_cases hl : s.len < (V2.IE.mk t n i p cs).marshalLen g
        · simp only [hl, if_true]; exact sim_fail s .eof
        · simp only [hl, if_false]; exact sim_cp _ _ _ _ (by omega)
    · rw [if_neg (by omega)]
      have k : ∀ (b' : Bytes), b'.length = s.len → (if b'.length < (V2.IE.mk t n i p cs).marshalLen g then (err .eof : Res Bytes) else
          copyAt b' 4 ((V2.IE.mk t n i p cs).marshalLen g) p) = if s.len < (V2.IE.mk t n i p cs).marshalLen g then err .eof else
          copyAt b' 4 ((V2.IE.mk t n i p cs).marshalLen g) p := fun b' e => by rw [e]
      have hsx : ∀ (b : Bytes) (i : Nat) (x : UInt8) (b' : Bytes), setAt b i x = ok b' → b'.length = b.length := by
        intro b i x b' e
        unfold setAt at e
        split at e
        · cases e; simp
        · cases e
      have hcx : ∀ (b b' src : Bytes) (lo hi : Nat), copyAt b lo hi src = ok b' → b'.length = b.length := by
        intro b b' src lo hi e
        unfold copyAt at e
        split at e
        · cases e; simp; omega
        · cases e
      cases e1 : setAt b 0 t with
      | ok b1 =>
        simp only [bind_ok]
        cases e2 : copyAt b1 1 3 (be16 n) with
        | ok b2 =>
          simp only [bind_ok]
          cases e3 : setAt b2 3 i with
          | ok b3 =>
            simp only [bind_ok]
            have : b3.length = s.len := by rw [hsx _ _ _ _ e3, hcx _ _ _ _ _ e2, hsx _ _ _ _ e1, hb]
            rw [this]
          | err e => rfl
          | panic => rfl
          | diverge => rfl
        | err e => rfl
        | panic => rfl
        | diverge => rfl
      | err e => rfl
      | panic => rfl
      | diverge => rfl
theorem sim_v2Children : ∀ (cs : List V2.IE) (off : Nat) (s : Sl),
    Sim s (v2Children g cs off s) (fun b => lift (V2.marshalChildren g cs off b))
  | [], off, s => by
    unfold v2Children V2.marshalChildren
    exact sim_pure s ()
  | c :: cs, off, s => by
    unfold v2Children V2.marshalChildren
    by_cases h : s.len < off + c.marshalLen g
    · rw [if_pos h]
      exact sim_congr (sim_pure s ()) fun b hb => by rw [if_pos (by omega)]; rfl
    rw [if_neg h]
    refine sim_of_eq (fun m hm => sub_ok (Nat.le_add_right _ _) (by omega) _ m hm) ?_
    have hd := sim_part off (off + c.marshalLen g) (by omega) (Nat.le_add_right _ _)
      (sim_v2IE c ⟨s.off + off, off + c.marshalLen g - off⟩)
    exact sim_congr (sim_seq hd (sim_v2Children cs (off + c.marshalLen g) s)) fun b hb => by rw [if_neg (by omega)]
end

end Verif.Cap
