import Verif.Model.Typed.Reuse
import Verif.Props.Typed.Cramped
import Verif.Proofs.Typed.Decoded
/-
C96: decoding a structure of a composed element into one that has been used before.
-/
namespace Verif.V2
open Res NetIP

/-- **C96**, the structures of which nothing old remains: for every former content the outcome is that of decoding into a fresh one. -/
theorem C96_fresh (b : Bytes) :
    (∀ old, AMBR.into old b = parseAMBR b) ∧ (∀ old, BearerQoS.into old b = parseBearerQoS b) ∧
    (∀ old, FlowQoS.into old b = parseFlowQoS b) ∧ (∀ old, S1UDF.into old b = parseS1UDF b) ∧
    (∀ old, S103.into old b = parseS103 b) ∧ (∀ old, PPP.into old b = parsePPP b) ∧
    (∀ old, PAP.into old b = parsePAP b) ∧ (∀ old, CHAP.into old b = parseCHAP b) ∧
    (∀ old, IPCP.into old b = parseIPCP b) ∧ (∀ old, Comp.into old b = parseComp b) ∧
    (∀ old, Filter.into old b = parseFilter b) ∧ (∀ old, Param.into old b = parseParam b) ∧
    (∀ old, Trace.into old b = parseTrace b) ∧ (∀ old, UCI.into old b = parseUCI b) ∧
    (∀ old spare, GUTI.into old b spare = parseGUTI b spare) ∧ (∀ old, RANNAS.into old b = parseRANNAS b) ∧
    (∀ old, Throttling.into old b = parseThrottling b) := by
  refine ⟨?_, ?_, ?_, ?_, ?_, ?_, ?_, ?_, ?_, ?_, ?_, ?_, ?_, ?_, ?_, ?_, ?_⟩ <;> intros <;> rfl

example : BearerQoS.into ⟨1, 2, 3, 4, 5, 6⟩ (0x7f :: 9 :: List.replicate 20 1) =
    ok ⟨0x7f, 9, 0x0101010101, 0x0101010101, 0x0101010101, 0x0101010101⟩ := by decide

/-! ### F-TEID -/

/-- **C96** for the F-TEID, exact: an address the octets do not carry is the old one. -/
theorem C96_fteid_partial (old : FTEID) (b : Bytes) :
    FTEID.into old b = parseFTEID b >>= fun f => ok { f with v4 := f.v4.or old.v4, v6 := f.v6.or old.v6 } := by
  unfold FTEID.into parseFTEID
  by_cases h5 : b.length < 5
  · rw [if_pos h5, if_pos h5]; rfl
  rw [if_neg h5, if_neg h5]
  cases idx b 0 <;> try rfl
  rename_i x
  simp only [bind_ok]
  cases slice b 1 5 <;> try rfl
  rename_i s
  simp only [bind_ok]
  cases rd32 s <;> try rfl
  rename_i t
  simp only [bind_ok]
  have h6 : ∀ (o f : FTEID) (off : Nat), o.flags = f.flags → f.v6 = none → o = { f with v4 := f.v4.or old.v4, v6 := old.v6 } →
      FTEID.getV6 b o off = FTEID.getV6 b f off >>= fun f => ok { f with v4 := f.v4.or old.v4, v6 := f.v6.or old.v6 } := by
    intro o f off hf hn ho
    subst ho
    unfold FTEID.getV6
    simp only []
    cases has7thBit f.flags
    · simp [hn]
    · simp only [if_true]
      by_cases hl : b.length < off + 16
      · rw [if_pos hl, if_pos hl]; rfl
      rw [if_neg hl, if_neg hl]
      cases slice b off (off + 16) <;> try rfl
      rename_i a
      simp only [bind_ok]
      cases to16 a <;> simp [hn]
  unfold FTEID.getV4
  simp only []
  cases has8thBit (x &&& 0xc0)
  · simp only [Bool.false_eq_true, if_false, bind_ok]
    exact h6 _ _ _ rfl rfl (by simp)
  · simp only [if_true]
    by_cases hl : b.length < 5 + 4
    · rw [if_pos hl, if_pos hl]; rfl
    rw [if_neg hl, if_neg hl]
    cases slice b 5 (5 + 4) <;> try rfl
    rename_i a
    simp only [bind_ok]
    cases to4 a <;> simp only [bind_ok] <;> exact h6 _ _ _ rfl rfl (by simp)

theorem getV4_shape {b : Bytes} {f g : FTEID} {off o : Nat} (hn : f.v4 = none) (h : FTEID.getV4 b f off = ok (g, o)) :
    g = { f with v4 := g.v4 } ∧ ((has8thBit f.flags = true ∧ ∃ v, g.v4 = some v ∧ v.length = 4) ∨
      (has8thBit f.flags = false ∧ g.v4 = none)) := by
  unfold FTEID.getV4 at h
  cases hx : has8thBit f.flags
  · rw [hx] at h; simp only [Bool.false_eq_true, if_false] at h
    cases h
    cases f; simp_all
  · rw [hx] at h
    simp only [if_true] at h
    by_cases hl : b.length < off + 4
    · rw [if_pos hl] at h; cases h
    rw [if_neg hl, slice_of_le (by omega) (by omega)] at h
    have ha : ((b.drop off).take (off + 4 - off)).length = 4 := by simp; omega
    simp only [bind_ok] at h
    rw [show to4 ((b.drop off).take (off + 4 - off)) = some ((b.drop off).take (off + 4 - off)) by unfold to4; rw [if_pos ha]] at h
    cases h
    exact ⟨rfl, .inl ⟨rfl, _, rfl, ha⟩⟩

theorem getV6_shape {b : Bytes} {f g : FTEID} {off : Nat} (hn : f.v6 = none) (h : FTEID.getV6 b f off = ok g) :
    g = { f with v6 := g.v6 } ∧ ((has7thBit f.flags = true ∧ ∃ v, g.v6 = some v ∧ v.length = 16) ∨
      (has7thBit f.flags = false ∧ g.v6 = none)) := by
  unfold FTEID.getV6 at h
  cases hx : has7thBit f.flags
  · rw [hx] at h; simp only [Bool.false_eq_true, if_false] at h
    cases h
    cases f; simp_all
  · rw [hx] at h
    simp only [if_true] at h
    by_cases hl : b.length < off + 16
    · rw [if_pos hl] at h; cases h
    rw [if_neg hl, slice_of_le (by omega) (by omega)] at h
    have ha : ((b.drop off).take (off + 16 - off)).length = 16 := by simp; omega
    simp only [bind_ok] at h
    rw [show to16 ((b.drop off).take (off + 16 - off)) = some ((b.drop off).take (off + 16 - off)) by
      unfold to16; rw [if_neg (by omega), if_pos ha]] at h
    cases h
    exact ⟨rfl, .inl ⟨rfl, _, rfl, ha⟩⟩

theorem parseFTEID_shape {b : Bytes} {f : FTEID} (h : parseFTEID b = ok f) :
    ((has8thBit f.flags = true ∧ ∃ v, f.v4 = some v ∧ v.length = 4) ∨ (has8thBit f.flags = false ∧ f.v4 = none)) ∧
    ((has7thBit f.flags = true ∧ ∃ v, f.v6 = some v ∧ v.length = 16) ∨ (has7thBit f.flags = false ∧ f.v6 = none)) := by
  unfold parseFTEID at h
  by_cases h5 : b.length < 5
  · rw [if_pos h5] at h; cases h
  rw [if_neg h5] at h
  obtain ⟨x, _, h⟩ := bind_eq_ok.1 h
  obtain ⟨s, _, h⟩ := bind_eq_ok.1 h
  obtain ⟨t, _, h⟩ := bind_eq_ok.1 h
  obtain ⟨⟨g, o⟩, hg, h⟩ := bind_eq_ok.1 h
  obtain ⟨e4, h4⟩ := getV4_shape rfl hg
  have hn : g.v6 = none := by rw [e4]
  have hf : g.flags = x &&& 0xc0 := by rw [e4]
  obtain ⟨e6, h6⟩ := getV6_shape hn h
  have hv : f.v4 = g.v4 := by rw [e6]
  have hff : f.flags = g.flags := by rw [e6]
  rw [hv, hff]
  refine ⟨?_, h6⟩
  rw [hf]; exact h4

theorem fteid_head (f : FTEID) {b : Bytes} (h : 5 ≤ b.length) :
    ∃ b' : Bytes, b'.length = b.length ∧ f.marshalTo b = f.putV4 b' 5 >>= fun r => f.putV6 r.1 r.2 := by
  have h1 : setAt b 0 f.ifType = ok (b.set 0 f.ifType) := setAt_of_lt (by omega) _
  have h2 : copyAt (b.set 0 f.ifType) 1 5 (be32 f.teid) = _ := copyAt_ok (by rw [len32]) (by simp; omega)
  refine ⟨_, ?_, by rw [FTEID.marshalTo, if_neg (by omega), h1, bind_ok, h2, bind_ok]⟩
  simp; omega

theorem putV4_some {f : FTEID} {a v b : Bytes} {off : Nat} (ha : f.v4 = some a) (hv : to4 a = some v) (hl : off + 4 ≤ b.length) :
    ∃ b' : Bytes, b'.length = b.length ∧ f.putV4 b off = ok (b', off + 4) := by
  have h4 : v.length = 4 := by
    unfold to4 at hv
    split at hv
    · cases hv; assumption
    · split at hv <;> cases hv
      simp; omega
  have h2 : copyAt (b.set 0 (b[0]'(by omega) ||| 0x80)) off (off + 4) v = _ := copyAt_ok (by rw [h4]) (by simp; omega)
  unfold FTEID.putV4
  rw [ha]
  simp only []
  rw [if_neg (by omega), hv]
  simp only []
  rw [idx_of_lt (by omega), bind_ok, setAt_of_lt (by omega), bind_ok, h2, bind_ok]
  refine ⟨_, ?_, rfl⟩
  simp; omega

theorem putV6_short {f : FTEID} {a b : Bytes} {off : Nat} (ha : f.v6 = some a) (hl : b.length < off + 16) :
    f.putV6 b off = err .eof := by
  unfold FTEID.putV6
  rw [ha]; simp only []; rw [if_pos hl]

theorem putV4_short {f : FTEID} {a b : Bytes} {off : Nat} (ha : f.v4 = some a) (hl : b.length < off + 4) :
    f.putV4 b off = err .eof := by
  unfold FTEID.putV4
  rw [ha]; simp only []; rw [if_pos hl]

/-- **C96** for the F-TEID, serialising it again: with a remaining address `Marshal` fails, with none it gives the octets of what was
decoded. -/
theorem C96_fteid_marshal_partial {old f : FTEID} {b : Bytes} (h4 : ∀ a, old.v4 = some a → (to4 a).isSome) (hp : parseFTEID b = ok f) :
    ∃ f', FTEID.into old b = ok f' ∧ f'.marshal =
      if (f.v4 = none ∧ old.v4 ≠ none) ∨ (f.v6 = none ∧ old.v6 ≠ none) then err .eof else f.marshal := by
  refine ⟨_, by rw [C96_fteid_partial, hp]; rfl, ?_⟩
  obtain ⟨h8, h7⟩ := parseFTEID_shape hp
  have hlen : ∀ x4 x6 : Option Bytes, FTEID.marshalLen { f with v4 := x4, v6 := x6 } = f.marshalLen := fun _ _ => rfl
  have hmar : f.marshalLen = 5 + (if has8thBit f.flags then 4 else 0) + (if has7thBit f.flags then 16 else 0) := rfl
  have hto : ∀ v : Bytes, v.length = 4 → to4 v = some v := fun v hv => by unfold to4; rw [if_pos hv]
  unfold FTEID.marshal
  rw [hlen]
  by_cases s6 : f.v6 = none ∧ old.v6 ≠ none
  · rw [if_pos (.inr s6)]
    obtain ⟨s6, o6⟩ := s6
    obtain ⟨a6, o6⟩ := Option.ne_none_iff_exists'.1 o6
    rcases h7 with ⟨_, _, h7, _⟩ | ⟨h7, -⟩
    · rw [s6] at h7; cases h7
    rw [hmar, h7]
    obtain ⟨c, hc, e⟩ := fteid_head { f with v4 := f.v4.or old.v4, v6 := f.v6.or old.v6 }
      (b := List.replicate (5 + (if has8thBit f.flags then 4 else 0) + (if false = true then 16 else 0)) 0) (by simp)
    rw [e]
    rcases h8 with ⟨h8, v, h8v, hv⟩ | ⟨h8, h8v⟩
    · rw [h8] at hc
      obtain ⟨d, hd, e⟩ := putV4_some (f := { f with v4 := f.v4.or old.v4, v6 := f.v6.or old.v6 }) (a := v) (v := v) (b := c)
        (off := 5) (by simp [h8v]) (hto v hv) (by simp at hc; omega)
      rw [e, bind_ok]
      exact putV6_short (a := a6) (by simp [s6, o6]) (by simp at hc hd ⊢; omega)
    · rw [h8] at hc
      cases o4 : old.v4 with
      | none =>
        rw [show FTEID.putV4 { f with v4 := f.v4.or none, v6 := f.v6.or old.v6 } c 5 = ok (c, 5) by unfold FTEID.putV4; simp [h8v],
          bind_ok]
        exact putV6_short (a := a6) (by simp [s6, o6]) (by simp at hc ⊢; omega)
      | some a =>
        rw [putV4_short (a := a) (by simp [h8v]) (by simp at hc; omega)]; rfl
  · by_cases s4 : f.v4 = none ∧ old.v4 ≠ none
    · rw [if_pos (.inl s4)]
      obtain ⟨s4, o4⟩ := s4
      obtain ⟨a4, o4⟩ := Option.ne_none_iff_exists'.1 o4
      obtain ⟨v, hv⟩ := Option.isSome_iff_exists.1 (h4 a4 o4)
      rcases h8 with ⟨_, _, h8, _⟩ | ⟨h8, -⟩
      · rw [s4] at h8; cases h8
      rw [hmar, h8]
      obtain ⟨c, hc, e⟩ := fteid_head { f with v4 := f.v4.or old.v4, v6 := f.v6.or old.v6 }
        (b := List.replicate (5 + (if false = true then 4 else 0) + (if has7thBit f.flags then 16 else 0)) 0) (by simp)
      rw [e]
      rcases h7 with ⟨h7, w, h7w, hw⟩ | ⟨h7, h7w⟩
      · rw [h7] at hc
        obtain ⟨d, hd, e⟩ := putV4_some (f := { f with v4 := f.v4.or old.v4, v6 := f.v6.or old.v6 }) (a := a4) (v := v) (b := c)
          (off := 5) (by simp [s4, o4]) hv (by simp at hc; omega)
        rw [e, bind_ok]
        exact putV6_short (a := w) (by simp [h7w]) (by simp at hc hd ⊢; omega)
      · rw [h7] at hc
        rw [putV4_short (a := a4) (by simp [s4, o4]) (by simp at hc; omega)]; rfl
    · rw [if_neg (not_or.2 ⟨s4, s6⟩)]
      have e4 : f.v4.or old.v4 = f.v4 := by
        cases h : f.v4 with
        | some _ => rfl
        | none => simpa using Classical.byContradiction fun hn => s4 ⟨h, hn⟩
      have e6 : f.v6.or old.v6 = f.v6 := by
        cases h : f.v6 with
        | some _ => rfl
        | none => simpa using Classical.byContradiction fun hn => s6 ⟨h, hn⟩
      rw [e4, e6]

/- an F-TEID with an IPv4 address decoded into one that had an IPv6 address: `Marshal` fails; written to a buffer with room, the old
IPv6 address and its flag are part of the output -/
example : FTEID.into ⟨0x40, 10, 1, none, some (List.replicate 16 9)⟩ [0x8b, 0, 0, 0, 2, 10, 0, 0, 1] =
      ok ⟨0x80, 11, 2, some [10, 0, 0, 1], some (List.replicate 16 9)⟩ ∧
    FTEID.marshal ⟨0x80, 11, 2, some [10, 0, 0, 1], some (List.replicate 16 9)⟩ = err .eof ∧
    FTEID.marshalTo ⟨0x80, 11, 2, some [10, 0, 0, 1], some (List.replicate 16 9)⟩ (List.replicate 25 0) =
      ok ([0xcb, 0, 0, 0, 2, 10, 0, 0, 1] ++ List.replicate 16 9) := by decide

/-! ### User Location Information -/

theorem keep_area {flag : Bool} {b : Bytes} {off o : Nat} {x : Option Area} (h : getArea flag b off = ok (x, o)) (old : Option Area) :
    keepOld flag x old = x.or old ∧ (flag = x.isSome) := by
  unfold getArea at h
  cases flag
  · simp only [Bool.false_eq_true, if_false] at h
    cases h; exact ⟨rfl, rfl⟩
  · simp only [if_true] at h
    split at h
    · cases h
    obtain ⟨s, _, h⟩ := bind_eq_ok.1 h
    obtain ⟨⟨_, _⟩, _, h⟩ := bind_eq_ok.1 h
    obtain ⟨s, _, h⟩ := bind_eq_ok.1 h
    obtain ⟨_, _, h⟩ := bind_eq_ok.1 h
    obtain ⟨s, _, h⟩ := bind_eq_ok.1 h
    obtain ⟨_, _, h⟩ := bind_eq_ok.1 h
    cases h; exact ⟨rfl, rfl⟩

theorem keep_loc {flag : Bool} {b : Bytes} {off o : Nat} {x : Option Loc} (h : getLoc flag b off = ok (x, o)) (old : Option Loc) :
    keepOld flag x old = x.or old ∧ (flag = x.isSome) := by
  unfold getLoc at h
  cases flag
  · simp only [Bool.false_eq_true, if_false] at h
    cases h; exact ⟨rfl, rfl⟩
  · simp only [if_true] at h
    split at h
    · cases h
    obtain ⟨s, _, h⟩ := bind_eq_ok.1 h
    obtain ⟨⟨_, _⟩, _, h⟩ := bind_eq_ok.1 h
    obtain ⟨s, _, h⟩ := bind_eq_ok.1 h
    obtain ⟨_, _, h⟩ := bind_eq_ok.1 h
    cases h; exact ⟨rfl, rfl⟩

theorem keep_ecgi {flag : Bool} {b : Bytes} {off o : Nat} {x : Option Node} (h : getECGI flag b off = ok (x, o)) (old : Option Node) :
    keepOld flag x old = x.or old ∧ (flag = x.isSome) := by
  unfold getECGI at h
  cases flag
  · simp only [Bool.false_eq_true, if_false] at h
    cases h; exact ⟨rfl, rfl⟩
  · simp only [if_true] at h
    split at h
    · cases h
    obtain ⟨s, _, h⟩ := bind_eq_ok.1 h
    obtain ⟨⟨_, _⟩, _, h⟩ := bind_eq_ok.1 h
    obtain ⟨s, _, h⟩ := bind_eq_ok.1 h
    obtain ⟨_, _, h⟩ := bind_eq_ok.1 h
    cases h; exact ⟨rfl, rfl⟩

theorem keep_enb {flag : Bool} {b : Bytes} {off o : Nat} {x : Option Node} (h : getENB flag b off = ok (x, o)) (old : Option Node) :
    keepOld flag x old = x.or old ∧ (flag = x.isSome) := by
  unfold getENB at h
  cases flag
  · simp only [Bool.false_eq_true, if_false] at h
    cases h; exact ⟨rfl, rfl⟩
  · simp only [if_true] at h
    split at h
    · cases h
    obtain ⟨s, _, h⟩ := bind_eq_ok.1 h
    obtain ⟨⟨_, _⟩, _, h⟩ := bind_eq_ok.1 h
    obtain ⟨s, _, h⟩ := bind_eq_ok.1 h
    cases h; exact ⟨rfl, rfl⟩

/-- **C96** for the User Location Information, exact: a location the octets do not carry is the old one. -/
theorem C96_uli_partial (old : ULI) (b : Bytes) :
    ULI.into old b = parseULI b >>= fun f => ok
      { f with cgi := f.cgi.or old.cgi, sai := f.sai.or old.sai, rai := f.rai.or old.rai, tai := f.tai.or old.tai,
               ecgi := f.ecgi.or old.ecgi, lai := f.lai.or old.lai, menbi := f.menbi.or old.menbi,
               emenbi := f.emenbi.or old.emenbi } := by
  unfold ULI.into parseULI
  by_cases h1 : b.length < 1
  · rw [if_pos h1, if_pos h1]; rfl
  rw [if_neg h1, if_neg h1]
  cases idx b 0 <;> try rfl
  rename_i fl
  simp only [bind_ok]
  cases e1 : getArea (has1stBit fl) b 1 <;> try rfl
  rename_i r1; obtain ⟨x1, o1⟩ := r1
  simp only [bind_ok]
  cases e2 : getArea (has2ndBit fl) b o1 <;> try rfl
  rename_i r2; obtain ⟨x2, o2⟩ := r2
  simp only [bind_ok]
  cases e3 : getArea (has3rdBit fl) b o2 <;> try rfl
  rename_i r3; obtain ⟨x3, o3⟩ := r3
  simp only [bind_ok]
  cases e4 : getLoc (has4thBit fl) b o3 <;> try rfl
  rename_i r4; obtain ⟨x4, o4⟩ := r4
  simp only [bind_ok]
  cases e5 : getECGI (has5thBit fl) b o4 <;> try rfl
  rename_i r5; obtain ⟨x5, o5⟩ := r5
  simp only [bind_ok]
  cases e6 : getLoc (has6thBit fl) b o5 <;> try rfl
  rename_i r6; obtain ⟨x6, o6⟩ := r6
  simp only [bind_ok]
  cases e7 : getENB (has7thBit fl) b o6 <;> try rfl
  rename_i r7; obtain ⟨x7, o7⟩ := r7
  simp only [bind_ok]
  cases e8 : getENB (has8thBit fl) b o7 <;> try rfl
  rename_i r8; obtain ⟨x8, o8⟩ := r8
  simp only [bind_ok]
  rw [(keep_area e1 _).1, (keep_area e2 _).1, (keep_area e3 _).1, (keep_loc e4 _).1, (keep_ecgi e5 _).1, (keep_loc e6 _).1,
    (keep_enb e7 _).1, (keep_enb e8 _).1]

theorem putArea_or {flag : Bool} {x : Option Area} (h : flag = x.isSome) (old : Option Area) (b : Bytes) (off : Nat) :
    putArea flag (x.or old) b off = putArea flag x b off := by
  subst h; cases x <;> rfl
theorem putLoc_or {flag : Bool} {x : Option Loc} (h : flag = x.isSome) (old : Option Loc) (b : Bytes) (off : Nat) :
    putLoc flag (x.or old) b off = putLoc flag x b off := by
  subst h; cases x <;> rfl
theorem putECGI_or {flag : Bool} {x : Option Node} (h : flag = x.isSome) (old : Option Node) (b : Bytes) (off : Nat) :
    putECGI flag (x.or old) b off = putECGI flag x b off := by
  subst h; cases x <;> rfl
theorem putENB_or {flag : Bool} {x : Option Node} (h : flag = x.isSome) (old : Option Node) (b : Bytes) (off : Nat) :
    putENB flag (x.or old) b off = putENB flag x b off := by
  subst h; cases x <;> rfl

/-- **C96** for the User Location Information, serialising it again: the old locations are not written. -/
theorem C96_uli_marshal {old f : ULI} {b : Bytes} (hp : parseULI b = ok f) :
    ∃ f', ULI.into old b = ok f' ∧ f'.marshal = f.marshal ∧ ∀ buf, f'.marshalTo buf = f.marshalTo buf := by
  refine ⟨_, by rw [C96_uli_partial, hp]; rfl, ?_⟩
  suffices h : ∀ buf, ULI.marshalTo { f with
      cgi := f.cgi.or old.cgi, sai := f.sai.or old.sai, rai := f.rai.or old.rai, tai := f.tai.or old.tai,
      ecgi := f.ecgi.or old.ecgi, lai := f.lai.or old.lai, menbi := f.menbi.or old.menbi,
      emenbi := f.emenbi.or old.emenbi } buf = f.marshalTo buf from ⟨h _, h⟩
  intro buf
  unfold parseULI at hp
  by_cases h1 : b.length < 1
  · rw [if_pos h1] at hp; cases hp
  rw [if_neg h1] at hp
  obtain ⟨fl, _, hp⟩ := bind_eq_ok.1 hp
  obtain ⟨⟨x1, o1⟩, e1, hp⟩ := bind_eq_ok.1 hp
  obtain ⟨⟨x2, o2⟩, e2, hp⟩ := bind_eq_ok.1 hp
  obtain ⟨⟨x3, o3⟩, e3, hp⟩ := bind_eq_ok.1 hp
  obtain ⟨⟨x4, o4⟩, e4, hp⟩ := bind_eq_ok.1 hp
  obtain ⟨⟨x5, o5⟩, e5, hp⟩ := bind_eq_ok.1 hp
  obtain ⟨⟨x6, o6⟩, e6, hp⟩ := bind_eq_ok.1 hp
  obtain ⟨⟨x7, o7⟩, e7, hp⟩ := bind_eq_ok.1 hp
  obtain ⟨⟨x8, o8⟩, e8, hp⟩ := bind_eq_ok.1 hp
  cases hp
  unfold ULI.marshalTo
  simp only [putArea_or (keep_area e1 none).2, putArea_or (keep_area e2 none).2, putArea_or (keep_area e3 none).2,
    putLoc_or (keep_loc e4 none).2, putECGI_or (keep_ecgi e5 none).2, putLoc_or (keep_loc e6 none).2,
    putENB_or (keep_enb e7 none).2, putENB_or (keep_enb e8 none).2]

example : ULI.into ⟨0x01, some ⟨[49], [50], 1, 2⟩, none, none, none, none, none, none, none⟩ [0x08, 0x00, 0xf1, 0x10, 0, 7] =
    ok ⟨0x08, some ⟨[49], [50], 1, 2⟩, none, none, some ⟨[48, 48, 49], [48, 49], 7⟩, none, none, none, none⟩ := by decide

/-! ### PDN Address Allocation -/

/-- **C96** for the PDN Address Allocation, exact: what the type of the octets does not announce is the old one. -/
theorem C96_paa_partial (old : PAA) (b : Bytes) :
    PAA.into old b = parsePAA b >>= fun f => ok
      { f with v4 := if f.pdnType = 1 ∨ f.pdnType = 3 then f.v4 else old.v4,
               prefixLen := if f.pdnType = 2 ∨ f.pdnType = 3 then f.prefixLen else old.prefixLen,
               v6 := if f.pdnType = 2 ∨ f.pdnType = 3 then f.v6 else old.v6 } := by
  unfold PAA.into parsePAA
  by_cases h1 : b.length < 1
  · rw [if_pos h1, if_pos h1]; rfl
  rw [if_neg h1, if_neg h1]
  cases idx b 0 <;> try rfl
  rename_i x
  simp only [bind_ok]
  generalize x &&& 7 = t
  by_cases t1 : t = 1
  · subst t1
    simp only [if_true]
    split
    · rfl
    · cases slice b 1 5 <;> rfl
  rw [if_neg t1, if_neg t1]
  by_cases t2 : t = 2
  · subst t2
    simp only [if_true]
    split
    · rfl
    · cases idx b 1 <;> try rfl
      simp only [bind_ok]
      cases slice b 2 18 <;> rfl
  rw [if_neg t2, if_neg t2]
  by_cases t3 : t = 3
  · subst t3
    simp only [if_true]
    split
    · rfl
    · cases idx b 1 <;> try rfl
      simp only [bind_ok]
      cases slice b 2 18 <;> try rfl
      simp only [bind_ok]
      cases slice b 18 22 <;> rfl
  rw [if_neg t3, if_neg t3]
  simp [t1, t2, t3]

/-- **C96** for the PDN Address Allocation, serialising it again: the old addresses are not written. -/
theorem C96_paa_marshal {old f : PAA} {b : Bytes} (hp : parsePAA b = ok f) :
    ∃ f', PAA.into old b = ok f' ∧ f'.marshal = f.marshal ∧ ∀ buf, f'.marshalTo buf = f.marshalTo buf := by
  refine ⟨_, by rw [C96_paa_partial, hp]; rfl, ?_⟩
  have h : ∀ buf, PAA.marshalTo
      { f with v4 := if f.pdnType = 1 ∨ f.pdnType = 3 then f.v4 else old.v4,
               prefixLen := if f.pdnType = 2 ∨ f.pdnType = 3 then f.prefixLen else old.prefixLen,
               v6 := if f.pdnType = 2 ∨ f.pdnType = 3 then f.v6 else old.v6 } buf = f.marshalTo buf := by
    intro buf
    obtain ⟨t, v4, p, v6⟩ := f
    unfold PAA.marshalTo
    simp only
    by_cases t1 : t = 1
    · subst t1; rfl
    by_cases t2 : t = 2
    · subst t2; rfl
    by_cases t3 : t = 3
    · subst t3; rfl
    simp [t1, t2, t3]
  exact ⟨h _, h⟩

example : PAA.into ⟨2, [], 64, List.replicate 16 9⟩ [1, 10, 0, 0, 1] = ok ⟨1, [10, 0, 0, 1], 64, List.replicate 16 9⟩ := by decide

/-! ### Paging and Service Information -/

/-- **C96** for Paging and Service Information, exact: the policy the octets do not carry is the old one. -/
theorem C96_paging_partial (old : Paging) (b : Bytes) :
    Paging.into old b = parsePaging b >>= fun f => ok { f with ppi := if has1stBit f.flags then f.ppi else old.ppi } := by
  unfold Paging.into parsePaging
  by_cases h2 : b.length < 2
  · rw [if_pos h2, if_pos h2]; rfl
  rw [if_neg h2, if_neg h2]
  cases idx b 0 <;> try rfl
  rename_i x
  simp only [bind_ok]
  cases hx : has1stBit x
  · simp [hx]
  · simp only [if_true]
    split
    · rfl
    · cases idx b 2 <;> simp [hx]

/-- **C96** for Paging and Service Information, serialising it again: the old policy is not written. -/
theorem C96_paging_marshal {old f : Paging} {b : Bytes} (hp : parsePaging b = ok f) :
    ∃ f', Paging.into old b = ok f' ∧ f'.marshal = f.marshal ∧ ∀ buf, f'.marshalTo buf = f.marshalTo buf := by
  refine ⟨_, by rw [C96_paging_partial, hp]; rfl, ?_⟩
  have h : ∀ buf, Paging.marshalTo { f with ppi := if has1stBit f.flags then f.ppi else old.ppi } buf = f.marshalTo buf := by
    intro buf
    unfold Paging.marshalTo
    simp only
    cases has1stBit f.flags <;> rfl
  exact ⟨h _, h⟩

example : Paging.into ⟨5, 1, 0x2a⟩ [0x06, 0] = ok ⟨6, 6, 0x2a⟩ := by decide

/-! ### containers of Protocol Configuration Options -/

/-- **C96** for the containers, of GTPv2 and of GTPv1, exact: if the octets carry no contents, or not all of them, the old contents
remain. -/
theorem C96_container_partial (old : Container) (b : Bytes) :
    Container.into old b = parseContainer b >>= fun c =>
      ok { c with contents := if c.len ≠ 0 ∧ 3 + c.len.toNat ≤ b.length then c.contents else old.contents } := by
  unfold Container.into parseContainer
  by_cases h3 : b.length < 3
  · rw [if_pos h3, if_pos h3]; rfl
  rw [if_neg h3, if_neg h3]
  cases slice b 0 2 <;> try rfl
  rename_i s
  simp only [bind_ok]
  cases rd16 s <;> try rfl
  rename_i t
  simp only [bind_ok]
  cases idx b 2 <;> try rfl
  rename_i n
  simp only [bind_ok]
  by_cases hn : n ≠ 0 ∧ 3 + n.toNat ≤ b.length
  · rw [if_pos hn, if_pos hn]
    cases slice b 3 (3 + n.toNat) <;> try rfl
    simp only [bind_ok]
    rw [if_pos hn]
  · rw [if_neg hn, if_neg hn]
    simp only [bind_ok]
    rw [if_neg hn]

theorem container_marshal (c : Container) : c.marshalTo (List.replicate c.marshalLen 0) =
    ok (be16 c.ident ++ [c.len] ++ if c.len ≠ 0 then c.contents else List.replicate c.contents.length 0) := by
  unfold Container.marshalTo Container.marshalLen
  rw [show List.replicate (3 + c.contents.length) (0 : UInt8) = [] ++ ([0, 0, 0] ++ List.replicate c.contents.length 0) by
    rw [show 3 + c.contents.length = c.contents.length + 1 + 1 + 1 by omega]; rfl]
  rw [copyAt_append (by rfl) (by rfl) (by simp)]
  simp only [bind_ok, List.nil_append, len16]
  rw [setAt_append (by rfl) (by simp)]
  simp only [bind_ok]
  by_cases h0 : c.len ≠ 0
  · rw [if_pos h0, if_pos h0]
    rw [copyFrom_append (by rfl) (by simp)]
    simp
  · rw [if_neg h0, if_neg h0]
    simp

/-- **C96** for the containers, serialising one again: old contents are part of the length, and they are written if the length octet
is not zero. -/
theorem C96_container_marshal_partial {old c : Container} {b : Bytes} (hp : parseContainer b = ok c)
    (hn : ¬(c.len ≠ 0 ∧ 3 + c.len.toNat ≤ b.length)) :
    ∃ c', Container.into old b = ok c' ∧ c'.marshalTo (List.replicate c'.marshalLen 0) =
      ok (be16 c.ident ++ [c.len] ++ if c.len = 0 then List.replicate old.contents.length 0 else old.contents) := by
  refine ⟨_, by rw [C96_container_partial, hp]; rfl, ?_⟩
  rw [container_marshal]
  simp only [if_neg hn]
  by_cases h0 : c.len = 0
  · rw [if_neg (by simp [h0]), if_pos h0]
  · rw [if_pos h0, if_neg h0]

example : Container.into ⟨0x8021, 2, [7, 8]⟩ [0x00, 0x0d, 0x00] = ok ⟨0x0d, 0, [7, 8]⟩ ∧
    Container.marshalTo ⟨0x0d, 0, [7, 8]⟩ (List.replicate 5 0) = ok [0x00, 0x0d, 0x00, 0, 0] := by decide

/-! ### Protocol Configuration Options -/

/-- **C96** for Protocol Configuration Options, exact: the containers of the octets are appended to the old ones. -/
theorem C96_pco_partial (old : PCO) (b : Bytes) :
    PCO.into old b = parsePCO b >>= fun f => ok { f with opts := old.opts ++ f.opts } := by
  unfold PCO.into parsePCO
  by_cases h1 : b.length < 1
  · rw [if_pos h1, if_pos h1]; rfl
  rw [if_neg h1, if_neg h1]
  cases idx b 0 <;> try rfl
  simp only [bind_ok]
  cases getContainers b (b.length + 1) 1 <;> rfl

/-- **C96** for Protocol Configuration Options, serialising them again: the old containers are sent along, before those decoded. -/
theorem C96_pco_marshal_partial {old f : PCO} {b : Bytes} (hp : parsePCO b = ok f) (h : ∀ c ∈ old.opts ++ f.opts, ContainerOK c) :
    ∃ f', PCO.into old b = ok f' ∧
      f'.marshal = ok ([(f.proto &&& 7) ||| 0x80] ++ encContainers old.opts ++ encContainers f.opts) := by
  refine ⟨_, by rw [C96_pco_partial, hp]; rfl, ?_⟩
  have := (pco_writes f.proto h).marshal (n := PCO.marshalLen { f with opts := old.opts ++ f.opts })
    (by simp only [PCO.marshalLen, sum_containers]; simp; omega)
  rw [show encContainers (old.opts ++ f.opts) = encContainers old.opts ++ encContainers f.opts by simp [encContainers],
    ← List.append_assoc] at this
  exact this

example : PCO.into ⟨1, 0, [newContainer 0x0d []]⟩ [0x80, 0x00, 0x0a, 0x00] =
    ok ⟨1, 0, [newContainer 0x0d [], newContainer 0x0a []]⟩ := by decide

/-! ### Fully Qualified CSID -/

/-- **C96** for the FQ-CSID, exact: the CSIDs of the octets are appended to the old ones, the number is that of the octets. -/
theorem C96_csid_partial (old : CSID) (b : Bytes) :
    CSID.into old b = parseCSID b >>= fun f => ok { f with ids := old.ids ++ f.ids } := by
  unfold CSID.into parseCSID
  by_cases h1 : b.length < 1
  · rw [if_pos h1, if_pos h1]; rfl
  rw [if_neg h1, if_neg h1]
  cases idx b 0 <;> try rfl
  rename_i x
  simp only [bind_ok]
  split
  · split
    · rfl
    · cases slice b 1 5 <;> try rfl
      simp only [bind_ok]
      cases getCSIDs (b.length + 1) b 5 <;> rfl
  · split
    · split
      · rfl
      · cases slice b 1 17 <;> try rfl
        simp only [bind_ok]
        cases getCSIDs (b.length + 1) b 17 <;> rfl
    · rfl

theorem csid_nibble : ∀ x : UInt8, (((x >>> 4) &&& (0x0f : UInt8)) <<< 4 &&& (0xf0 : UInt8)) ||| ((x &&& (0x0f : UInt8)) &&& (0x0f : UInt8)) = x :=
  forall_byte (p := fun x => (((x >>> 4) &&& (0x0f : UInt8)) <<< 4 &&& (0xf0 : UInt8)) ||| ((x &&& (0x0f : UInt8)) &&& (0x0f : UInt8)) = x)
    (by decide +kernel)

/-- what is decoded of an FQ-CSID -/
theorem parseCSID_shape {x : UInt8} {r : Bytes} {f : CSID} (h : parseCSID (x :: r) = ok f) :
    f.kind = (x >>> 4) &&& (0x0f : UInt8) ∧ f.num = x &&& (0x0f : UInt8) ∧ f.kind < 3 ∧
      f.node.length = if f.kind = 1 then 16 else 4 := by
  unfold parseCSID at h
  rw [if_neg (by simp), idx_zero, bind_ok] at h
  generalize ((x >>> 4) &&& (0x0f : UInt8)) = k at h ⊢
  by_cases hk : k = 0 ∨ k = 2
  · rw [if_pos hk] at h
    split at h
    · cases h
    rename_i hl
    rw [slice_of_le (by omega) (by omega), bind_ok] at h
    obtain ⟨ids, _, h⟩ := bind_eq_ok.1 h
    cases h
    refine ⟨rfl, rfl, ?_, ?_⟩
    · rcases hk with rfl | rfl <;> simp
    · simp only [List.length_cons] at hl
      rcases hk with rfl | rfl <;> simp <;> omega
  · rw [if_neg hk] at h
    split at h
    · rename_i hk1
      split at h
      · cases h
      rename_i hl
      rw [slice_of_le (by omega) (by omega), bind_ok] at h
      obtain ⟨ids, _, h⟩ := bind_eq_ok.1 h
      cases h
      subst hk1
      simp only [List.length_cons] at hl
      refine ⟨rfl, rfl, by simp, ?_⟩
      simp; omega
    · cases h

/-- **C96** for the FQ-CSID, serialising it again: the old CSIDs are sent along, and the number sent is not that of the CSIDs. -/
theorem C96_csid_marshal_partial {old f : CSID} {x : UInt8} {r : Bytes} (hp : parseCSID (x :: r) = ok f) :
    ∃ f', CSID.into old (x :: r) = ok f' ∧
      f'.marshalTo (List.replicate f'.marshalLen 0) = ok ([x] ++ f.node ++ old.ids.flatMap be16 ++ f.ids.flatMap be16) := by
  refine ⟨_, by rw [C96_csid_partial, hp]; rfl, ?_⟩
  obtain ⟨e1, e2, e3, e4⟩ := parseCSID_shape hp
  have := csid_marshal_any { f with ids := old.ids ++ f.ids } e3 e4
  simp only [e1, e2] at this
  rw [csid_nibble] at this
  simp only [e1, e2]
  rw [this]
  simp

example : CSID.into ⟨0, 1, [10, 0, 0, 1], [7]⟩ [0x01, 10, 0, 0, 2, 0, 8] = ok ⟨0, 1, [10, 0, 0, 2], [7, 8]⟩ := by decide

/-! ### Traffic Flow Template -/

/-- **C96** for traffic flow templates, exact: the lists the octets do not carry are the old ones. -/
theorem C96_tft_partial (old : TFT) (x : UInt8) (r : Bytes) :
    TFT.into old [] = parseTFT [] ∧ TFT.into old (x :: r) = parseTFT (x :: r) >>= fun f => ok
      { f with filters := if f.op = 1 ∨ f.op = 3 ∨ f.op = 4 then f.filters else old.filters,
               ids := if f.op = 5 then f.ids else old.ids,
               params := if ((x >>> 4) &&& 1) = 1 then f.params else old.params } := by
  refine ⟨rfl, ?_⟩
  unfold TFT.into parseTFT
  rw [if_neg (by simp), if_neg (by simp), idx_zero, bind_ok, bind_ok]
  simp only [bind_ok]
  have fin : ∀ (f0 f1 : TFT) (off : Nat), f0 = { f1 with
        filters := if f1.op = 1 ∨ f1.op = 3 ∨ f1.op = 4 then f1.filters else old.filters,
        ids := if f1.op = 5 then f1.ids else old.ids, params := old.params } → f1.params = [] →
      (if (((x >>> 4) &&& 1) == 1) = true then do
          let s ← sliceFrom (x :: r) off
          let params ← parseParams (s.length + 1) s
          ok { f0 with params }
        else ok f0) =
      (if (((x >>> 4) &&& 1) == 1) = true then do
          let s ← sliceFrom (x :: r) off
          let ps ← parseParams (s.length + 1) s
          ok { f1 with params := ps }
        else ok f1) >>= fun f => ok
      { f with filters := if f.op = 1 ∨ f.op = 3 ∨ f.op = 4 then f.filters else old.filters,
               ids := if f.op = 5 then f.ids else old.ids,
               params := if ((x >>> 4) &&& 1) = 1 then f.params else old.params } := by
    intro f0 f1 off h0 h1
    subst h0
    by_cases hx : ((x >>> 4) &&& 1) = 1
    · simp only [hx, beq_self_eq_true, if_true]
      cases sliceFrom (x :: r) off <;> try rfl
      rename_i s
      simp only [bind_ok]
      cases parseParams (s.length + 1) s <;> rfl
    · have hx' : (((x >>> 4) &&& 1) == 1) = false := by simpa using hx
      simp only [hx', hx, Bool.false_eq_true, if_false, bind_ok]
  by_cases hf : opFilters (x >>> 5) = true
  · rw [if_pos hf, if_pos hf]
    have hf' : x >>> 5 = 1 ∨ x >>> 5 = 3 ∨ x >>> 5 = 4 := by simpa [opFilters, or_assoc] using hf
    cases getFilters (x :: r) (x &&& 15).toNat 1 <;> try rfl
    rename_i q; obtain ⟨ps, off⟩ := q
    simp only [bind_ok]
    refine fin _ _ _ ?_ rfl
    simp only [if_pos hf', if_neg (tft_op_ne5 hf)]
  · rw [if_neg hf, if_neg hf]
    simp only [Bool.not_eq_true] at hf
    have hf' : ¬(x >>> 5 = 1 ∨ x >>> 5 = 3 ∨ x >>> 5 = 4) := by
      obtain ⟨h1, h3, h4⟩ := tft_op_cases hf
      rintro (h | h | h)
      · exact h1 h
      · exact h3 h
      · exact h4 h
    by_cases h5 : x >>> 5 = 5
    · rw [if_pos h5, if_pos h5]
      split
      · rfl
      · cases slice (x :: r) 1 (1 + (x &&& 15).toNat) <;> try rfl
        simp only [bind_ok]
        refine fin _ _ _ ?_ rfl
        simp only [if_neg hf', if_pos h5]
    · rw [if_neg h5, if_neg h5]
      refine fin _ _ _ ?_ rfl
      simp only [if_neg hf', if_neg h5]

/-- the template as it is written, with a list of parameters within the limits: the list the operation does not use takes up room
behind the rest -/
theorem tft_marshal_any {f : TFT} (ho : f.op < 8) (hp : ∀ p ∈ f.params, ParamOK p)
    (hf : f.op = 1 ∨ f.op = 3 ∨ f.op = 4 → (∀ p ∈ f.filters, FilterOK p) ∧ f.filters.length < 16) :
    f.marshal = ok ([UInt8.ofNat (f.op.toNat * 32 + f.params.length % 2 * 16 +
        (if f.op = 5 then f.ids.length else f.filters.length) % 16)] ++
      (if f.op = 1 ∨ f.op = 3 ∨ f.op = 4 then encFilters f.filters else []) ++ (if f.op = 5 then f.ids else []) ++
      encParams f.params ++ List.replicate
        ((if f.op = 1 ∨ f.op = 3 ∨ f.op = 4 then 0 else (encFilters f.filters).length) + (if f.op = 5 then 0 else f.ids.length)) 0) := by
  have hlen : f.marshalLen = 1 + (encFilters f.filters).length + f.ids.length + (encParams f.params).length := by
    rw [TFT.marshalLen, sum_filters, sum_params]
  rw [TFT.marshal, hlen, show 1 + (encFilters f.filters).length + f.ids.length + (encParams f.params).length =
    ((encFilters f.filters).length + f.ids.length + (encParams f.params).length) + 1 by omega, List.replicate_succ]
  rw [TFT.marshalTo, if_neg (by simp)]
  have hh := (tft_octet f.op (f.params.length % 2) ((if f.op = 5 then f.ids.length else f.filters.length) % 16) ho
    (Nat.mod_lt _ (by decide)) (Nat.mod_lt _ (by decide))).1
  rw [Nat.mod_mod, tftHead] at hh
  simp only []
  rw [hh, setAt_of_lt (by simp)]
  simp only [bind_ok, List.set_cons_zero]
  generalize UInt8.ofNat _ = H
  by_cases ho : opFilters f.op = true
  · have ho' : f.op = 1 ∨ f.op = 3 ∨ f.op = 4 := by simpa [opFilters, or_assoc] using ho
    rw [if_pos ho, show ∀ z : Bytes, H :: z = [H] ++ z from fun _ => rfl,
      putFilters_eq _ _ _ _ (hf ho').1 (by rfl) (by simp; omega)]
    simp only [bind_ok]
    rw [putParams_eq _ _ _ _ hp (by simp; omega) (by simp; omega)]
    rw [if_pos ho', if_neg (tft_op_ne5 ho), if_pos ho', if_neg (tft_op_ne5 ho)]
    simp
    omega
  · rw [if_neg ho]
    simp only [Bool.not_eq_true] at ho
    have ho' : ¬(f.op = 1 ∨ f.op = 3 ∨ f.op = 4) := by
      obtain ⟨h1, h3, h4⟩ := tft_op_cases ho
      rintro (h | h | h)
      · exact h1 h
      · exact h3 h
      · exact h4 h
    rw [if_neg ho', if_neg ho']
    by_cases h5 : f.op = 5
    · simp only [h5, if_true]
      rw [show ∀ z : Bytes, H :: z = [H] ++ z from fun _ => rfl, copyAt_append (by rfl) (by rfl) (by simp; omega)]
      simp only [bind_ok]
      rw [putParams_eq _ _ _ _ hp (by simp; omega) (by simp; omega)]
      simp
      omega
    · simp only [h5, if_false]
      rw [show ∀ z : Bytes, H :: z = [H] ++ z from fun _ => rfl]
      rw [putParams_eq _ _ _ _ hp (by rfl) (by simp)]
      simp

/-- **C96** for traffic flow templates, serialising one again: old parameters are sent along; old packet filters and identifiers
become that many octets of zero at the end; and if the operation has neither, the number in the first octet is that of the old
filters. -/
theorem C96_tft_marshal_partial {old f : TFT} {x : UInt8} {r : Bytes} (hp : parseTFT (x :: r) = ok f)
    (ho : ∀ p ∈ old.params, ParamOK p) :
    ∃ f', TFT.into old (x :: r) = ok f' ∧ ∃ ps, (ps = if ((x >>> 4) &&& 1) = 1 then f.params else old.params) ∧
      f'.marshal = ok ([UInt8.ofNat (f.op.toNat * 32 + ps.length % 2 * 16 +
          (if f.op = 1 ∨ f.op = 3 ∨ f.op = 4 ∨ f.op = 5 then f.filters.length + f.ids.length else old.filters.length % 16))] ++
        encFilters f.filters ++ f.ids ++ encParams ps ++
        List.replicate ((if f.op = 1 ∨ f.op = 3 ∨ f.op = 4 then 0 else (encFilters old.filters).length) +
          (if f.op = 5 then 0 else old.ids.length)) 0) := by
  refine ⟨_, by rw [(C96_tft_partial old x r).2, hp]; rfl, _, rfl, ?_⟩
  have hk := parseTFT_ok hp
  have hP : ∀ p ∈ (if ((x >>> 4) &&& 1) = 1 then f.params else old.params), ParamOK p := by
    split
    · exact hk.r_params
    · exact ho
  have hc := hk.r_count
  rw [tft_marshal_any (f := { f with
      filters := if f.op = 1 ∨ f.op = 3 ∨ f.op = 4 then f.filters else old.filters,
      ids := if f.op = 5 then f.ids else old.ids, params := if ((x >>> 4) &&& 1) = 1 then f.params else old.params })
      hk.r_op hP (fun h => by
      simp only [if_pos h]
      exact ⟨hk.r_filters, by omega⟩)]
  simp only []
  by_cases h1 : f.op = 1 ∨ f.op = 3 ∨ f.op = 4
  · have h5 : f.op ≠ 5 := by rcases h1 with h | h | h <;> rw [h] <;> decide
    have h15 : f.op = 1 ∨ f.op = 3 ∨ f.op = 4 ∨ f.op = 5 := by
      rcases h1 with h | h | h
      · exact .inl h
      · exact .inr (.inl h)
      · exact .inr (.inr (.inl h))
    rw [if_pos h15]
    simp only [if_pos h1, if_neg h5, hk.r_noids h5, List.length_nil, Nat.add_zero]
    rw [Nat.mod_eq_of_lt (a := f.filters.length) (by omega)]
  · have e := hk.r_nofilters (fun h => h1 (.inl h)) (fun h => h1 (.inr (.inl h))) (fun h => h1 (.inr (.inr h)))
    by_cases h5 : f.op = 5
    · have h15 : f.op = 1 ∨ f.op = 3 ∨ f.op = 4 ∨ f.op = 5 := .inr (.inr (.inr h5))
      rw [if_pos h15]
      simp only [if_neg h1, if_pos h5, e, List.length_nil, Nat.zero_add]
      rw [Nat.mod_eq_of_lt (a := f.ids.length) (by omega)]
      rfl
    · have h15 : ¬(f.op = 1 ∨ f.op = 3 ∨ f.op = 4 ∨ f.op = 5) := by
        rintro (h | h | h | h)
        · exact h1 (.inl h)
        · exact h1 (.inr (.inl h))
        · exact h1 (.inr (.inr h))
        · exact h5 h
      rw [if_neg h15]
      simp only [if_neg h1, if_neg h5, e, hk.r_noids h5]
      rfl

/- "delete the template" decoded into a structure that held a template with one filter: the octets sent announce a filter that is not
there -/
example : TFT.into ⟨1, [newFilter 1 2 3 [⟨0x30, [17]⟩]], [], []⟩ [0x40] = ok ⟨2, [newFilter 1 2 3 [⟨0x30, [17]⟩]], [], []⟩ ∧
    TFT.marshal ⟨2, [newFilter 1 2 3 [⟨0x30, [17]⟩]], [], []⟩ = ok [0x41, 0, 0, 0, 0, 0] := by decide

end Verif.V2

namespace Verif.TLV
open Res

/-- **C96** for the Protocol Configuration Options of GTPv1, exact: the containers of the octets are appended to the old ones. -/
theorem C96_pco_v1_partial (old : PCOPayload) (b : Bytes) :
    PCOPayload.into old b = parsePCOPayload b >>= fun f => ok { f with opts := old.opts ++ f.opts } := by
  unfold PCOPayload.into parsePCOPayload
  by_cases h1 : b.length = 0
  · rw [if_pos h1, if_pos h1]; rfl
  rw [if_neg h1, if_neg h1]
  cases idx b 0 <;> try rfl
  simp only [bind_ok]
  cases V2.getContainers b (b.length + 1) 1 <;> rfl

/-- **C96** for the Protocol Configuration Options of GTPv1, serialising them again: the old containers are sent along, before those
decoded. -/
theorem C96_pco_v1_marshal_partial {old f : PCOPayload} {b : Bytes} (hp : parsePCOPayload b = ok f)
    (h : ∀ c ∈ old.opts ++ f.opts, V2.ContainerOK c) :
    ∃ f', PCOPayload.into old b = ok f' ∧ f'.marshalTo (List.replicate f'.marshalLen 0) =
      ok ([(f.proto &&& 7) ||| 0x80] ++ V2.encContainers old.opts ++ V2.encContainers f.opts) := by
  refine ⟨_, by rw [C96_pco_v1_partial, hp]; rfl, ?_⟩
  have := (V2.pco_writes f.proto h).marshal (n := PCOPayload.marshalLen { f with opts := old.opts ++ f.opts })
    (by simp only [PCOPayload.marshalLen, V2.sum_containers]; simp; omega)
  rw [show V2.encContainers (old.opts ++ f.opts) = V2.encContainers old.opts ++ V2.encContainers f.opts by simp [V2.encContainers],
    ← List.append_assoc] at this
  exact this

example : PCOPayload.into ⟨0, [V2.newContainer 0x0d []]⟩ [0x80, 0x00, 0x0a, 0x00] =
    ok ⟨0, [V2.newContainer 0x0d [], V2.newContainer 0x0a []]⟩ := by decide

end Verif.TLV

/-! ### cases that meet the hypotheses -/

namespace Verif.V2
open Res Utils NetIP
example := C96_fteid_marshal_partial (old := ⟨0x40, 10, 1, none, some (List.replicate 16 9)⟩) (b := [0x8b, 0, 0, 0, 2, 10, 0, 0, 1])
  (fun _ h => nomatch h) rfl
example := C96_uli_marshal (old := ⟨0x01, some ⟨[49], [50], 1, 2⟩, none, none, none, none, none, none, none⟩) (b := [0x08, 0x00, 0xf1, 0x10, 0, 7]) rfl
example := C96_paa_marshal (old := ⟨2, [], 64, List.replicate 16 9⟩) (b := [1, 10, 0, 0, 1]) rfl
example := C96_paging_marshal (old := ⟨5, 1, 0x2a⟩) (b := [0x06, 0]) rfl
example := C96_container_marshal_partial (old := ⟨0x8021, 2, [7, 8]⟩) (b := [0x00, 0x0d, 0x00]) (c := ⟨0x0d, 0, []⟩) (by decide) (by decide)
example := C96_pco_marshal_partial (old := ⟨1, 0, [newContainer 0x0d []]⟩) (b := [0x80, 0x00, 0x0a, 0x00]) (f := ⟨1, 0, [newContainer 0x0a []]⟩)
  (by decide) (by unfold ContainerOK; decide)
example := C96_csid_marshal_partial (old := ⟨0, 1, [10, 0, 0, 1], [7]⟩) (x := 0x01) (r := [10, 0, 0, 2, 0, 8]) rfl
example := C96_tft_marshal_partial (old := ⟨1, [newFilter 1 2 3 [⟨0x30, [17]⟩]], [], [newParam 1 [0xaa]]⟩) (x := 0x40) (r := [])
  (f := ⟨2, [], [], []⟩) (by decide) (by intro p hp; obtain rfl := List.mem_singleton.1 hp; unfold ParamOK; decide)
end Verif.V2

namespace Verif.TLV
open Res
example := C96_pco_v1_marshal_partial (old := ⟨0, [V2.newContainer 0x0d []]⟩) (b := [0x80, 0x00, 0x0a, 0x00]) (f := ⟨0, [V2.newContainer 0x0a []]⟩)
  (by decide) (by unfold V2.ContainerOK; decide)
end Verif.TLV
