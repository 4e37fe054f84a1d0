import Verif.Proofs.V1Header
/-
Property theorems on the GTPv1 header and extension headers: C21, C22 (headers).
-/
namespace Verif.V1
open Res Spec

/-- **C21** Every representable header, with any combination of flags, any chain of extension headers and any payload,
is serialised into its wire format and read back unchanged, whatever follows it. -/
theorem C21_round_trip (h : Header) (hw : Wf h) :
    h.marshal = ok (encH h) ∧ ∀ rest, Header.parse (encH h ++ rest) = ok h :=
  ⟨Header.marshal_eq h (fun h2 e he => ((hw.ext h2).2 e he).1), Header.parse_encH h hw⟩

/-- a header with S and E flags, two extension headers and a payload -/
def exHdr : Header :=
  ⟨0x36, 255, 15, 0x11223344, 0x5566, 0, 0x85, [⟨0x85, 1, [0x10, 9], 0xc0⟩, ⟨0xc0, 1, [7, 8], 0⟩], [0xaa, 0xbb, 0xcc]⟩

example : encH exHdr = [0x36, 255, 0, 15, 0x11, 0x22, 0x33, 0x44, 0x55, 0x66, 0, 0x85, 1, 0x10, 9, 0xc0, 1, 7, 8, 0,
    0xaa, 0xbb, 0xcc] ∧ Header.parse (encH exHdr) = ok exHdr := by decide +kernel

theorem encExt_padded (e : Ext) : encExt (padded e) = encExt e := by
  have h1 := le_units e
  have hu : units (padded e) = units e := by
    have := marshalLen_padded e
    rw [Ext.marshalLen_eq, Ext.marshalLen_eq] at this; omega
  unfold encExt
  rw [hu, length_padded]
  simp [padded]

theorem extOK_padded (e : Ext) (h : extOK e = true) : extOK (padded e) = true := by
  have hu : units (padded e) = units e := by
    have := marshalLen_padded e
    rw [Ext.marshalLen_eq, Ext.marshalLen_eq] at this; omega
  simp only [extOK, hu] at h ⊢
  exact h

theorem chain_padded : ∀ (t : UInt8) (l : List Ext), chain t (l.map padded) = chain t l
  | _, [] => rfl
  | t, [e] => rfl
  | t, e :: f :: l => by
    have := chain_padded e.next (f :: l)
    simp only [List.map_cons] at this ⊢
    simp only [chain]
    rw [← this]
    rfl

/-- **C21** for headers whose Length is set by the library (`SetLength`) and whose extension headers may have contents
of any size up to 1018 octets: only the contents of extension headers come back with padding, and the payload and
everything else come back unchanged. -/
theorem C21_setLength (h : Header) (hfit : (encH h).length < 65536)
    (hseq : bit h.flags 1 = false → h.seq = 0) (hnp : bit h.flags 0 = false → h.npdu = 0)
    (hno : bit h.flags 2 = false → h.next = 0 ∧ h.exts = [])
    (hext : bit h.flags 2 = true → chain h.next h.exts = true ∧ ∀ e ∈ h.exts, extOK e = true) :
    ∃ b, h.setLength.marshal = ok b ∧ b.length = (encH h).length ∧ b.length = h.setLength.length.toNat + 8 ∧
      ∀ rest, Header.parse (b ++ rest) = ok { h.setLength with exts := h.exts.map padded } := by
  have hm := length_encH h
  have h8 : 8 ≤ h.marshalLen := by unfold Header.marshalLen; omega
  have hL : h.setLength.length.toNat = h.marshalLen - 8 := by
    simp only [Header.setLength]; rw [toNat_ofNat16 (by omega)]
  have hl1 : (encH h.setLength).length = (encH h).length := by rw [length_encH, length_encH]; rfl
  have he : encH { h.setLength with exts := h.exts.map padded } = encH h.setLength := by
    have : (List.map (encExt ∘ padded) h.exts) = h.exts.map encExt :=
      List.map_congr_left (fun e _ => encExt_padded e)
    simp only [encH, encOpt, encExts, Header.setLength, List.map_map, this]
    rfl
  have hw : Wf { h.setLength with exts := h.exts.map padded } := by
    refine ⟨?_, ?_, hseq, hnp, ?_, ?_⟩
    · rw [he]; show h.setLength.length.toNat + 8 = _; omega
    · rw [he]; omega
    · intro h2; exact ⟨(hno h2).1, by simp [(hno h2).2]⟩
    · intro h2
      refine ⟨by show chain h.next _ = true; rw [chain_padded]; exact (hext h2).1, ?_⟩
      intro e hm
      simp only [List.mem_map] at hm
      obtain ⟨x, hx, rfl⟩ := hm
      refine ⟨extOK_padded x ((hext h2).2 x hx), ?_⟩
      rw [length_padded]; have := one_le_units x; omega
  refine ⟨encH h.setLength, Header.marshal_eq _ (fun h2 => (hext h2).2), hl1, by omega, ?_⟩
  intro rest
  have := Header.parse_encH _ hw rest
  rwa [he] at this

/-- **C21** one extension header: built from any content up to 1018 octets it occupies a multiple of four octets and is
read back with its content followed by at most three zero octets. -/
theorem C21_ext_round_trip (t next : UInt8) (content : Bytes) (h : content.length ≤ 1018) :
    ∃ b k, (Ext.new t content next).marshal = ok b ∧ b.length % 4 = 0 ∧ k ≤ 3 ∧ b.length = content.length + k + 2 ∧
      ∀ rest, ∃ e, Ext.parse (b ++ rest) = ok e ∧ e.content = content ++ List.replicate k 0 ∧ e.next = next := by
  have hu : units (Ext.new t content next) = (content.length + 2 + 3) / 4 := rfl
  have hok : extOK (Ext.new t content next) = true := by
    simp only [extOK, decide_eq_true_eq, hu]
    simp only [Ext.new, Ext.setLength, pad4Len_eq, UInt8.toNat_ofNat']
    omega
  have hml : (Ext.new t content next).marshalLen = 4 * ((content.length + 2 + 3) / 4) := by rw [Ext.marshalLen_eq, hu]
  refine ⟨encExt (Ext.new t content next), 4 * ((content.length + 2 + 3) / 4) - 2 - content.length, ?_, ?_, ?_, ?_, ?_⟩
  · have := Ext.marshalTo_zero _ hok (Ext.new t content next).marshalLen (Nat.le_refl _)
    simpa [Ext.marshal] using this
  · rw [length_encExt, hml]; omega
  · omega
  · rw [length_encExt, hml]; omega
  · intro rest
    exact ⟨_, Ext.parse_encExt _ hok rest, rfl, rfl⟩

example : (Ext.new 0xc0 [1, 2, 3] 0).marshal = ok [2, 1, 2, 3, 0, 0, 0, 0] := by decide +kernel

/-- larger contents are not representable: with 1020 octets the length octet becomes 0 and serialising panics -/
theorem C21_ext_too_large (t next : UInt8) (content : Bytes) (h : content.length = 1020) :
    (Ext.new t content next).marshal = .panic := by
  have hl : (Ext.new t content next).length = 0 := by
    simp [Ext.new, Ext.setLength, h, pad4Len]
  have hml : (Ext.new t content next).marshalLen = 1024 := by
    rw [Ext.marshalLen_eq]; show 4 * ((content.length + 2 + 3) / 4) = _; omega
  unfold Ext.marshal Ext.marshalTo
  rw [if_neg (by simp), hml, hl]
  obtain ⟨n, hn⟩ : ∃ n, n + 1 = 1024 := ⟨1023, rfl⟩
  rw [← hn, List.replicate_succ]
  rfl

theorem addLoop_some : ∀ (t : UInt8) (l acc : List Ext) (n : UInt8), (∀ e ∈ l.dropLast, e.next ≠ 0) → l ≠ [] →
    (((Header.addLoop t l acc).2 = some 0 ↔ chain t l = true) ∧
     ((Header.addLoop t l acc).2 = some n → (Header.addLoop t l acc).1 = acc ++ l))
  | _, [], _, _, _, h => absurd rfl h
  | t, [e], acc, n, _, _ => by
    simp only [Header.addLoop, chain, bne_iff_ne, ne_eq, ite_not, Bool.and_eq_true, beq_iff_eq]
    by_cases h : t = e.typ
    · subst h; simp
    · simp [h, Ne.symm h]
  | t, e :: f :: l, acc, n, hd, _ => by
    have ih := addLoop_some e.next (f :: l) (acc ++ [e]) n
      (fun x hx => hd x (by simp only [List.dropLast_cons_cons, List.mem_cons]; exact Or.inr (by simpa using hx))) (by simp)
    have he : e.next ≠ 0 := hd e (by simp)
    by_cases h : t = e.typ
    · subst h
      rw [Header.addLoop, if_neg (by simp)]
      refine ⟨?_, ?_⟩
      · rw [ih.1]; simp [chain, he]
      · intro h2; rw [ih.2 h2]; simp
    · rw [Header.addLoop, if_pos (by simpa using h)]
      refine ⟨?_, by simp⟩
      simp [chain, Ne.symm h]

/-- **C21** `AddExtensionHeaders` on a header without any: it accepts exactly the lists that form a chain (no
extension header but the last having next type 0), and then the header carries them, the E flag and the type of the
first one. -/
theorem C21_add (h : Header) (hne : h.exts = []) (l : List Ext) (hl : l ≠ []) (hd : ∀ e ∈ l.dropLast, e.next ≠ 0) :
    ((h.addExts l).2 = true ↔ ∃ t, chain t l = true) ∧
    ((h.addExts l).2 = true → (h.addExts l).1.exts = l ∧ chain (h.addExts l).1.next l = true ∧
      bit (h.addExts l).1.flags 2 = true ∧ (h.addExts l).1.payload = h.payload ∧ (h.addExts l).1.teid = h.teid ∧
      (h.addExts l).1.seq = h.seq ∧ (h.addExts l).1.npdu = h.npdu) := by
  match l, hl with
  | e :: es, _ =>
    have key := addLoop_some e.typ (e :: es) h.exts 0 hd (by simp)
    have hct : (∃ t, chain t (e :: es) = true) ↔ chain e.typ (e :: es) = true := by
      constructor
      · rintro ⟨t, ht⟩
        have : e.typ = t := by
          cases es with
          | nil => simp [chain] at ht; exact ht.1
          | cons _ _ => simp [chain] at ht; exact ht.1.1
        rwa [this]
      · intro h; exact ⟨_, h⟩
    have hb : bit (h.flags ||| (0x04 : UInt8)) 2 = true := by
      generalize h.flags = f
      revert f
      apply forall_byte (p := fun f => bit (f ||| (0x04 : UInt8)) 2 = true)
      decide +kernel
    rw [hct, ← key.1]
    unfold Header.addExts
    simp only []
    by_cases h2 : (Header.addLoop e.typ (e :: es) h.exts).2 = some 0
    · have h1 := key.2 h2
      rw [hne, List.nil_append] at h1
      rw [hne] at h2
      simp only [hne, h2, beq_self_eq_true, if_true, true_and, forall_const, Header.setLength]
      refine ⟨h1, ?_, hb, trivial⟩
      rw [hne] at key
      exact key.1.mp h2
    · have : ((Header.addLoop e.typ (e :: es) h.exts).2 == some 0) = false := by simpa using h2
      simp [this, h2]

example : (Header.addExts (Header.new 0x30 255 1 0 [9]) [⟨0x85, 1, [1, 2], 0xc0⟩, ⟨0xc0, 1, [3, 4], 0⟩]).2 = true ∧
    (Header.addExts (Header.new 0x30 255 1 0 [9]) [⟨0x85, 1, [1, 2], 0xc0⟩, ⟨0x20, 1, [3, 4], 0⟩]).2 = false ∧
    (Header.addExts (Header.new 0x30 255 1 0 [9]) [⟨0x85, 1, [1, 2], 0xc0⟩]).2 = false := by decide +kernel

/-- a header built with the API, with extension headers, serialised and parsed -/
example : (do let b ← (Header.addExts (Header.new 0x30 255 1 0 [9]) [Ext.new 0x85 [1, 2, 3] 0xc0, Ext.new 0xc0 [3, 4] 0]).1.marshal
              Header.parse b) = ok ⟨0x34, 255, 17, 1, 0, 0, 0x85, [⟨0x85, 2, [1, 2, 3, 0, 0, 0], 0xc0⟩, ⟨0xc0, 1, [3, 4], 0⟩], [9]⟩ := by
  decide +kernel

/-- Where the code departs from the property: two calls of `AddExtensionHeaders`, both accepted, give a header that is
read back with another first type and without the second extension header, its octets being prepended to the
payload. -/
theorem C21_add_twice :
    let r1 := Header.addExts (Header.new 0x30 255 1 0 [9]) [Ext.new 0x85 [1, 2] 0]
    let r2 := r1.1.addExts [Ext.new 0xc0 [3, 4] 0]
    r1.2 = true ∧ r2.2 = true ∧
    (do let b ← r2.1.marshal; Header.parse b) = ok ⟨0x34, 255, 13, 1, 0, 0, 0xc0, [⟨0xc0, 1, [1, 2], 0⟩], [1, 3, 4, 0, 9]⟩ := by
  decide +kernel

/-- … and a header with the E flag and "no more extension headers" as next type, which the wire format allows, is not
read back: the parser takes the first octets of the payload for an extension header. -/
theorem C21_empty_chain :
    (Header.new 0x34 255 1 0 [1, 2, 3, 0, 5]).marshal = ok [0x34, 255, 0, 9, 0, 0, 0, 1, 0, 0, 0, 0, 1, 2, 3, 0, 5] ∧
    Header.parse [0x34, 255, 0, 9, 0, 0, 0, 1, 0, 0, 0, 0, 1, 2, 3, 0, 5]
      = ok ⟨0x34, 255, 9, 1, 0, 0, 0, [⟨0, 1, [2, 3], 0⟩], [5]⟩ := by decide +kernel

/-- the flags octet built from its components: version in the three high bits, then PT, E, S, PN -/
theorem C21_flags (v p e s n : Fin 8) :
    let f := Header.newFlags v.val p.val e.val s.val n.val
    f.toNat / 32 = v.val ∧ bit f 4 = (p.val % 2 == 1) ∧ bit f 3 = false ∧ bit f 2 = (e.val % 2 == 1) ∧
      bit f 1 = (s.val % 2 == 1) ∧ bit f 0 = (n.val % 2 == 1) := by
  have hb : ∀ x : Fin 8, x.val &&& 1 = x.val % 2 := by decide
  have hv : ∀ x : Fin 8, x.val &&& 7 = x.val := by decide
  have h2 : ∀ x : Fin 8, x.val % 2 = 0 ∨ x.val % 2 = 1 := by decide
  simp only [Header.newFlags, hb, hv]
  revert v
  rcases h2 p with hp | hp <;> rcases h2 e with he | he <;> rcases h2 s with hs | hs <;> rcases h2 n with hn | hn <;>
    rw [hp, he, hs, hn] <;> decide +kernel

/-! ### C22 -/

theorem Ext.parseMulti_spec (b : Bytes) : (∃ e, Ext.parseMulti b = err e) ∨
    ∃ l, Ext.parseMulti b = ok l ∧ chain 0 l = true ∧
      (∀ e ∈ l, extOK e = true ∧ (e.content.length + 2) % 4 = 0) ∧ (l.map encExt).flatten <+: b :=
  Ext.parseMultiF_spec _ _ _ (Nat.lt_succ_self _)

/-- **C22** what the header parser can do: return, or panic; it panics only on inputs of at least 64 KiB whose Length
field is at least 65528. -/
theorem C22_header_cases (b : Bytes) : Returns (Header.parse b) ∨
    (Header.parse b = .panic ∧ 65536 ≤ b.length ∧ ∃ l0 l1, b[2]? = some l0 ∧ b[3]? = some l1 ∧
      65528 ≤ l0.toNat * 256 + l1.toNat) := by
  rw [Header.parse_eq]
  match b with
  | [] | [_] | [_, _] | [_, _, _] | [_, _, _, _] | [_, _, _, _, _] | [_, _, _, _, _, _] | [_, _, _, _, _, _, _] =>
    left; simp [Header.parseSpec]
  | f :: t :: l0 :: l1 :: a0 :: a1 :: a2 :: a3 :: r =>
    unfold Header.parseSpec
    simp only []
    obtain ⟨n, hn⟩ : ∃ n, n = l0.toNat * 256 + l1.toNat := ⟨_, rfl⟩
    rw [← hn]
    by_cases h1 : r.length < n
    · left; rw [if_pos h1]; simp
    rw [if_neg h1]
    have hpan : 65528 ≤ n → 65536 ≤ (f :: t :: l0 :: l1 :: a0 :: a1 :: a2 :: a3 :: r).length := by
      intro h; simp only [List.length_cons]; omega
    have fin : ∀ x : Header, Returns (if 65528 ≤ n then (.panic : Res Header) else ok x) ∨
        ((if 65528 ≤ n then (.panic : Res Header) else ok x) = .panic ∧
          65536 ≤ (f :: t :: l0 :: l1 :: a0 :: a1 :: a2 :: a3 :: r).length ∧
          ∃ m0 m1, (f :: t :: l0 :: l1 :: a0 :: a1 :: a2 :: a3 :: r)[2]? = some m0 ∧
            (f :: t :: l0 :: l1 :: a0 :: a1 :: a2 :: a3 :: r)[3]? = some m1 ∧ 65528 ≤ m0.toNat * 256 + m1.toNat) := by
      intro x
      by_cases hp : 65528 ≤ n
      · right; exact ⟨if_pos hp, hpan hp, l0, l1, rfl, rfl, by omega⟩
      · left; rw [if_neg hp]; simp
    by_cases h2 : (bit f 2 || bit f 1 || bit f 0) = true
    · rw [if_pos h2]
      match r, fin with
      | [], _ | [_], _ | [_, _], _ | [_, _, _], _ => left; simp
      | s0 :: s1 :: p :: x :: r2, fin =>
        simp only []
        by_cases h3 : n < 4
        · left; rw [if_pos h3]; simp
        rw [if_neg h3]
        by_cases h4 : bit f 2 = true
        · simp only [h4, if_true]
          rcases Ext.parseMulti_spec r2 with ⟨e, he⟩ | ⟨l, hl, hc, _⟩
          · rw [he]; left; simp
          · rw [hl]
            cases l with
            | nil => simp [chain] at hc
            | cons e es =>
              simp only []
              by_cases h5 : 4 + (e.marshalLen + (es.map Ext.marshalLen).sum) > n
              · left; rw [if_pos h5]; simp
              · rw [if_neg h5]; exact fin _
        · simp only [h4, Bool.false_eq_true, if_false]
          exact fin _
    · rw [if_neg h2]; exact fin _

/-- **C22** for headers.  Partial: the property asks for every byte string; the code panics on some byte strings of
64 KiB and more (`C22_header_panics`). -/
theorem C22_header_partial (b : Bytes) (hb : b.length < 65536) : Returns (Header.parse b) := by
  rcases C22_header_cases b with h | ⟨_, h, _⟩
  · exact h
  · omega

example : Header.parse [0x36, 255, 0, 4, 0, 0, 0, 1, 0, 0, 0, 0xc0] = err .tooShortParse := by decide +kernel

/-- **C22** fails above 64 KiB: any 65536 or more octets starting with a header whose flags E, S, PN are clear and whose
Length field is 65528 or more, and that are not cut off, make the parser panic. -/
theorem C22_header_panics (f t l0 l1 a0 a1 a2 a3 : UInt8) (r : Bytes) (hf : f.toNat % 8 = 0)
    (hl : 65528 ≤ l0.toNat * 256 + l1.toNat) (hr : l0.toNat * 256 + l1.toNat ≤ r.length) :
    Header.parse (f :: t :: l0 :: l1 :: a0 :: a1 :: a2 :: a3 :: r) = .panic := by
  rw [Header.parse_eq]
  unfold Header.parseSpec
  have hb : (bit f 2 || bit f 1 || bit f 0) = false := by
    revert hf
    revert f
    apply forall_byte (p := fun f => f.toNat % 8 = 0 → (bit f 2 || bit f 1 || bit f 0) = false)
    decide +kernel
  obtain ⟨n, hn⟩ : ∃ n, n = l0.toNat * 256 + l1.toNat := ⟨_, rfl⟩
  simp only [← hn, hb] at hl hr ⊢
  rw [if_neg (by omega)]
  simp only [Bool.false_eq_true, if_false]
  rw [if_pos hl]

/-- such byte strings exist -/
example : ∃ b : Bytes, Header.parse b = .panic :=
  ⟨_, C22_header_panics 0x30 255 0xff 0xff 0 0 0 1 (List.replicate 65535 0) (by decide) (by decide)
    (by rw [List.length_replicate]; decide)⟩

/-- extension headers alone: parsing one or a chain always returns, whatever the length of the input -/
theorem C22_ext_total (b : Bytes) : Returns (Ext.parse b) ∧ Returns (Ext.parseMulti b) := by
  constructor
  · rcases Ext.parse_spec b with ⟨e, he⟩ | ⟨x, hx, _⟩
    · rw [he]; simp
    · rw [hx]; simp
  · rcases Ext.parseMulti_spec b with ⟨e, he⟩ | ⟨x, hx, _⟩
    · rw [he]; simp
    · rw [hx]; simp

theorem length_encH' (h : Header) :
    (encH h).length = 8 + (encOpt h).length + (encExts h).length + h.payload.length := by
  simp only [encH, List.length_append, List.length_cons, List.length_nil, length_be16, length_be32]

/-- **C22** what is accepted is faithful: an accepted input below 64 KiB starts with the wire format of the header that
is returned, up to the unset optional octets (zero in the wire format, ignored by the parser). -/
theorem C22_header_faithful (b : Bytes) (h : Header) (hp : Header.parse b = ok h) :
    h.length.toNat + 8 ≤ b.length ∧
    (bit h.flags 2 = true → chain h.next h.exts = true ∧
      ∀ e ∈ h.exts, extOK e = true ∧ (e.content.length + 2) % 4 = 0) ∧
    (bit h.flags 2 = false → h.next = 0 ∧ h.exts = []) ∧
    (encH h).length = h.length.toNat + 8 ∧ (encH h).length < 65536 ∧
    (bit h.flags 1 = false → h.seq = 0) ∧ (bit h.flags 0 = false → h.npdu = 0) ∧
    b[0]? = some h.flags ∧ b[1]? = some h.typ ∧ (b.drop 2).take 2 = be16 h.length ∧ (b.drop 4).take 4 = be32 h.teid ∧
    encExts h ++ h.payload = (b.take (h.length.toNat + 8)).drop (8 + (encOpt h).length) := by
  rw [Header.parse_eq] at hp
  match b with
  | [] | [_] | [_, _] | [_, _, _] | [_, _, _, _] | [_, _, _, _, _] | [_, _, _, _, _, _] | [_, _, _, _, _, _, _] =>
    simp [Header.parseSpec] at hp
  | f :: t :: l0 :: l1 :: a0 :: a1 :: a2 :: a3 :: r =>
    unfold Header.parseSpec at hp
    simp only [] at hp
    have hl0 := l0.toNat_lt; have hl1 := l1.toNat_lt
    have hN : (UInt16.ofNat (l0.toNat * 256 + l1.toNat)).toNat = l0.toNat * 256 + l1.toNat := toNat_ofNat16 (by omega)
    have h16 : be16 (UInt16.ofNat (l0.toNat * 256 + l1.toNat)) = [l0, l1] := be16_rd16 l0 l1
    have h32 : be32 (UInt32.ofNat (a0.toNat * 16777216 + a1.toNat * 65536 + a2.toNat * 256 + a3.toNat)) = [a0, a1, a2, a3] :=
      be32_rd32 a0 a1 a2 a3
    obtain ⟨n, hn⟩ : ∃ n, n = l0.toNat * 256 + l1.toNat := ⟨_, rfl⟩
    obtain ⟨T, hT⟩ : ∃ T, T = UInt32.ofNat (a0.toNat * 16777216 + a1.toNat * 65536 + a2.toNat * 256 + a3.toNat) := ⟨_, rfl⟩
    simp only [← hn, ← hT] at hp hN h16 h32
    by_cases h1 : r.length < n
    · rw [if_pos h1] at hp; cases hp
    rw [if_neg h1] at hp
    by_cases h2 : (bit f 2 || bit f 1 || bit f 0) = true
    · rw [if_pos h2] at hp
      match r with
      | [] | [_] | [_, _] | [_, _, _] => simp at hp
      | s0 :: s1 :: p :: x :: r2 =>
        simp only [] at hp
        simp only [List.length_cons] at h1
        by_cases h3 : n < 4
        · rw [if_pos h3] at hp; cases hp
        rw [if_neg h3] at hp
        by_cases h4 : bit f 2 = true
        · simp only [h4, if_true] at hp
          rcases Ext.parseMulti_spec r2 with ⟨e, he⟩ | ⟨l, hl, hc, hok, ⟨q, hq⟩⟩
          · rw [he] at hp; cases hp
          rw [hl] at hp
          cases l with
          | nil => simp [chain] at hc
          | cons e es =>
            simp only [] at hp
            by_cases h5 : 4 + (e.marshalLen + (es.map Ext.marshalLen).sum) > n
            · rw [if_pos h5] at hp; cases hp
            rw [if_neg h5] at hp
            by_cases h6 : 65528 ≤ n
            · rw [if_pos h6] at hp; cases hp
            rw [if_neg h6] at hp
            simp only [ok.injEq] at hp
            subst hp
            have hlen := length_encExts (e :: es)
            simp only [List.map_cons, List.flatten_cons, List.sum_cons] at hlen hq
            have hke : (encExt e ++ (es.map encExt).flatten).length = e.marshalLen + (es.map Ext.marshalLen).sum := hlen
            have hr2 : r2.drop (e.marshalLen + (es.map Ext.marshalLen).sum) = q := by
              rw [← hq, ← hke, List.drop_left]
            have hty : encExt { e with typ := x } = encExt e := rfl
            refine ⟨?_, ?_, ?_, ?_, ?_, ?_, ?_, rfl, rfl, ?_, ?_, ?_⟩
            · simp only [hN, List.length_cons]; omega
            · intro _
              refine ⟨?_, ?_⟩
              · simp only []
                cases es with
                | nil => simp [chain] at hc ⊢; exact hc.2
                | cons e2 es2 => simp [chain] at hc ⊢; exact ⟨hc.1.2, hc.2⟩
              · intro y hy
                rcases List.mem_cons.mp hy with rfl | hy
                · exact hok e List.mem_cons_self
                · exact hok y (List.mem_cons_of_mem _ hy)
            · intro h; simp only [] at h; rw [h4] at h; cases h
            · rw [hr2]
              have hqn : n - 4 - (e.marshalLen + (es.map Ext.marshalLen).sum) ≤ q.length := by
                have := congrArg List.length hq
                rw [List.length_append, hke] at this; omega
              rw [length_encH', length_encOpt, if_pos h2]
              simp only [encExts, h4, if_true, List.map_cons, List.flatten_cons, hty, List.length_take, hN, hke]
              omega
            · rw [hr2]
              have hqn : n - 4 - (e.marshalLen + (es.map Ext.marshalLen).sum) ≤ q.length := by
                have := congrArg List.length hq
                rw [List.length_append, hke] at this; omega
              rw [length_encH', length_encOpt, if_pos h2]
              simp only [encExts, h4, if_true, List.map_cons, List.flatten_cons, hty, List.length_take, hN, hke]
              omega
            · intro h; simp only [] at h; simp only [h, Bool.false_eq_true, if_false]
            · intro h; simp only [] at h; simp only [h, Bool.false_eq_true, if_false]
            · simp only [h16]; rfl
            · simp only [h32]; rfl
            · rw [hr2, length_encOpt, if_pos h2]
              simp only [if_true, encExts, h4, List.map_cons, List.flatten_cons, hty, hN]
              rw [show n + 8 = (n - 4) + 12 by omega, show 8 + 4 = 12 by rfl]
              simp only [List.take_succ_cons, List.drop_succ_cons, List.drop_zero]
              rw [← hq, List.take_append, hke]
              rw [List.take_of_length_le (l := encExt e ++ _) (by rw [hke]; omega)]
        · simp only [h4, Bool.false_eq_true, if_false] at hp
          by_cases h6 : 65528 ≤ n
          · rw [if_pos h6] at hp; cases hp
          rw [if_neg h6] at hp
          simp only [ok.injEq] at hp
          subst hp
          refine ⟨?_, ?_, ?_, ?_, ?_, ?_, ?_, rfl, rfl, ?_, ?_, ?_⟩
          · simp only [hN, List.length_cons]; omega
          · intro h; simp only [] at h; exact absurd h h4
          · intro _; exact ⟨rfl, rfl⟩
          · rw [length_encH', length_encOpt, if_pos h2]
            simp only [encExts, h4, Bool.false_eq_true, if_false, List.length_nil, List.length_take, hN]
            omega
          · rw [length_encH', length_encOpt, if_pos h2]
            simp only [encExts, h4, Bool.false_eq_true, if_false, List.length_nil, List.length_take, hN]
            omega
          · intro h; simp only [] at h; simp only [h, Bool.false_eq_true, if_false]
          · intro h; simp only [] at h; simp only [h, Bool.false_eq_true, if_false]
          · simp only [h16]; rfl
          · simp only [h32]; rfl
          · rw [length_encOpt, if_pos h2]
            simp only [encExts, h4, Bool.false_eq_true, if_false, hN]
            rw [show n + 8 = (n - 4) + 12 by omega, show 8 + 4 = 12 by rfl]
            simp only [List.take_succ_cons, List.drop_succ_cons, List.drop_zero, List.nil_append]
    · rw [if_neg h2] at hp
      by_cases h6 : 65528 ≤ n
      · rw [if_pos h6] at hp; cases hp
      rw [if_neg h6] at hp
      simp only [ok.injEq] at hp
      subst hp
      have h4 : bit f 2 = false := by revert h2; cases bit f 2 <;> simp
      refine ⟨?_, ?_, ?_, ?_, ?_, ?_, ?_, rfl, rfl, ?_, ?_, ?_⟩
      · simp only [hN, List.length_cons]; omega
      · intro h; simp only [] at h; rw [h4] at h; cases h
      · intro _; exact ⟨rfl, rfl⟩
      · rw [length_encH', length_encOpt, if_neg h2]
        simp only [encExts, h4, Bool.false_eq_true, if_false, List.length_nil, List.length_take, hN]
        omega
      · rw [length_encH', length_encOpt, if_neg h2]
        simp only [encExts, h4, Bool.false_eq_true, if_false, List.length_nil, List.length_take, hN]
        omega
      · intro _; rfl
      · intro _; rfl
      · simp only [h16]; rfl
      · simp only [h32]; rfl
      · rw [length_encOpt, if_neg h2]
        simp only [Nat.add_zero, encExts, h4, Bool.false_eq_true, if_false, hN]
        simp only [List.take_succ_cons, List.drop_succ_cons, List.drop_zero, List.nil_append]

/-- **C22** an accepted header can be represented (in the sense of C21), so it can be serialised and read back. -/
theorem C22_header_wf (b : Bytes) (h : Header) (hp : Header.parse b = ok h) : Wf h := by
  obtain ⟨_, h2, h3, h4, h5, h6, h7, _⟩ := C22_header_faithful b h hp
  exact ⟨h4.symm, h5, h6, h7, h3, h2⟩

end Verif.V1

namespace Verif.V1
open Res Spec
/-! ### cases that meet the hypotheses -/

theorem exHdr_wf : Wf exHdr := ⟨by decide, by decide, by decide, by decide, by decide, by decide⟩
example := C21_round_trip exHdr exHdr_wf
example := C21_setLength { exHdr with length := 0, exts := [⟨0x85, 1, [0x10, 9], 0xc0⟩, ⟨0xc0, 1, [7], 0⟩] } (by decide) (by decide) (by decide) (by decide) (by decide)
example := C21_ext_round_trip 0xc0 0 [1, 2, 3] (by decide)
example := C21_ext_too_large 0xc0 0 (List.replicate 1020 1) (by rw [List.length_replicate])
example := C21_add (Header.new 0x30 255 1 0 [9]) rfl [⟨0x85, 1, [1, 2], 0xc0⟩, ⟨0xc0, 1, [3, 4], 0⟩] (by decide) (by decide)
example := C22_header_partial (encH exHdr) (by decide)
example := C22_header_faithful (encH exHdr) exHdr (by decide +kernel)
example := C22_header_wf (encH exHdr) exHdr (by decide +kernel)
end Verif.V1
