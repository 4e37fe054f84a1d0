import Verif.Model.AddrText
import Verif.Proofs.IPText
import Verif.Props.Typed.Addr
import Verif.Props.Typed.Plmn
import Verif.Props.Typed.V1
/-
Property theorems C85 (addresses as text in information elements) and C86 (socket addresses compared and split as text).
-/
namespace Verif
open Res NetIP IPSpec

namespace NetIP

theorem isIP_len {s a : Bytes} (h : IsIP s a) : a.length = 16 := by
  rcases h with ⟨v, hv, rfl⟩ | h
  · have := isV4_len hv; simp; omega
  · cases h with
    | full _ _ _ hl => exact hl
    | short l r p q k _ _ hk _ => simp; omega

/-- C85: the texts taken as addresses are exactly those of RFC 4291 2.2 and dotted decimal, and each gives the address it stands
for -/
theorem C85_accepted (s a : Bytes) : parseIP s = some a ↔ IsIP s a := parseIP_iff s a

-- 10.0.0.255, ::ffff:1.2.3.4, 2001:DB8::1; and refused: 10.0.0.256, 01.2.3.4, 1::2::3
example : parseIP [49, 48, 46, 48, 46, 48, 46, 50, 53, 53] = some [0, 0, 0, 0, 0, 0, 0, 0, 0, 0, 255, 255, 10, 0, 0, 255] ∧
    parseIP [58, 58, 102, 102, 102, 102, 58, 49, 46, 50, 46, 51, 46, 52] =
      some [0, 0, 0, 0, 0, 0, 0, 0, 0, 0, 255, 255, 1, 2, 3, 4] ∧
    parseIP [50, 48, 48, 49, 58, 68, 66, 56, 58, 58, 49] = some [32, 1, 13, 184, 0, 0, 0, 0, 0, 0, 0, 0, 0, 0, 0, 1] ∧
    parseIP [49, 48, 46, 48, 46, 48, 46, 50, 53, 54] = none ∧ parseIP [48, 49, 46, 50, 46, 51, 46, 52] = none ∧
    parseIP [49, 58, 58, 50, 58, 58, 51] = none := by decide +kernel

theorem ipString_eq {ip : Bytes} (h : ip.length = 4 ∨ ip.length = 16) :
    ipString ip = match to4 ip with | some v => str4 v | none => str6 ip := by
  rw [ipString, if_neg (by omega), if_neg (by omega)]
  rfl

theorem to4_len {ip v : Bytes} (h : to4 ip = some v) : v.length = 4 ∧ (ip = v ∨ ip = v4Prefix ++ v) := by
  unfold to4 at h
  split at h
  · rename_i hl; simp only [Option.some.injEq] at h; subst h; exact ⟨hl, .inl rfl⟩
  · split at h
    · rename_i hl
      simp only [Option.some.injEq] at h
      subst h
      refine ⟨by simp [hl.1], .inr ?_⟩
      rw [← hl.2, List.take_append_drop]
    · simp at h

/-- the two forms of an IPv4 address have the same text -/
theorem ipString_to4 {ip v : Bytes} (h : to4 ip = some v) : ipString v = ipString ip := by
  obtain ⟨hl, he⟩ := to4_len h
  have hip : ip.length = 4 ∨ ip.length = 16 := by
    rcases he with rfl | rfl
    · exact .inl hl
    · right; simp [v4Prefix, hl]
  rw [ipString_eq hip, h, ipString_eq (.inl hl)]
  simp [to4, hl]

theorem ipString_to16 {ip a : Bytes} (h : to16 ip = some a) : ipString a = ipString ip := by
  unfold to16 at h
  split at h
  · rename_i hl
    simp only [Option.some.injEq] at h
    subst h
    have : to4 (v4Prefix ++ ip) = some ip := by simp [to4, v4Prefix, hl]
    rw [ipString_to4 this]
  · split at h
    · simp only [Option.some.injEq] at h; rw [h]
    · simp at h

/-- the text of an address is one of the texts that stand for it -/
theorem isIP_ipString {ip : Bytes} (h : ip.length = 4 ∨ ip.length = 16) : ∃ a, to16 ip = some a ∧ IsIP (ipString ip) a := by
  rw [ipString_eq h]
  cases hv : to4 ip with
  | some v =>
    obtain ⟨hl, he⟩ := to4_len hv
    obtain ⟨p, q, r, s, rfl⟩ := V2.to4_some hv
    refine ⟨v4Prefix ++ [p, q, r, s], ?_, .inl ⟨_, isV4_str4 p q r s, rfl⟩⟩
    rcases he with rfl | rfl <;> simp [to16, v4Prefix]
  | none =>
    have h16 : ip.length = 16 := by
      rcases h with h | h
      · simp [to4, h] at hv
      · exact h
    exact ⟨ip, by simp [to16, h16], .inr (isV6_str6 h16)⟩

/-- C85: the text of an address is read back as the same address -/
theorem C85_roundtrip (ip : Bytes) (h : ip.length = 4 ∨ ip.length = 16) : parseIP (ipString ip) = to16 ip := by
  obtain ⟨a, ha, hi⟩ := isIP_ipString h
  rw [ha]; exact (parseIP_iff _ _).mpr hi

-- 2001:db8::1:0:0:1 : the first of two runs of zeros is shortened
example : ipString [32, 1, 13, 184, 0, 0, 0, 0, 0, 1, 0, 0, 0, 0, 0, 1] =
    [50, 48, 48, 49, 58, 100, 98, 56, 58, 58, 49, 58, 48, 58, 48, 58, 49] := by decide +kernel

theorem colon_mem_v6 {s a : Bytes} (h : IsV6 s a) : colon ∈ s := List.mem_of_find?_eq_some (isV6_find h)

/-- C85: an IPv4 address in dotted decimal has one text only: what was given is what comes back -/
theorem C85_v4_exact (s a : Bytes) (hc : colon ∉ s) (h : parseIP s = some a) : ipString a = s := by
  rcases (parseIP_iff s a).mp h with ⟨v, hv, rfl⟩ | h
  · have hl := isV4_len hv
    have : to4 (v4Prefix ++ v) = some v := by simp [to4, v4Prefix, hl]
    have e : ipString (v4Prefix ++ v) = str4 v := by
      rw [ipString_eq (.inr (by simp [v4Prefix, hl])), this]
    exact e.trans (isV4_unique hv).symm
  · exact absurd (colon_mem_v6 h) hc

example : colon ∉ ([49, 57, 50, 46, 48, 46, 50, 46, 49] : Bytes) ∧
    parseIP [49, 57, 50, 46, 48, 46, 50, 46, 49] = some (v4Prefix ++ [192, 0, 2, 1]) := by decide +kernel

/-! ### RFC 5952 -/

/-- the digits of `n` in base `b`, lower case, no zeros in front -/
def digitsOf (b n : Nat) : Bytes := (Nat.toDigits b n).map (fun c => UInt8.ofNat c.toNat)

theorem digit_char : ∀ k : Fin 16, UInt8.ofNat (Nat.digitChar k.val).toNat = digit k.val := by decide

theorem digitsOf_eq (b n : Nat) (hb : 1 < b) (hb16 : b ≤ 16) :
    digitsOf b n = if n < b then [digit n] else digitsOf b (n / b) ++ [digit (n % b)] := by
  unfold digitsOf
  rw [Nat.toDigits_eq_if hb]
  split
  · rename_i h
    simp only [List.map_cons, List.map_nil]
    rw [digit_char ⟨n, by omega⟩]
  · have : n % b < b := Nat.mod_lt _ (by omega)
    simp only [List.map_append, List.map_cons, List.map_nil]
    rw [digit_char ⟨n % b, by omega⟩]

theorem hex16_digits {n : Nat} (h : n < 65536) : hex16 n = digitsOf 16 n := by
  unfold hex16
  rw [digitsOf_eq 16 n (by omega) (by omega), digitsOf_eq 16 (n / 16) (by omega) (by omega),
    digitsOf_eq 16 (n / 16 / 16) (by omega) (by omega), digitsOf_eq 16 (n / 16 / 16 / 16) (by omega) (by omega)]
  by_cases h1 : n ≥ 0x1000
  · rw [if_pos h1, if_pos (by omega), if_pos (by omega), if_neg (by omega), if_neg (by omega), if_neg (by omega),
      if_pos (by omega), show n / 4096 = n / 16 / 16 / 16 by omega, show n / 256 % 16 = n / 16 / 16 % 16 by omega]
  · by_cases h2 : n ≥ 0x100
    · rw [if_neg h1, if_pos h2, if_pos (by omega), if_neg (by omega), if_neg (by omega), if_pos (by omega),
        show n / 256 % 16 = n / 16 / 16 by omega]
      rfl
    · by_cases h3 : n ≥ 0x10
      · rw [if_neg h1, if_neg h2, if_pos h3, if_neg (by omega), if_pos (by omega), show n / 16 % 16 = n / 16 by omega]
        rfl
      · rw [if_neg h1, if_neg h2, if_neg h3, if_pos (by omega), show n % 16 = n by omega]
        rfl

/-- the 16-bit groups `g` make up the octets `ip` -/
def IsGroups (g : List Nat) (ip : Bytes) : Prop :=
  (∀ x ∈ g, x < 65536) ∧ ip = g.flatMap (fun n => [UInt8.ofNat (n / 256), UInt8.ofNat (n % 256)])

/-- at least two groups are zero from `a` up to `b` -/
def ZeroRun (g : List Nat) (a b : Nat) : Prop := a + 2 ≤ b ∧ b ≤ g.length ∧ ∀ j, a ≤ j → j < b → g[j]? = some 0

/-- hexadecimal numbers between colons -/
def colonHex (g : List Nat) : Bytes := [58].intercalate (g.map (digitsOf 16))

theorem joinHex_colonHex (g : List Nat) (h : ∀ x ∈ g, x < 65536) : joinHex g = colonHex g := by
  cases g with
  | nil => rfl
  | cons x g =>
    induction g generalizing x with
    | nil => simp [joinHex, colonHex, hex16_digits (h x (by simp))]
    | cons y g ih =>
      have := ih y (fun z hz => h z (by simp [hz]))
      simp only [colonHex, List.map_cons, List.intercalate_cons_cons] at this ⊢
      rw [← this, ← hex16_digits (h x (by simp))]
      simp [joinHex, colon]

/-- C85: the text of an IPv6 address is the recommended one of RFC 5952: groups in lower case without superfluous zeros; the
longest run of two or more zero groups, the first if there are several, is written "::" -/
theorem C85_canonical (ip : Bytes) (h : ip.length = 16) (h4 : to4 ip = none) :
    ∃ g, IsGroups g ip ∧
      (((¬ ∃ a b, ZeroRun g a b) ∧ ipString ip = colonHex g) ∨
       ∃ a b, ZeroRun g a b ∧ (∀ a' b', ZeroRun g a' b' → b' - a' < b - a ∨ (b' - a' = b - a ∧ a ≤ a')) ∧
         ipString ip = colonHex (g.take a) ++ [58, 58] ++ colonHex (g.drop b)) := by
  have hg : (groups ip).length = 8 := by rw [groups_length, h]
  have hlt := groups_lt ip
  refine ⟨groups ip, ⟨hlt, (octs_groups ip (by omega)).symm⟩, ?_⟩
  have hs : ipString ip = str6 ip := by rw [ipString_eq (.inr h), h4]
  obtain ⟨hb1, hb2⟩ := best_zero (groups ip)
  rw [hs]
  unfold str6
  simp only []
  rcases hb2 with hb | ⟨-, hb, hz⟩
  · left
    refine ⟨?_, by rw [hb, put6_full _ _ _ hg (by omega), joinHex_colonHex _ hlt]⟩
    rintro ⟨a, b, r1, r2, r3⟩
    have := (hb1 a b (by omega) r1 ⟨r2, r3⟩).1
    rw [hb] at this
    simp at this
    omega
  · right
    generalize bestRun (groups ip) 0 (255, 255) = r at *
    refine ⟨r.1, r.2, ⟨hb, hz.1, hz.2⟩, fun a b ⟨r1, r2, r3⟩ => ?_, ?_⟩
    · have := hb1 a b (by omega) r1 ⟨r2, r3⟩
      omega
    · rw [put6_short _ _ _ hg (by omega) (by have := hz.1; omega),
        joinHex_colonHex _ (fun x hx => hlt x (List.mem_of_mem_take hx)),
        joinHex_colonHex _ (fun x hx => hlt x (List.mem_of_mem_drop hx))]
      simp [colon]

-- 1:0:0:4:5:0:0:0 is written 1:0:0:4:5::
example : ipString [0, 1, 0, 0, 0, 0, 0, 4, 0, 5, 0, 0, 0, 0, 0, 0] = [49, 58, 48, 58, 48, 58, 52, 58, 53, 58, 58] := by
  decide +kernel

end NetIP

/-! ### C85: elements -/

namespace V2
variable (g : UInt8 → Bool)

theorem ip_text {i : IE} {v : Bytes} (h : i.ip = ok v) : i.ipAddress = ok (ipString v) := by
  rw [IE.ipAddress, h]; rfl

theorem fwdAddr_text {a v : Bytes} (h : fwdAddr a = some v) : ipString v = ipString a := by
  unfold fwdAddr at h
  cases h4 : to4 a with
  | some w => rw [h4] at h; simp only [Option.some_or, Option.some.injEq] at h; subst h; exact ipString_to4 h4
  | none => rw [h4] at h; simp only [Option.none_or] at h; exact ipString_to16 h

theorem fwdAddr_16 {a : Bytes} (h : a.length = 16) : ∃ v, fwdAddr a = some v := by
  unfold fwdAddr
  cases to4 a with
  | some w => exact ⟨w, rfl⟩
  | none => exact ⟨a, by simp [to16, h]⟩

theorem text_of {s a : Bytes} (h : IsIP s a) : ofOpt (parseIP s) = a ∧ a.length = 16 :=
  ⟨by rw [(parseIP_iff s a).mpr h]; rfl, isIP_len h⟩

/-- C85 for GTPv2: the text of an address given to a constructor comes back from the accessors as the text of the same address,
also after the wire and with any instance -/
theorem C85_elements_v2 (s a : Bytes) (h : IsIP s a) (pre ebi : UInt8) (key : UInt32) (ebis : Bytes) (he : ebis.length < 256)
    (hr : ∀ e ∈ ebis, e < 16) (hb : ebi < 16) (n : UInt8)
    (hg : g 74 = false ∧ g 79 = false ∧ g 90 = false ∧ g 91 = false) :
    (Carried g ((newIPAddressText s).withInstance n) ∧ ((newIPAddressText s).withInstance n).ipAddress = ok (ipString a)) ∧
    (∃ i, newPAAText s = ok (some i) ∧ Carried g (i.withInstance n) ∧ (i.withInstance n).ipAddress = ok (ipString a)) ∧
    (∃ i, newPAAIPv6Text s pre = ok (some i) ∧ Carried g (i.withInstance n) ∧ (i.withInstance n).ipAddress = ok (ipString a)) ∧
    (∃ i, newS103Text s key ebis = ok (some i) ∧ Carried g (i.withInstance n) ∧
      (i.withInstance n).ipAddress = ok (ipString a) ∧ (i.withInstance n).hsgwAddress = ok (ipString a)) ∧
    (∃ i, newS1UDFText ebi s key = ok (some i) ∧ Carried g (i.withInstance n) ∧
      (i.withInstance n).ipAddress = ok (ipString a) ∧ (i.withInstance n).sgwAddress = ok (ipString a)) := by
  obtain ⟨ht, hl⟩ := text_of h
  obtain ⟨v, hv⟩ := fwdAddr_16 hl
  have e := fwdAddr_text hv
  have paa : ∀ p, ∃ i, newPAA a p = ok (some i) ∧ Carried g (i.withInstance n) ∧
      (i.withInstance n).ipAddress = ok (ipString a) := by
    intro p
    cases h4 : to4 a with
    | some w =>
      obtain ⟨i, h1, -, h2⟩ := C50_paa_v4 g a w p h4 hg.2.1
      exact ⟨i, h1, (h2 n).1, by rw [ip_text (h2 n).2.1, ipString_to4 h4]⟩
    | none =>
      obtain ⟨i, h1, -, h2⟩ := C50_paa_v6 g a a p h4 (to16_16 hl) hg.2.1
      exact ⟨i, h1, (h2 n).1, ip_text (h2 n).2.1⟩
  refine ⟨?_, ?_, ?_, ?_, ?_⟩
  · have hn : newIPAddressText s = newIPAddress a := by
      simp only [newIPAddressText, newIPAddress, ht]
      cases to4 a with
      | some w => rfl
      | none => simp [to16, hl]
    obtain ⟨-, h1, h2⟩ := C50_ip g a v hv hg.1 n
    rw [hn]
    exact ⟨h1, by rw [ip_text h2, e]⟩
  · rw [newPAAText, ht]; exact paa 0
  · rw [newPAAIPv6Text, ht]; exact paa pre
  · obtain ⟨i, h1, hp, h2⟩ := C50_s103 g a v key ebis hv he hr hg.2.2.1
    have ha : (i.withInstance n).ipAddress = ok (ipString a) := by rw [ip_text (h2 n).2.2.1, e]
    refine ⟨i, by rw [newS103Text, ht]; exact h1, (h2 n).1, ha, ?_⟩
    have : (i.withInstance n).typ = 90 := by
      have := (h2 n).2.1
      unfold IE.s103 at this
      split at this
      · assumption
      · simp at this
    rw [IE.hsgwAddress, if_neg (by simp [this]), ha]
  · obtain ⟨i, h1, hp, h2⟩ := C50_s1u_partial g ebi a v key hv hb hg.2.2.2
    have ha : (i.withInstance n).ipAddress = ok (ipString a) := by rw [ip_text (h2 n).2.2, e]
    refine ⟨i, by rw [newS1UDFText, ht]; exact h1, (h2 n).1, ha, ?_⟩
    have : (i.withInstance n).typ = 91 := by
      have := (h2 n).2.1
      unfold IE.s1udf at this
      split at this
      · assumption
      · simp at this
    rw [IE.sgwAddress, if_neg (by simp [this]), ha]

-- 10.0.0.1
example : (newIPAddressText [49, 48, 46, 48, 46, 48, 46, 49]).ipAddress = ok [49, 48, 46, 48, 46, 48, 46, 49] := by
  decide +kernel

/-- C85 for the F-TEID of GTPv2: the first text counts if it is an IPv4 address, otherwise the second if it is an address of any
kind; the text accessor prefers the former.  An element without an address says so. -/
theorem C85_fteid (ifType : UInt8) (teid : UInt32) (s4 s6 : Bytes) (h : ifType < 64) (hg : g 87 = false) (n : UInt8) :
    ∃ i, newFTEIDText ifType teid s4 s6 = ok (some i) ∧ Carried g (i.withInstance n) ∧
      (i.withInstance n).hasIPv4 = ok ((parseIP s4).bind to4).isSome ∧
      (i.withInstance n).hasIPv6 = ok (parseIP s6).isSome ∧
      (i.withInstance n).ipAddress =
        match (parseIP s4).bind to4, parseIP s6 with
        | some v, _ => ok (ipString v)
        | none, some a => ok (ipString a)
        | none, none => err .notFound := by
  have e4 : to4 (ofOpt (parseIP s4)) = (parseIP s4).bind to4 := by
    cases parseIP s4 with
    | none => rfl
    | some a => rfl
  have e6 : to16 (ofOpt (parseIP s6)) = parseIP s6 := by
    cases hp : parseIP s6 with
    | none => rfl
    | some a => simp [ofOpt, to16_16 (isIP_len ((parseIP_iff _ _).mp hp))]
  obtain ⟨i, h1, -, h2⟩ := C41_fteid_partial g ifType teid (ofOpt (parseIP s4)) (ofOpt (parseIP s6)) h hg
  rw [e4, e6] at h2
  refine ⟨i, h1, (h2 n).1, (h2 n).2.r_has4, (h2 n).2.r_has6, ?_⟩
  rw [IE.ipAddress, (h2 n).2.r_ip]
  cases (parseIP s4).bind to4 with
  | some v => rfl
  | none =>
    cases parseIP s6 with
    | some a => rfl
    | none => rfl

/-- C85 for the dual-stack PDN address of GTPv2, given the texts of an IPv4 address and of an address -/
theorem C85_paa_dual_partial (s4 s6 a4 a6 v : Bytes) (pre : UInt8) (h4 : IsIP s4 a4) (h6 : IsIP s6 a6) (hv : to4 a4 = some v)
    (hg : g 79 = false) (n : UInt8) :
    ∃ i, newPAADualText s4 s6 pre = ok (some i) ∧ Carried g (i.withInstance n) ∧
      (i.withInstance n).ipAddress = ok (ipString a4) ∧ (i.withInstance n).ipv6 = ok a6 := by
  obtain ⟨t4, l4⟩ := text_of h4
  obtain ⟨t6, l6⟩ := text_of h6
  obtain ⟨i, h1, -, h2⟩ := C50_paa_dual g a4 a6 v a6 pre hv (to16_16 l6) hg
  refine ⟨i, by rw [newPAADualText, t4, t6]; exact h1, (h2 n).1, ?_, (h2 n).2.2.2.1⟩
  rw [ip_text (h2 n).2.1, ipString_to4 hv]

/-- C85: a text that is no address gives a GTPv2 element without one: the accessors refuse it -/
theorem C85_refused_v2_partial (s : Bytes) (h : ¬ ∃ a, IsIP s a) (pre ebi : UInt8) (key : UInt32) :
    (newIPAddressText s).ipAddress = err .eof ∧
    (∃ i, newPAAIPv6Text s pre = ok (some i) ∧ i.ipAddress = err .eof) ∧
    (∃ i, newS103Text s key [] = ok (some i) ∧ i.hsgwAddress = err .malformed) ∧
    (∃ i, newS1UDFText ebi s key = ok (some i) ∧ i.sgwAddress = err .malformed) := by
  have hp : parseIP s = none := by
    cases hp : parseIP s with
    | none => rfl
    | some a => exact absurd ⟨a, (parseIP_iff s a).mp hp⟩ h
  have e : ofOpt (parseIP s) = [] := by rw [hp]; rfl
  refine ⟨?_, ?_, ?_, ?_⟩
  · simp only [newIPAddressText, e]; rfl
  · refine ⟨newIE 79 0 [4], ?_, by decide⟩
    rw [newPAAIPv6Text, e]
    have : newPAA [] pre = newPAA [] 0 := rfl
    rw [this]; decide
  · refine ⟨newIE 90 0 (encS103 [] key []), ?_, ?_⟩
    · rw [newS103Text, e]
      have := S103_marshal [] [] key (by simp) (by simp)
      have hf : newS103Fields [] key [] = ⟨UInt8.ofNat ([] : Bytes).length, [], key, UInt8.ofNat ([] : Bytes).length, []⟩ := rfl
      rw [newS103, hf, this]
      rfl
    · obtain ⟨p, q, r, t, hk⟩ := be32_cases key
      simp [IE.hsgwAddress, IE.ipAddress, ip_s103, encS103, hk, addrAt]
  · obtain ⟨p, q, r, t, hk⟩ := be32_cases key
    refine ⟨newIE 91 0 ([ebi &&& 0x0f, 0] ++ be32 key), ?_, ?_⟩
    · rw [newS1UDFText, e]
      simp [newS1UDF, newS1UDFFields, to4, to16, S1UDF.marshal, S1UDF.marshalLen, S1UDF.marshalTo, setAt, copyAt, hk, build,
        List.replicate_succ]
    · simp [IE.sgwAddress, IE.ipAddress, ip_s1u, hk, addrAt]

/-- C85 for the fully qualified CSID of GTPv2: a node given as the text of an address is read back as that address -/
theorem C85_csid_partial (s a : Bytes) (h : IsIP s a) (ids : List UInt16) (hi : ids.length < 16) (h0 : ids ≠ [])
    (hg : g 132 = false) (n : UInt8) :
    ∃ i, newCSIDText s ids = ok (some i) ∧ Carried g (i.withInstance n) ∧
      (i.withInstance n).nodeIDType = ok (if (to4 a).isSome then 0 else 1) ∧
      (i.withInstance n).nodeID = ok ((to4 a).getD a) ∧ (i.withInstance n).csids = ok ids := by
  have hp := (parseIP_iff s a).mpr h
  cases h4 : to4 a with
  | some v =>
    obtain ⟨i, h1, -, -, h2, -, h3, h5, h6⟩ := C50_csid_partial g s (some a) 0 v ids hi (.inl ⟨rfl, a, rfl, h4⟩) n hg
    exact ⟨i, by rw [newCSIDText, hp]; exact h1, h2, h3, h6 h0, h5⟩
  | none =>
    obtain ⟨i, h1, -, -, h2, -, h3, h5, h6⟩ := C50_csid_partial g s (some a) 1 a ids hi (.inr (.inl ⟨rfl, rfl, h4, isIP_len h⟩)) n hg
    exact ⟨i, by rw [newCSIDText, hp]; exact h1, h2, h3, h6 h0, h5⟩

/-- departure: a node text that is neither an address nor hexadecimal crashes, for instance the address 10.0.0.256 -/
theorem C85_csid_wrong (s : Bytes) (h : ¬ ∃ a, IsIP s a) (hx : ∀ b, Utils.hexDecode s ≠ ok b) (ids : List UInt16) :
    newCSIDText s ids = .panic := by
  have hp : parseIP s = none := by
    cases hp : parseIP s with
    | none => rfl
    | some a => exact absurd ⟨a, (parseIP_iff s a).mp hp⟩ h
  have hf : newCSIDFields s none ids = none := by
    unfold newCSIDFields
    cases hd : Utils.hexDecode s with
    | ok b => exact absurd hd (hx b)
    | err e => rfl
    | panic => rfl
    | diverge => rfl
  rw [newCSIDText, hp, newCSID, hf]

example : newCSIDText [49, 48, 46, 48, 46, 48, 46, 50, 53, 54] [1] = .panic := by decide +kernel

/-- departure: a dual-stack PDN address made from texts that are no addresses carries the addresses 0.0.0.0 and "::" -/
theorem C85_paa_dual_wrong (s4 s6 : Bytes) (h4 : ¬ ∃ a, IsIP s4 a) (h6 : ¬ ∃ a, IsIP s6 a) (pre : UInt8) :
    ∃ i, newPAADualText s4 s6 pre = ok (some i) ∧ i.ipAddress = ok [48, 46, 48, 46, 48, 46, 48] ∧
      i.ipv6 = ok (List.replicate 16 0) := by
  have hp : ∀ s, (¬ ∃ a, IsIP s a) → ofOpt (parseIP s) = [] := by
    intro s h
    cases hp : parseIP s with
    | none => rfl
    | some a => exact absurd ⟨a, (parseIP_iff s a).mp hp⟩ h
  rw [newPAADualText, hp s4 h4, hp s6 h6]
  refine ⟨newIE 79 0 (3 :: pre :: List.replicate 20 0), ?_, ?_, ?_⟩
  · simp [newPAADual, PAA.marshal, PAA.marshalLen, PAA.marshalTo, setAt, copyAt, to4, to16, ofOpt, build, List.replicate_succ]
  · have : (newIE 79 0 (3 :: pre :: List.replicate 20 0)).ip = ok [0, 0, 0, 0] := by
      simp [IE.ip, parsePAA, slice, List.replicate_succ]
    rw [ip_text this]; decide
  · simp [IE.ipv6, parsePAA, slice, List.replicate_succ, to16, orNotFound]

end V2

namespace TLV

theorem ip_text {i : IE} {v : Bytes} (h : i.ip = ok v) : i.ipAddress = ok (ipString v) := by
  rw [IE.ipAddress, h]; rfl

theorem getD_text {a : Bytes} : ipString ((to4 a).getD a) = ipString a := by
  cases h : to4 a with
  | some v => exact ipString_to4 h
  | none => rfl

def Ver.newEUAddrText : Ver → Bytes → Res (Option IE) | .v0 => newEUAddrText0 | .v1 => newEUAddrText1

theorem not_ppp {s a : Bytes} (h : IsIP s a) : s ≠ pppText := by
  rintro rfl
  have := (parseIP_iff _ _).mpr h
  revert this
  rw [show parseIP pppText = none from by decide +kernel]
  simp

/-- C85 for GTPv1 and GTPv0: the text of an address given to a constructor comes back from the accessors as the text of the same
address, also after the wire -/
theorem C85_elements_v1 (s a : Bytes) (h : IsIP s a) :
    (∃ i, newGSNAddressText1 s = some i ∧ Kept .v1 i ∧ i.addressText 133 = ok (ipString a) ∧ i.ipAddress = ok (ipString a)) ∧
    (∀ t, t = 133 ∨ t = 251 → Kept .v0 (newAddressText0 t s) ∧ (newAddressText0 t s).addressText t = ok (ipString a)) ∧
    (newAddressText0 133 s).ipAddress = ok (ipString a) ∧
    (∀ v : Ver, ∃ i, v.newEUAddrText s = ok (some i) ∧ Kept v i ∧ i.ipAddress = ok (ipString a)) ∧
    (∀ v : Ver, ∃ i, newEUAddrIPv6Text v.cfg s = ok i ∧ Kept v i ∧ i.ipAddress = ok (ipString a)) ∧
    (∀ v : Ver, ∃ i, newEUAddrIPv4Text v.cfg s = ok i ∧ Kept v i ∧
      i.ipAddress = if (to4 a).isSome then ok (ipString a) else err .eof) := by
  obtain ⟨ht, hl⟩ := V2.text_of h
  refine ⟨?_, ?_, ?_, ?_, ?_, ?_⟩
  · obtain ⟨i, h1, h2, h3, h4⟩ := C59_gsn_v1 a (.inr hl)
    refine ⟨i, by rw [newGSNAddressText1, ht]; exact h1, h2.s_kept, ?_, by rw [ip_text h4, getD_text]⟩
    rw [IE.addressText, h3]; simp [getD_text]
  · intro t hT
    obtain ⟨h1, h2, h3⟩ := C59_address_v0 t hT a (.inr hl)
    rw [newAddressText0, ht]
    refine ⟨h1.s_kept, ?_⟩
    rw [IE.addressText, h2]; simp [getD_text]
  · obtain ⟨h1, h2, h3⟩ := C59_address_v0 133 (.inl rfl) a (.inr hl)
    rw [newAddressText0, ht, ip_text (h3 rfl), getD_text]
  · intro v
    obtain ⟨i, h1, h2, -, -, h3⟩ := C59_eua v a (.inr hl)
    refine ⟨i, ?_, h2.s_kept, by rw [ip_text h3, getD_text]⟩
    cases v <;> simp only [Ver.newEUAddrText, newEUAddrText0, newEUAddrText1, if_neg (not_ppp h), ht] <;> exact h1
  · intro v
    obtain ⟨i, h1, h2, h3⟩ := (C59_eua_kinds v a).2
    rw [V2.to16_16 hl] at h3
    exact ⟨i, by rw [newEUAddrIPv6Text, ht]; exact h1, h2.s_kept, ip_text h3⟩
  · intro v
    obtain ⟨i, h1, h2, h3⟩ := (C59_eua_kinds v a).1
    refine ⟨i, by rw [newEUAddrIPv4Text, ht]; exact h1, h2.s_kept, ?_⟩
    cases h4 : to4 a with
    | some w => rw [h4] at h3; rw [ip_text h3, ipString_to4 h4]; rfl
    | none => rw [h4] at h3; rw [IE.ipAddress, h3]; rfl

-- 2001:db8::1 in GTPv1
example : (newGSNAddressText1 [50, 48, 48, 49, 58, 100, 98, 56, 58, 58, 49]).map (fun i => i.addressText 133) =
    some (ok [50, 48, 48, 49, 58, 100, 98, 56, 58, 58, 49]) := by decide +kernel

/-- C85: a text that is no address gives no element, or one the accessors refuse, in GTPv1; in GTPv0 this holds but for
`NewEndUserAddress` (`C85_eua_v0_wrong`) -/
theorem C85_refused_v1_partial (s : Bytes) (h : ¬ ∃ a, IsIP s a) :
    newGSNAddressText1 s = none ∧ (s ≠ pppText → newEUAddrText1 s = ok none) ∧
    (∀ t, t = 133 ∨ t = 251 → (newAddressText0 t s).addressText t = err .eof) ∧
    (∀ v : Ver, ∃ i, newEUAddrIPv6Text v.cfg s = ok i ∧ i.ipAddress = err .eof) ∧
    (∀ v : Ver, ∃ i, newEUAddrIPv4Text v.cfg s = ok i ∧ i.ipAddress = err .eof) := by
  have e : ofOpt (parseIP s) = [] := by
    cases hp : parseIP s with
    | none => rfl
    | some a => exact absurd ⟨a, (parseIP_iff s a).mp hp⟩ h
  refine ⟨by rw [newGSNAddressText1, e]; rfl, fun hs => by rw [newEUAddrText1, if_neg hs, e]; rfl, ?_, ?_, ?_⟩
  · intro t ht
    rw [newAddressText0, e]
    rcases ht with rfl | rfl <;> decide
  · intro v
    rw [newEUAddrIPv6Text, e]
    cases v <;> exact ⟨_, rfl, by decide⟩
  · intro v
    rw [newEUAddrIPv4Text, e]
    cases v <;> exact ⟨_, rfl, by decide⟩

/-- C85: the text "ppp" makes an End User Address of ETSI's PPP kind without an address -/
theorem C85_ppp (v : Ver) : ∃ i, v.newEUAddrText pppText = ok (some i) ∧ Kept v i ∧ i.payload = [0xf0, 0xf1] ∧
    i.pdpTypeOrganization = ok 0xf0 ∧ i.ipAddress = err .eof := by
  cases v <;> refine ⟨_, rfl, ?_, rfl, by decide, by decide⟩
  · exact (C59_eua_ppp_partial .v0).1.s_kept
  · exact (C59_eua_ppp_partial .v1).1.s_kept

/-- departure: in GTPv0 an End User Address made from a text that is no address carries the address "::" -/
theorem C85_eua_v0_wrong (s : Bytes) (h : ¬ ∃ a, IsIP s a) (hs : s ≠ pppText) :
    ∃ i, newEUAddrText0 s = ok (some i) ∧ i.ipAddress = ok [58, 58] := by
  have e : ofOpt (parseIP s) = [] := by
    cases hp : parseIP s with
    | none => rfl
    | some a => exact absurd ⟨a, (parseIP_iff s a).mp hp⟩ h
  rw [newEUAddrText0, if_neg hs, e]
  exact ⟨_, rfl, by decide +kernel⟩

-- 10.0.0.256 is no address
example : ¬ ∃ a, IsIP [49, 48, 46, 48, 46, 48, 46, 50, 53, 54] a := by
  rintro ⟨a, h⟩
  have := (parseIP_iff _ _).mpr h
  rw [show parseIP [49, 48, 46, 48, 46, 48, 46, 50, 53, 54] = none from by decide +kernel] at this
  simp at this

end TLV

/-! ### C86 -/

namespace NetIP

/-- a socket address as the network code makes them: an address of 4 or 16 octets -/
def UDPAddr.Proper (a : UDPAddr) : Prop := a.ip.length = 4 ∨ a.ip.length = 16

theorem string_eq {a : UDPAddr} (h : a.Proper) :
    a.string = joinHostPort (ipString a.ip ++ (if a.zone = [] then [] else percent :: a.zone)) (decNat a.port) := by
  have : ¬ a.ip.length = 0 := by rcases h with h | h <;> omega
  unfold UDPAddr.string
  simp only [if_neg this]
  by_cases hz : a.zone = [] <;> simp [hz]

theorem ipString_chars {ip : Bytes} (h : ip.length = 4 ∨ ip.length = 16) :
    ipString ip ≠ [] ∧ ∀ c ∈ ipString ip, AddrChar c := by
  obtain ⟨a, -, hi⟩ := isIP_ipString h
  exact isIP_chars hi

/-- C86: two socket addresses have the same text exactly if they are the same address, port and zone, whether an IPv4 address is
kept in four or in sixteen octets -/
theorem C86_same (a b : UDPAddr) (ha : a.Proper) (hb : b.Proper) :
    a.string = b.string ↔ to16 a.ip = to16 b.ip ∧ a.port = b.port ∧ a.zone = b.zone := by
  obtain ⟨na, ca⟩ := ipString_chars ha
  obtain ⟨nb, cb⟩ := ipString_chars hb
  rw [string_eq ha, string_eq hb]
  constructor
  · intro h
    have hd : ∀ (x z : Bytes), x ≠ [] → (∀ c ∈ x, AddrChar c) → (x ++ z).head? ≠ some lbr := by
      intro x z hx hc
      cases x with
      | nil => exact absurd rfl hx
      | cons y x => simp; exact (addrChar_ne (hc y (by simp))).2.1
    have hc : ∀ n, colon ∉ decNat n := fun n => decNat_ne colon (.inr (by decide))
    obtain ⟨e1, e2⟩ := join_inj (hd _ _ na ca) (hd _ _ nb cb) (hc _) (hc _) h
    have pa : percent ∉ ipString a.ip := fun hp => (addrChar_ne (ca _ hp)).1 rfl
    have pb : percent ∉ ipString b.ip := fun hp => (addrChar_ne (cb _ hp)).1 rfl
    have key : ipString a.ip = ipString b.ip ∧ a.zone = b.zone := by
      split at e1 <;> split at e1
      · rename_i z1 z2; simp only [List.append_nil] at e1; exact ⟨e1, by rw [z1, z2]⟩
      · rw [List.append_nil] at e1; exact absurd (by rw [e1]; simp) pa
      · rw [List.append_nil] at e1; exact absurd (by rw [← e1]; simp) pb
      · exact split_first pa pb e1
    refine ⟨?_, decNat_inj e2, key.2⟩
    rw [← C85_roundtrip _ ha, ← C85_roundtrip _ hb, key.1]
  · rintro ⟨h1, h2, h3⟩
    have : ipString a.ip = ipString b.ip := by
      obtain ⟨x, hx, -⟩ := isIP_ipString ha
      have hy : to16 b.ip = some x := h1 ▸ hx
      exact (ipString_to16 hx).symm.trans (ipString_to16 hy)
    rw [this, h2, h3]

/-- C86: the text of a socket address gives back the text of the address and the decimal port -/
theorem C86_split (a : UDPAddr) (ha : a.Proper) (hz : ∀ c ∈ a.zone, c ≠ lbr ∧ c ≠ rbr) :
    ∃ host port, splitHostPort a.string = some (host, port) ∧ port = digitsOf 10 a.port ∧
      (a.zone = [] → host = ipString a.ip) ∧ (a.zone ≠ [] → host = ipString a.ip ++ percent :: a.zone) := by
  obtain ⟨na, ca⟩ := ipString_chars ha
  have hd : ∀ n, decNat n = digitsOf 10 n := by
    intro n
    induction n using Nat.strongRecOn with
    | _ n ih =>
      rw [decNat, digitsOf_eq 10 n (by omega) (by omega)]
      split
      · rfl
      · rw [ih (n / 10) (by omega)]
  rw [string_eq ha]
  refine ⟨_, _, split_join ?_ ⟨decNat_ne _ (.inr (by decide)), decNat_ne _ (.inr (by decide)), decNat_ne _ (.inr (by decide))⟩,
    hd _, ?_, ?_⟩
  · intro c hc
    rcases List.mem_append.mp hc with h | h
    · exact (addrChar_ne (ca c h)).2
    · split at h
      · simp at h
      · rcases List.mem_cons.mp h with rfl | h
        · decide
        · exact hz c h
  · intro h; simp [h]
  · intro h; simp [h]

-- 192.0.2.1:2123 and [fe80::1%eth0]:2152
example : (UDPAddr.mk [192, 0, 2, 1] 2123 []).string = [49, 57, 50, 46, 48, 46, 50, 46, 49, 58, 50, 49, 50, 51] ∧
    (UDPAddr.mk [254, 128, 0, 0, 0, 0, 0, 0, 0, 0, 0, 0, 0, 0, 0, 1] 2152 [101, 116, 104, 48]).string =
      [91, 102, 101, 56, 48, 58, 58, 49, 37, 101, 116, 104, 48, 93, 58, 50, 49, 53, 50] ∧
    splitHostPort [91, 102, 101, 56, 48, 58, 58, 49, 37, 101, 116, 104, 48, 93, 58, 50, 49, 53, 50] =
      some ([102, 101, 56, 48, 58, 58, 49, 37, 101, 116, 104, 48], [50, 49, 53, 50]) := by decide +kernel

end NetIP

/-- C86: the peer check of a session compares addresses, ports and zones, not how the address is kept -/
theorem C86_peer (a b : UDPAddr) (ha : a.Proper) (hb : b.Proper) :
    samePeer a b = true ↔ to16 a.ip = to16 b.ip ∧ a.port = b.port ∧ a.zone = b.zone := by
  rw [samePeer, decide_eq_true_iff]; exact C86_same a b ha hb

example : samePeer ⟨[192, 0, 2, 1], 2123, []⟩ ⟨[0, 0, 0, 0, 0, 0, 0, 0, 0, 0, 255, 255, 192, 0, 2, 1], 2123, []⟩ = true ∧
    samePeer ⟨[192, 0, 2, 1], 2123, []⟩ ⟨[192, 0, 2, 1], 21231, []⟩ = false ∧
    samePeer ⟨[192, 0, 2, 1], 2123, []⟩ ⟨[192, 0, 2, 12], 123, []⟩ = false := by decide +kernel

/-- C86: the GSN Address of an Error Indication is the address the connection listens on, in four octets for IPv4 -/
theorem C86_gsn_partial (a : UDPAddr) (ha : a.Proper) (hz : a.zone = []) :
    ∃ i, localGSN a = some (some i) ∧ i.address 133 = ok ((to4 a.ip).getD a.ip) ∧ i.addressText 133 = ok (ipString a.ip) := by
  obtain ⟨host, port, h1, -, h2, -⟩ := C86_split a ha (by simp [hz])
  have h2 := h2 hz
  subst h2
  obtain ⟨x, hx, hi⟩ := isIP_ipString ha
  have hp := (parseIP_iff _ _).mpr hi
  have hxl := isIP_len hi
  obtain ⟨i, g1, -, g3, g4⟩ := TLV.C59_gsn_v1 x (.inr hxl)
  have e : (to4 x).getD x = (to4 a.ip).getD a.ip := by
    rcases ha with hl | hl
    · have : x = v4Prefix ++ a.ip := by simp [to16, hl] at hx; exact hx.symm
      subst this
      simp [to4, hl, v4Prefix]
    · have : x = a.ip := by simp [to16, hl] at hx; exact hx.symm
      rw [this]
  refine ⟨i, ?_, by rw [g3, e], ?_⟩
  · rw [localGSN, h1]
    simp only [Option.map_some, TLV.newGSNAddressText1, hp, ofOpt]
    exact congrArg some g1
  · rw [TLV.IE.addressText, g3, e]; simp [TLV.getD_text]

/-- departure: a connection that listens on an address with a zone sends Error Indications without a GSN Address -/
theorem C86_gsn_wrong (a : UDPAddr) (ha : a.Proper) (hz : a.zone ≠ []) (hb : ∀ c ∈ a.zone, c ≠ lbr ∧ c ≠ rbr) :
    localGSN a = some none := by
  obtain ⟨host, port, h1, -, -, h2⟩ := C86_split a ha hb
  have h2 := h2 hz
  have hp : parseIP host = none := by
    cases hp : parseIP host with
    | none => rfl
    | some x =>
      have := (isIP_chars ((parseIP_iff _ _).mp hp)).2 percent (by rw [h2]; simp)
      exact absurd rfl (addrChar_ne this).1
  rw [localGSN, h1]
  simp only [Option.map_some, TLV.newGSNAddressText1, hp, ofOpt]
  rfl

example : (localGSN ⟨[192, 0, 2, 1], 2152, []⟩).map (Option.map (·.payload)) = some (some [192, 0, 2, 1]) ∧
    localGSN ⟨[254, 128, 0, 0, 0, 0, 0, 0, 0, 0, 0, 0, 0, 0, 0, 1], 2152, [101, 116, 104, 48]⟩ = some none := by decide +kernel

end Verif

namespace Verif
open Res NetIP IPSpec
/-! ### cases that meet the hypotheses -/

namespace IPTextEx
/-- 10.0.0.1 -/
def t4 : Bytes := [49, 48, 46, 48, 46, 48, 46, 49]
def a4 : Bytes := [0, 0, 0, 0, 0, 0, 0, 0, 0, 0, 255, 255, 10, 0, 0, 1]
theorem is4 : IsIP t4 a4 := (parseIP_iff _ _).mp (by decide +kernel)
/-- 2001:db8::1 -/
def t6 : Bytes := [50, 48, 48, 49, 58, 100, 98, 56, 58, 58, 49]
def a6 : Bytes := [32, 1, 13, 184, 0, 0, 0, 0, 0, 0, 0, 0, 0, 0, 0, 1]
theorem is6 : IsIP t6 a6 := (parseIP_iff _ _).mp (by decide +kernel)
/-- 10.0.0.256 -/
def tNo : Bytes := [49, 48, 46, 48, 46, 48, 46, 50, 53, 54]
theorem isNo : ¬ ∃ a, IsIP tNo a := by
  rintro ⟨a, h⟩
  have := (parseIP_iff _ _).mpr h
  rw [show parseIP tNo = none from by decide +kernel] at this
  simp at this
/-- fe80::1%eth0, port 2152 -/
def uZ : UDPAddr := ⟨[254, 128, 0, 0, 0, 0, 0, 0, 0, 0, 0, 0, 0, 0, 0, 1], 2152, [101, 116, 104, 48]⟩
def u4 : UDPAddr := ⟨[192, 0, 2, 1], 2152, []⟩

example := C85_roundtrip a6 (.inr rfl)
example := C85_v4_exact t4 a4 (by decide) (by decide +kernel)
example := C85_canonical a6 rfl (by decide +kernel)
example := V2.C85_elements_v2 (g := V2.defaultGrouped) t6 a6 is6 64 5 9 [5, 6] (by decide) (by decide) (by decide) 0 (by decide)
example := V2.C85_fteid (g := V2.defaultGrouped) 10 7 t4 t6 (by decide) (by decide) 0
example := V2.C85_paa_dual_partial (g := V2.defaultGrouped) t4 t6 a4 a6 [10, 0, 0, 1] 64 is4 is6 (by decide +kernel) (by decide) 0
example := V2.C85_refused_v2_partial tNo isNo 64 5 9
example := V2.C85_csid_partial (g := V2.defaultGrouped) t6 a6 is6 [1, 2] (by decide) (by decide) (by decide) 0
example := V2.C85_csid_wrong tNo isNo (by
  intro b h
  have e : (match Utils.hexDecode tNo with | ok _ => true | _ => false) = false := by decide +kernel
  rw [h] at e
  cases e) [1]
example := V2.C85_paa_dual_wrong tNo tNo isNo isNo 64
example := TLV.C85_elements_v1 t6 a6 is6
example := TLV.C85_refused_v1_partial tNo isNo
example := TLV.C85_eua_v0_wrong tNo isNo (by decide)
example := C86_same u4 ⟨[0, 0, 0, 0, 0, 0, 0, 0, 0, 0, 255, 255, 192, 0, 2, 1], 2152, []⟩ (.inl rfl) (.inr rfl)
example := C86_split uZ (.inr rfl) (by decide)
example := C86_peer u4 uZ (.inl rfl) (.inr rfl)
example := C86_gsn_partial u4 (.inl rfl) rfl
example := C86_gsn_wrong uZ (.inr rfl) (by decide) (by decide)
end IPTextEx
end Verif
