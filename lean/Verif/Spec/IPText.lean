import Verif.Base
/-
What counts as the text of an IP address: dotted decimal for IPv4, and for IPv6 the forms of RFC 4291 2.2 (groups of one to four
hexadecimal digits between colons, at most one "::" for one or more groups of zeros, and the last two groups possibly in dotted
decimal).  Written down from the RFC, not from the code.
-/
namespace Verif.IPSpec

/-- `t` is the decimal number of the octet `n`, without superfluous zeros in front -/
structure IsDec (t : Bytes) (n : UInt8) : Prop where
  ne : t ≠ []
  dig : ∀ c ∈ t, 48 ≤ c ∧ c ≤ 57
  val : t.foldl (fun v c => v * 10 + (c.toNat - 48)) 0 = n.toNat
  lead : t.head? = some 48 → t.length = 1

/-- `t` is the IPv4 address `v` in dotted decimal (46 is the dot) -/
def IsV4 (t v : Bytes) : Prop :=
  ∃ a b c d ta tb tc td, v = [a, b, c, d] ∧ IsDec ta a ∧ IsDec tb b ∧ IsDec tc c ∧ IsDec td d ∧
    t = ta ++ 46 :: (tb ++ 46 :: (tc ++ 46 :: td))

/-- the value of a hexadecimal digit: 0-9, a-f, A-F -/
inductive IsHexDigit : UInt8 → Nat → Prop
  | num (c : UInt8) : 48 ≤ c → c ≤ 57 → IsHexDigit c (c.toNat - 48)
  | low (c : UInt8) : 97 ≤ c → c ≤ 102 → IsHexDigit c (c.toNat - 87)
  | up (c : UInt8) : 65 ≤ c → c ≤ 70 → IsHexDigit c (c.toNat - 55)

/-- `t` is a hexadecimal number of value `n` -/
inductive IsHex : Bytes → Nat → Prop
  | one (c : UInt8) (d : Nat) : IsHexDigit c d → IsHex [c] d
  | snoc (t : Bytes) (n : Nat) (c : UInt8) (d : Nat) : IsHex t n → IsHexDigit c d → IsHex (t ++ [c]) (n * 16 + d)

/-- `t` is a group: one to four hexadecimal digits, standing for the two octets `o` -/
def IsGroup (t o : Bytes) : Prop :=
  ∃ n, IsHex t n ∧ t.length ≤ 4 ∧ o = [UInt8.ofNat (n / 256), UInt8.ofNat (n % 256)]

/-- groups between colons (58) -/
inductive Groups : Bytes → Bytes → Prop
  | last (t o : Bytes) : IsGroup t o → Groups t o
  | cons (t o s p : Bytes) : IsGroup t o → Groups s p → Groups (t ++ 58 :: s) (o ++ p)

/-- groups between colons, of which the last two may be in dotted decimal -/
inductive Fields : Bytes → Bytes → Prop
  | last (t o : Bytes) : IsGroup t o → Fields t o
  | v4 (t o : Bytes) : IsV4 t o → Fields t o
  | cons (t o s p : Bytes) : IsGroup t o → Fields s p → Fields (t ++ 58 :: s) (o ++ p)

/-- `s` is the IPv6 address `o` -/
inductive IsV6 : Bytes → Bytes → Prop
  | full (s o : Bytes) : Fields s o → o.length = 16 → IsV6 s o
  | short (l r p q : Bytes) (k : Nat) : (l = [] ∧ p = [] ∨ Groups l p) → (r = [] ∧ q = [] ∨ Fields r q) →
      p.length + 2 * k + q.length = 16 → 0 < k → IsV6 (l ++ 58 :: 58 :: r) (p ++ List.replicate (2 * k) 0 ++ q)

/-- `s` is the text of the address `a` in 16 octets; an IPv4 address is the IPv4-mapped one -/
def IsIP (s a : Bytes) : Prop :=
  (∃ v, IsV4 s v ∧ a = [0, 0, 0, 0, 0, 0, 0, 0, 0, 0, 0xff, 0xff] ++ v) ∨ IsV6 s a

end Verif.IPSpec
