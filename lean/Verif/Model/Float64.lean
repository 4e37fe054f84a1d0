/-
The float64 operations used by gtpv2/ie/delay-value.go: IEEE 754 binary64, round to nearest, ties to even, for finite values that
are not negative. Every such value is a multiple of 2^-1074; it is represented by this multiple. Overflow to infinity is not
modelled (the values here are far below).
-/
namespace Verif.F64

abbrev F64 := Nat

/-- one, in units of 2^-1074 -/
def one : Nat := 2 ^ 1074

/-- p / q rounded to an integer, ties to even -/
def near (p q : Nat) : Nat :=
  let m := p / q
  let r := p % q
  if 2 * r > q ∨ (2 * r = q ∧ m % 2 = 1) then m + 1 else m

/-- p / q units rounded to a float64: 53 significant bits, but not less than one unit -/
def rnd (p q : Nat) : F64 :=
  let k := Nat.log2 (p / q) + 1 - 53
  near p (q * 2 ^ k) * 2 ^ k

def ofNat (n : Nat) : F64 := rnd (n * one) 1
def add (a b : F64) : F64 := rnd (a + b) 1
def mul (a b : F64) : F64 := rnd (a * b) one
def div (a b : F64) : F64 := rnd (a * one) b
/-- conversion to an integer type that can hold it: the fraction is discarded -/
def trunc (a : F64) : Nat := a / one

end Verif.F64
