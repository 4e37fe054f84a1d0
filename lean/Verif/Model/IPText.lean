import Verif.Model.Typed.NetIP
/-
Text forms of addresses in the Go standard library, as used by the constructors and accessors that take or give an address as
text and by the code that compares or splits the text of a socket address (gtpv2/conn.go:669, gtpv2/session.go:57 and 105,
gtpv1/u-conn.go:631): net.ParseIP, net.IP.String, net.UDPAddr.String, net.JoinHostPort, net.SplitHostPort.  A Go string is the
list of its octets.  The standard library is not in /repo: these definitions follow net and net/netip of Go 1.22 from memory
and are part of the trusted base (DESIGN.md).
-/
namespace Verif.NetIP

/-- the character codes used below: `.` `:` `%` `[` `]` `<` `?` -/
def dot : UInt8 := 46
def colon : UInt8 := 58
def percent : UInt8 := 37
def lbr : UInt8 := 91
def rbr : UInt8 := 93

/-! ### writing -/

/-- netip `digits[x]` -/
def digit (n : Nat) : UInt8 := if n < 10 then UInt8.ofNat (48 + n) else UInt8.ofNat (87 + n)

/-- netip `appendDecimal` -/
def dec8 (x : UInt8) : Bytes :=
  let n := x.toNat
  (if n ≥ 100 then [digit (n / 100)] else []) ++ (if n ≥ 10 then [digit (n / 10 % 10)] else []) ++ [digit (n % 10)]

/-- netip `appendHex` of a 16-bit value -/
def hex16 (n : Nat) : Bytes :=
  (if n ≥ 0x1000 then [digit (n / 4096)] else []) ++ (if n ≥ 0x100 then [digit (n / 256 % 16)] else []) ++
    (if n ≥ 0x10 then [digit (n / 16 % 16)] else []) ++ [digit (n % 16)]

/-- netip `Addr.appendTo4` -/
def str4 : Bytes → Bytes
  | [a, b, c, d] => dec8 a ++ [dot] ++ dec8 b ++ [dot] ++ dec8 c ++ [dot] ++ dec8 d
  | _ => []

/-- `Addr.v6u16(i)` for all i: the 16-bit groups of 16 octets -/
def groups : Bytes → List Nat
  | a :: b :: r => (a.toNat * 256 + b.toNat) :: groups r
  | _ => []

/-- `for j < 8 && ip.v6u16(j) == 0 { j++ }`: the number of zero groups at the front -/
def zeros : List Nat → Nat
  | 0 :: g => zeros g + 1
  | _ => 0

/-- the first loop of `Addr.appendTo6`: the groups from `i` on, and the best run (start and end) so far; 255, 255 is none -/
def bestRun : List Nat → Nat → Nat × Nat → Nat × Nat
  | [], _, r => r
  | x :: g, i, r =>
    let l := zeros (x :: g)
    bestRun g (i + 1) (if l ≥ 2 ∧ l > r.2 - r.1 then (i, i + l) else r)

/-- the second loop of `Addr.appendTo6`, which starts at most eight rounds -/
def put6 (g : List Nat) (zs ze : Nat) : Nat → Nat → Bytes
  | 0, _ => []
  | n + 1, i =>
    if i ≥ 8 then []
    else if i = zs then
      [colon, colon] ++ (if ze ≥ 8 then [] else hex16 (g.getD ze 0) ++ put6 g zs ze n (ze + 1))
    else (if i > 0 then [colon] else []) ++ (hex16 (g.getD i 0) ++ put6 g zs ze n (i + 1))

/-- netip `Addr.appendTo6` without a zone -/
def str6 (ip : Bytes) : Bytes :=
  let g := groups ip
  let r := bestRun g 0 (255, 255)
  put6 g r.1 r.2 8 0

/-- net `hexString` -/
def hexStr (b : Bytes) : Bytes := b.flatMap (fun x => [digit (x.toNat / 16), digit (x.toNat % 16)])

/-- net `IP.String` -/
def ipString (ip : Bytes) : Bytes :=
  if ip.length = 0 then [60, 110, 105, 108, 62]
  else if ip.length ≠ 4 ∧ ip.length ≠ 16 then 63 :: hexStr ip
  else match to4 ip with
    | some v => str4 v
    | none => str6 ip

/-! ### reading -/

def isDigit (c : UInt8) : Bool := 48 ≤ c && c ≤ 57

/-- the loop of netip `parseIPv4Fields`: the rest of the text, the character before it, the value and the number of digits of
the field being read, and the fields read so far -/
def v4Loop : Bytes → Option UInt8 → Nat → Nat → Bytes → Option Bytes
  | [], _, val, _, fs => if fs.length < 3 then none else some (fs ++ [UInt8.ofNat val])
  | c :: s, prev, val, digLen, fs =>
    if isDigit c then
      if digLen = 1 ∧ val = 0 then none
      else
        let v := val * 10 + (c.toNat - 48)
        if v > 255 then none else v4Loop s (some c) v (digLen + 1) fs
    else if c = dot then
      if prev = none ∨ s = [] ∨ prev = some dot then none
      else if fs.length = 3 then none
      else v4Loop s (some c) 0 0 (fs ++ [UInt8.ofNat val])
    else none

/-- netip `parseIPv4Fields` -/
def v4Fields (s : Bytes) : Option Bytes := v4Loop s none 0 0 []

/-- the value of a hexadecimal digit of either case -/
def hexVal (c : UInt8) : Option Nat :=
  if isDigit c then some (c.toNat - 48)
  else if 97 ≤ c ∧ c ≤ 102 then some (c.toNat - 97 + 10)
  else if 65 ≤ c ∧ c ≤ 70 then some (c.toNat - 65 + 10)
  else none

/-- the inner loop of netip `parseIPv6`: number of digits, value, rest of the text; `none` is an error -/
def hexRun : Bytes → Nat → Nat → Option (Nat × Nat × Bytes)
  | [], off, acc => some (off, acc, [])
  | c :: s, off, acc =>
    match hexVal c with
    | none => some (off, acc, c :: s)
    | some d => if off > 3 then none else if acc * 16 + d > 65535 then none else hexRun s (off + 1) (acc * 16 + d)

/-- the loop `for i < 16` of netip `parseIPv6`, which adds two octets in each round and so starts at most eight of them: the
rest of the text, the octets so far, the position of the ellipsis -/
def v6Loop : Nat → Bytes → Bytes → Option Nat → Option (Bytes × Option Nat × Bytes)
  | 0, s, ip, el => some (ip, el, s)
  | n + 1, s, ip, el =>
    match hexRun s 0 0 with
    | none => none
    | some (off, acc, rest) =>
      if off = 0 then none
      else if rest.head? = some dot then
        if el = none ∧ ip.length ≠ 12 then none
        else if ip.length + 4 > 16 then none
        else (v4Fields s).map (fun f => (ip ++ f, el, []))
      else
        let ip := ip ++ [UInt8.ofNat (acc / 256), UInt8.ofNat (acc % 256)]
        match rest with
        | [] => some (ip, el, [])
        | c :: s1 =>
          if c ≠ colon then none
          else match s1 with
            | [] => none
            | c2 :: s2 =>
              if c2 = colon then
                if el.isSome then none
                else if s2 = [] then some (ip, some ip.length, [])
                else v6Loop n s2 ip (some ip.length)
              else v6Loop n (c2 :: s2) ip el

/-- the end of netip `parseIPv6`: everything is used, and the ellipsis stands for at least one group of zeros -/
def v6Finish : Option (Bytes × Option Nat × Bytes) → Option Bytes
  | none => none
  | some (ip, el, s) =>
    if s ≠ [] then none
    else if ip.length < 16 then
      match el with
      | none => none
      | some e => some (ip.take e ++ List.replicate (16 - ip.length) 0 ++ ip.drop e)
    else if el.isSome then none else some ip

/-- netip `parseIPv6`.  A text with a zone is refused by net.ParseIP, so a `%` is refused here. -/
def parse6 (s : Bytes) : Option Bytes :=
  if percent ∈ s then none
  else if s.take 2 = [colon, colon] then
    if s.drop 2 = [] then some (List.replicate 16 0) else v6Finish (v6Loop 8 (s.drop 2) [] (some 0))
  else v6Finish (v6Loop 8 s [] none)

/-- net `ParseIP`, netip `ParseAddr`: the first `.`, `:` or `%` decides.  The result has 16 octets; nil is `none`. -/
def parseIP (s : Bytes) : Option Bytes :=
  match s.find? (fun c => c = dot || c = colon || c = percent) with
  | none => none
  | some c =>
    if c = dot then (v4Fields s).map (v4Prefix ++ ·)
    else if c = colon then parse6 s
    else none

/-! ### socket addresses -/

/-- `itoa.Itoa` of a port -/
def decNat (n : Nat) : Bytes := if n < 10 then [digit n] else decNat (n / 10) ++ [digit (n % 10)]
termination_by n

/-- net `UDPAddr`; a Zone of "" is `[]` -/
structure UDPAddr where
  ip : Bytes
  port : Nat
  zone : Bytes
  deriving DecidableEq, Repr

/-- net `JoinHostPort` -/
def joinHostPort (host port : Bytes) : Bytes :=
  if colon ∈ host then [lbr] ++ host ++ [rbr, colon] ++ port else host ++ [colon] ++ port

/-- net `UDPAddr.String`, `ipEmptyString` -/
def UDPAddr.string (a : UDPAddr) : Bytes :=
  let ip := if a.ip.length = 0 then [] else ipString a.ip
  joinHostPort (if a.zone ≠ [] then ip ++ [percent] ++ a.zone else ip) (decNat a.port)

/-- position of the first octet `c` -/
def indexByte (c : UInt8) (s : Bytes) : Option Nat := s.findIdx? (· = c)
/-- position of the last octet `c` -/
def lastIndexByte (c : UInt8) (s : Bytes) : Option Nat := (indexByte c s.reverse).map (fun k => s.length - 1 - k)

/-- net `SplitHostPort`; errors are `none` -/
def splitHostPort (s : Bytes) : Option (Bytes × Bytes) :=
  match lastIndexByte colon s with
  | none => none
  | some i =>
    let fin (host : Bytes) (j k : Nat) : Option (Bytes × Bytes) :=
      if lbr ∈ s.drop j then none else if rbr ∈ s.drop k then none else some (host, s.drop (i + 1))
    if s.head? = some lbr then
      match indexByte rbr s with
      | none => none
      | some e => if e + 1 = i then fin ((s.drop 1).take (e - 1)) 1 (e + 1) else none
    else if colon ∈ s.take i then none
    else fin (s.take i) 0 0

end Verif.NetIP
