import Verif.Base
/-
Model of utils/utils.go.  Go strings are byte sequences, so strings are `Bytes`.
-/
namespace Verif.Utils
open Res

/-! encoding/hex (standard library) -/

/-- encoding/hex: value of a hexadecimal character -/
def hexVal (c : UInt8) : Option UInt8 :=
  if 48 ≤ c ∧ c ≤ 57 then some (c - 48)
  else if 97 ≤ c ∧ c ≤ 102 then some (c - 97 + 10)
  else if 65 ≤ c ∧ c ≤ 70 then some (c - 65 + 10)
  else none

/-- encoding/hex `DecodeString` -/
def hexDecode : Bytes → Res Bytes
  | [] => ok []
  | [_] => err .hex
  | a :: b :: r =>
    match hexVal a, hexVal b with
    | some x, some y => do
      let t ← hexDecode r
      ok (((x <<< 4) ||| y) :: t)
    | _, _ => err .hex

/-- encoding/hex: "0123456789abcdef"[n] -/
def hexChar (n : UInt8) : UInt8 := if n < 10 then n + 48 else n - 10 + 97

/-- encoding/hex `EncodeToString` -/
def hexEncode : Bytes → Bytes
  | [] => []
  | x :: r => hexChar (x >>> 4) :: hexChar (x &&& (0x0f : UInt8)) :: hexEncode r

/-! utils.go -/

/-- utils.go:51-58 `swap` (loop body) -/
def swapByte (x : UInt8) : UInt8 := ((x >>> 4) &&& (0xf : UInt8)) + ((x <<< 4) &&& (0xf0 : UInt8))

/-- utils.go:51-58 `swap` -/
def swap (raw : Bytes) : Bytes := raw.map swapByte

/-- utils.go:19-32 `StrToSwappedBytes` -/
def strToSwapped (s filler : Bytes) : Res Bytes := do
  let raw ← if s.length % 2 = 0 then hexDecode s else hexDecode (s ++ filler)
  ok (swap raw)

/-- utils.go:38-49 `SwappedBytesToStr` -/
def swappedToStr (raw : Bytes) (cut : Bool) : Res Bytes :=
  if raw.length = 0 then ok [] else
  let s := hexEncode (swap raw)
  if cut then slice s 0 (s.length - 1) else ok s

/-- utils.go:62-67 `Uint24To32` -/
def uint24To32 (b : Bytes) : UInt32 :=
  match b with
  | [b0, b1, b2] => (b0.toUInt32 <<< 16) ||| (b1.toUInt32 <<< 8) ||| b2.toUInt32
  | _ => 0

/-- utils.go:71-73 `Uint32To24` -/
def uint32To24 (n : UInt32) : Bytes := [(n >>> 16).toUInt8, (n >>> 8).toUInt8, n.toUInt8]

/-- utils.go:77-82 `Uint40To64` -/
def uint40To64 (b : Bytes) : UInt64 :=
  match b with
  | [b0, b1, b2, b3, b4] =>
    (b0.toUInt64 <<< 32) ||| (b1.toUInt64 <<< 24) ||| (b2.toUInt64 <<< 16) ||| (b3.toUInt64 <<< 8) ||| b4.toUInt64
  | _ => 0

/-- utils.go:86-88 `Uint64To40` -/
def uint64To40 (n : UInt64) : Bytes :=
  [(n >>> 32).toUInt8, (n >>> 24).toUInt8, (n >>> 16).toUInt8, (n >>> 8).toUInt8, n.toUInt8]

/-- utils.go:91-113 `EncodePLMN` -/
def encodePLMN (mcc mnc : Bytes) : Res Bytes := do
  let c ← strToSwapped mcc [102]
  let n ← strToSwapped mnc [102]
  if mnc.length = 2 then ok (c ++ n) else
  let c0 ← idx c 0
  let c1 ← idx c 1
  let n1 ← idx n 1
  let n0 ← idx n 0
  ok [c0, (c1 &&& (0x0f : UInt8)) ||| ((n1 <<< 4) &&& (0xf0 : UInt8)), n0]

/-- utils.go:116-122 `DecodeMNC` -/
def decodeMNC (b : Bytes) : Res Bytes := do
  let raw := hexEncode b
  let r0 ← idx raw 0
  let r3 ← idx raw 3
  let r2 ← idx raw 2
  if r0 = 102 then ok [r3, r2] else ok [r3, r2, r0]

/-- utils.go:125-128 `DecodeMCC` -/
def decodeMCC (b : Bytes) : Res Bytes := do
  let raw := hexEncode b
  let r1 ← idx raw 1
  let r0 ← idx raw 0
  let r3 ← idx raw 3
  ok [r1, r0, r3]

/-- utils.go:131-135 `DecodePLMN` (cap = len, see Base) -/
def decodePLMN (b : Bytes) : Res (Bytes × Bytes) := do
  let mcc ← decodeMCC (← slice b 0 2)
  let mnc ← decodeMNC (← slice b 1 3)
  ok (mcc, mnc)

/-- utils.go:138-144 `ParseECI` -/
def parseECI (eci : UInt32) : Res (UInt32 × UInt8) := do
  let buf := be32 eci
  let cell ← idx buf 3
  let b0 ← idx buf 0
  let b1 ← idx buf 1
  let b2 ← idx buf 2
  let enb ← rd32 [0, b0, b1, b2]
  ok (enb, cell)

/-- strings.SplitSeq(s, ".") (standard library) -/
def splitDot : Bytes → List Bytes
  | [] => [[]]
  | c :: r =>
    if c = 46 then [] :: splitDot r
    else match splitDot r with
      | l :: ls => (c :: l) :: ls
      | [] => [[c]]

/-- strings.Join(ls, ".") (standard library) -/
def joinDot : List Bytes → Bytes
  | [] => []
  | [l] => l
  | l :: ls => l ++ 46 :: joinDot ls

/-- utils.go:152-157 loop of `EncodeFQDN` over the labels, writing into `b` -/
def encodeFQDNLoop : List Bytes → Nat → Bytes → Res Bytes
  | [], _, b => ok b
  | label :: ls, off, b => do
    let b ← setAt b off (UInt8.ofNat label.length)
    let b ← copyFrom b (off + 1) label
    encodeFQDNLoop ls (off + (label.length + 1)) b

/-- utils.go:148-160 `EncodeFQDN` -/
def encodeFQDN (fqdn : Bytes) : Res Bytes :=
  encodeFQDNLoop (splitDot fqdn) 0 (List.replicate (fqdn.length + 1) 0)

/-- utils.go:169-177 loop of `DecodeFQDN`; `fuel` bounds the iterations -/
def decodeFQDNLoop : Nat → Bytes → Nat → List Bytes → Res (List Bytes)
  | 0, _, _, _ => diverge
  | fuel + 1, b, off, acc =>
    if off < b.length then do
      let l ← idx b off
      if off + l.toNat + 1 > b.length then ok acc else
      let s ← slice b (off + 1) (off + l.toNat + 1)
      decodeFQDNLoop fuel b (off + (l.toNat + 1)) (acc ++ [s])
    else ok acc

/-- utils.go:163-180 `DecodeFQDN` -/
def decodeFQDN (b : Bytes) : Res Bytes := do
  let ls ← decodeFQDNLoop (b.length + 1) b 0 []
  ok (joinDot ls)

end Verif.Utils
