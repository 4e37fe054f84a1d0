import Verif.Model.Typed.Addr
import Verif.Model.Utils
/-
gtpv2/ie/uli.go and mcc-mnc.go.
The embedded *PLMN of each location is flattened into `mcc`, `mnc`; a location whose PLMN pointer is nil (only possible by a
struct literal) is not modelled.  The deprecated getter `UserLocationInfo` is modelled with its single shared PLMN variable.
-/
namespace Verif.V2
open Res Utils

/-- uli.go:52-56 `CGI`, 73-77 `SAI` (SAC), 94-98 `RAI` (RAC): PLMN, LAC and a 16-bit code -/
structure Area where
  mcc : Bytes
  mnc : Bytes
  lac : UInt16
  code : UInt16
  deriving DecidableEq, Repr

/-- uli.go:115-118 `TAI` (TAC), 153-156 `LAI` (LAC): PLMN and a 16-bit code -/
structure Loc where
  mcc : Bytes
  mnc : Bytes
  code : UInt16
  deriving DecidableEq, Repr

/-- uli.go:134-137 `ECGI` (ECI), 172-175 `MENBI`, 191-194 `EMENBI`: PLMN and a 32-bit number -/
structure Node where
  mcc : Bytes
  mnc : Bytes
  num : UInt32
  deriving DecidableEq, Repr

/-- uli.go:140-145 `NewECGI` -/
def newECGI (mcc mnc : Bytes) (eci : UInt32) : Node := ⟨mcc, mnc, eci &&& 0xfffffff⟩

/-- uli.go:236-246 `UserLocationInformationFields` -/
structure ULI where
  flags : UInt8
  cgi : Option Area
  sai : Option Area
  rai : Option Area
  tai : Option Loc
  ecgi : Option Node
  lai : Option Loc
  menbi : Option Node
  emenbi : Option Node
  deriving DecidableEq, Repr

/-- uli.go:249-286 `NewUserLocationInformationFields` -/
def newULIFields (cgi sai rai : Option Area) (tai : Option Loc) (ecgi : Option Node) (lai : Option Loc)
    (menbi emenbi : Option Node) : ULI :=
  let fl : UInt8 := 0
  let fl := if cgi.isSome then fl ||| 0x01 else fl
  let fl := if sai.isSome then fl ||| 0x02 else fl
  let fl := if rai.isSome then fl ||| 0x04 else fl
  let fl := if tai.isSome then fl ||| 0x08 else fl
  let fl := if ecgi.isSome then fl ||| 0x10 else fl
  let fl := if lai.isSome then fl ||| 0x20 else fl
  let fl := if menbi.isSome then fl ||| 0x40 else fl
  let fl := if emenbi.isSome then fl ||| 0x80 else fl
  ⟨fl, cgi, sai, rai, tai, ecgi, lai, menbi, emenbi⟩

/-- uli.go:549-578 `MarshalLen` -/
def ULI.marshalLen (f : ULI) : Nat :=
  1 + (if has1stBit f.flags then 7 else 0) + (if has2ndBit f.flags then 7 else 0) + (if has3rdBit f.flags then 7 else 0) +
    (if has4thBit f.flags then 5 else 0) + (if has5thBit f.flags then 7 else 0) + (if has6thBit f.flags then 5 else 0) +
    (if has7thBit f.flags then 6 else 0) + (if has8thBit f.flags then 6 else 0)

/-- one block of `MarshalTo`, e.g. uli.go:308-321: the field's pointer is dereferenced, i.e. nil panics -/
def putArea (flag : Bool) (x : Option Area) (b : Bytes) (off : Nat) : Res (Bytes × Nat) :=
  if flag then
    if b.length < off + 7 then err .eof else
    match x with
    | none => .panic
    | some a => do
      let plmn ← encodePLMN a.mcc a.mnc
      let b ← copyAt b off (off + 3) plmn
      let b ← copyAt b (off + 3) (off + 5) (be16 a.lac)
      let b ← copyAt b (off + 5) (off + 7) (be16 a.code)
      ok (b, off + 7)
  else ok (b, off)

/-- uli.go:350-362 (TAI), 376-388 (LAI) -/
def putLoc (flag : Bool) (x : Option Loc) (b : Bytes) (off : Nat) : Res (Bytes × Nat) :=
  if flag then
    if b.length < off + 5 then err .eof else
    match x with
    | none => .panic
    | some a => do
      let plmn ← encodePLMN a.mcc a.mnc
      let b ← copyAt b off (off + 3) plmn
      let b ← copyAt b (off + 3) (off + 5) (be16 a.code)
      ok (b, off + 5)
  else ok (b, off)

/-- uli.go:363-375 (ECGI) -/
def putECGI (flag : Bool) (x : Option Node) (b : Bytes) (off : Nat) : Res (Bytes × Nat) :=
  if flag then
    if b.length < off + 7 then err .eof else
    match x with
    | none => .panic
    | some a => do
      let plmn ← encodePLMN a.mcc a.mnc
      let b ← copyAt b off (off + 3) plmn
      let b ← copyAt b (off + 3) (off + 7) (be32 a.num)
      ok (b, off + 7)
  else ok (b, off)

/-- uli.go:389-401 (MENBI), 402-413 (EMENBI) -/
def putENB (flag : Bool) (x : Option Node) (b : Bytes) (off : Nat) : Res (Bytes × Nat) :=
  if flag then
    if b.length < off + 6 then err .eof else
    match x with
    | none => .panic
    | some a => do
      let plmn ← encodePLMN a.mcc a.mnc
      let b ← copyAt b off (off + 3) plmn
      let b ← copyAt b (off + 3) (off + 6) (uint32To24 a.num)
      ok (b, off + 6)
  else ok (b, off)

/-- uli.go:299-416 `MarshalTo` -/
def ULI.marshalTo (f : ULI) (b : Bytes) : Res Bytes := do
  if b.length < 1 then err .eof else
  let b ← setAt b 0 f.flags
  let (b, off) ← putArea (has1stBit f.flags) f.cgi b 1
  let (b, off) ← putArea (has2ndBit f.flags) f.sai b off
  let (b, off) ← putArea (has3rdBit f.flags) f.rai b off
  let (b, off) ← putLoc (has4thBit f.flags) f.tai b off
  let (b, off) ← putECGI (has5thBit f.flags) f.ecgi b off
  let (b, off) ← putLoc (has6thBit f.flags) f.lai b off
  let (b, off) ← putENB (has7thBit f.flags) f.menbi b off
  let (b, _) ← putENB (has8thBit f.flags) f.emenbi b off
  ok b

/-- uli.go:289-296 `Marshal` -/
def ULI.marshal (f : ULI) : Res Bytes := f.marshalTo (List.replicate f.marshalLen 0)

/-- uli.go:211-219 `NewUserLocationInformationStruct` -/
def newULI (cgi sai rai : Option Area) (tai : Option Loc) (ecgi : Option Node) (lai : Option Loc)
    (menbi emenbi : Option Node) : Res (Option IE) :=
  build 86 (newULIFields cgi sai rai tai ecgi lai menbi emenbi).marshal

/-- one block of `UnmarshalBinary`, uli.go:438-451 (CGI), 452-465 (SAI), 466-479 (RAI) -/
def getArea (flag : Bool) (b : Bytes) (off : Nat) : Res (Option Area × Nat) :=
  if flag then
    if b.length < off + 7 then err .eof else do
    let s ← slice b off (off + 3)
    let (mcc, mnc) ← decodePLMN s
    let s ← slice b (off + 3) (off + 5)
    let lac ← rd16 s
    let s ← slice b (off + 5) (off + 7)
    let code ← rd16 s
    ok (some ⟨mcc, mnc, lac, code⟩, off + 7)
  else ok (none, off)

/-- uli.go:480-492 (TAI), 506-518 (LAI) -/
def getLoc (flag : Bool) (b : Bytes) (off : Nat) : Res (Option Loc × Nat) :=
  if flag then
    if b.length < off + 5 then err .eof else do
    let s ← slice b off (off + 3)
    let (mcc, mnc) ← decodePLMN s
    let s ← slice b (off + 3) (off + 5)
    let code ← rd16 s
    ok (some ⟨mcc, mnc, code⟩, off + 5)
  else ok (none, off)

/-- uli.go:493-505 (ECGI) -/
def getECGI (flag : Bool) (b : Bytes) (off : Nat) : Res (Option Node × Nat) :=
  if flag then
    if b.length < off + 7 then err .eof else do
    let s ← slice b off (off + 3)
    let (mcc, mnc) ← decodePLMN s
    let s ← slice b (off + 3) (off + 7)
    let num ← rd32 s
    ok (some ⟨mcc, mnc, num⟩, off + 7)
  else ok (none, off)

/-- uli.go:519-531 (MENBI), 532-543 (EMENBI) -/
def getENB (flag : Bool) (b : Bytes) (off : Nat) : Res (Option Node × Nat) :=
  if flag then
    if b.length < off + 6 then err .eof else do
    let s ← slice b off (off + 3)
    let (mcc, mnc) ← decodePLMN s
    let s ← slice b (off + 3) (off + 6)
    ok (some ⟨mcc, mnc, uint24To32 s⟩, off + 6)
  else ok (none, off)

/-- uli.go:419-546 `ParseUserLocationInformationFields` -/
def parseULI (b : Bytes) : Res ULI := do
  if b.length < 1 then err .eof else
  let fl ← idx b 0
  let (cgi, off) ← getArea (has1stBit fl) b 1
  let (sai, off) ← getArea (has2ndBit fl) b off
  let (rai, off) ← getArea (has3rdBit fl) b off
  let (tai, off) ← getLoc (has4thBit fl) b off
  let (ecgi, off) ← getECGI (has5thBit fl) b off
  let (lai, off) ← getLoc (has6thBit fl) b off
  let (menbi, off) ← getENB (has7thBit fl) b off
  let (emenbi, _) ← getENB (has8thBit fl) b off
  ok ⟨fl, cgi, sai, rai, tai, ecgi, lai, menbi, emenbi⟩

/-- uli.go:223-230 `UserLocationInformation` -/
def IE.uli (i : IE) : Res ULI := if i.typ = 86 then parseULI i.payload else err .invalidType

/-- `uliFields.CGI.MCCFromPLMN()` and the like on a nil pointer panic -/
def deref {α : Type} : Option α → Res α
  | some a => ok a
  | none => .panic

/-- mcc-mnc.go:38-55 / 93-110: the PLMN of the first location that is present (HasCGI .. HasEMENBI, uli.go:68-207) -/
def ULI.firstPLMN (f : ULI) : Res (Bytes × Bytes) :=
  if f.flags &&& 0x01 ≠ 0 then do let a ← deref f.cgi; ok (a.mcc, a.mnc)
  else if f.flags &&& 0x02 ≠ 0 then do let a ← deref f.sai; ok (a.mcc, a.mnc)
  else if f.flags &&& 0x04 ≠ 0 then do let a ← deref f.rai; ok (a.mcc, a.mnc)
  else if f.flags &&& 0x08 ≠ 0 then do let a ← deref f.tai; ok (a.mcc, a.mnc)
  else if f.flags &&& 0x10 ≠ 0 then do let a ← deref f.ecgi; ok (a.mcc, a.mnc)
  else if f.flags &&& 0x20 ≠ 0 then do let a ← deref f.lai; ok (a.mcc, a.mnc)
  else if f.flags &&& 0x40 ≠ 0 then do let a ← deref f.menbi; ok (a.mcc, a.mnc)
  else if f.flags &&& 0x80 ≠ 0 then do let a ← deref f.emenbi; ok (a.mcc, a.mnc)
  else err .other

/-- mcc-mnc.go:15-60, 70-115 `MCC` and `MNC` are the two halves of this; the types are ServingNetwork 83, PLMNID 120,
GlobalCNID 89, TraceReference 115, GUTI 117, UserCSGInformation 145, UserLocationInformation 86 -/
def IE.plmn (i : IE) : Res (Bytes × Bytes) :=
  if i.payload.length < 3 then err .eof
  else if i.typ = 83 ∨ i.typ = 120 then decodePLMN i.payload
  else if i.typ = 89 ∨ i.typ = 115 ∨ i.typ = 117 ∨ i.typ = 145 then do
    let s ← slice i.payload 0 3
    decodePLMN s
  else if i.typ = 86 then do
    let f ← parseULI i.payload
    f.firstPLMN
  else err .invalidType

/-- uli.go:723-824 the deprecated getter `UserLocationInfo`: no check of the type, Flags stay zero, and all locations share one
PLMN variable, so that in the end all show the PLMN decoded last -/
def IE.uliOld (i : IE) : Res ULI := do
  let b := i.payload
  if b.length = 0 then err .eof else
  let fl ← idx b 0
  let (cgi, off) ← getArea (fl &&& 0x01 == 1) b 1
  let (sai, off) ← getArea ((fl >>> 1) &&& 0x01 == 1) b off
  let (rai, off) ← getArea ((fl >>> 2) &&& 0x01 == 1) b off
  let (tai, off) ← getLoc ((fl >>> 3) &&& 0x01 == 1) b off
  let (ecgi, off) ← getECGI ((fl >>> 4) &&& 0x01 == 1) b off
  let (lai, off) ← getLoc ((fl >>> 5) &&& 0x01 == 1) b off
  let (menbi, off) ← getENB ((fl >>> 6) &&& 0x01 == 1) b off
  let (emenbi, _) ← getENB ((fl >>> 7) &&& 0x01 == 1) b off
  let all := (cgi.toList ++ sai.toList ++ rai.toList).map (fun a => (a.mcc, a.mnc)) ++ tai.toList.map (fun a => (a.mcc, a.mnc)) ++
    ecgi.toList.map (fun a => (a.mcc, a.mnc)) ++ lai.toList.map (fun a => (a.mcc, a.mnc)) ++
    (menbi.toList ++ emenbi.toList).map (fun a => (a.mcc, a.mnc))
  let (mcc, mnc) := all.getLast?.getD ([], [])
  let fa := Option.map (fun a : Area => { a with mcc := mcc, mnc := mnc })
  let fl := Option.map (fun a : Loc => { a with mcc := mcc, mnc := mnc })
  let fn := Option.map (fun a : Node => { a with mcc := mcc, mnc := mnc })
  ok ⟨0, fa cgi, fa sai, fa rai, fl tai, fn ecgi, fl lai, fn menbi, fn emenbi⟩

/-- one block of uli.go:645-687: the PLMN and what follows it; `tail` are the octets put by PutUint16/PutUint32/Uint32To24 -/
def putOld (flag : Bool) (plmn tail : Bytes) (b : Bytes) (off : Nat) : Res (Bytes × Nat) :=
  if flag then do
    let b ← copyAt b off (off + 3) plmn
    let b ← copyAt b (off + 3) (off + 3 + tail.length) tail
    ok (b, off + 3 + tail.length)
  else ok (b, off)

/-- uli.go:691-718 `uliPayloadLen` -/
def uliPayloadLen (fl : UInt8) : Nat :=
  1 + (if fl &&& 0x01 ≠ 0 then 7 else 0) + (if fl &&& 0x02 ≠ 0 then 7 else 0) + (if fl &&& 0x04 ≠ 0 then 7 else 0) +
    (if fl &&& 0x08 ≠ 0 then 5 else 0) + (if fl &&& 0x10 ≠ 0 then 7 else 0) + (if fl &&& 0x20 ≠ 0 then 5 else 0) +
    (if fl &&& 0x40 ≠ 0 then 6 else 0) + (if fl &&& 0x80 ≠ 0 then 6 else 0)

/-- uli.go:623-689 the deprecated constructor `NewUserLocationInformation`; the flags are given already packed (627-634) -/
def newULIOld (fl : UInt8) (mcc mnc : Bytes) (lac ci sac rac tac : UInt16) (eci menbi emenbi : UInt32) : Res (Option IE) := do
  let b ← setAt (List.replicate (uliPayloadLen fl) 0) 0 fl
  build 86 (do
    let plmn ← encodePLMN mcc mnc
    let (b, off) ← putOld (fl &&& 0x01 == 1) plmn (be16 lac ++ be16 ci) b 1
    let (b, off) ← putOld ((fl >>> 1) &&& 0x01 == 1) plmn (be16 lac ++ be16 sac) b off
    let (b, off) ← putOld ((fl >>> 2) &&& 0x01 == 1) plmn (be16 lac ++ be16 rac) b off
    let (b, off) ← putOld ((fl >>> 3) &&& 0x01 == 1) plmn (be16 tac) b off
    let (b, off) ← putOld ((fl >>> 4) &&& 0x01 == 1) plmn (be32 (eci &&& 0xfffff)) b off
    let (b, off) ← putOld ((fl >>> 5) &&& 0x01 == 1) plmn (be16 lac) b off
    let (b, off) ← putOld ((fl >>> 6) &&& 0x01 == 1) plmn (uint32To24 menbi) b off
    let (b, _) ← putOld ((fl >>> 7) &&& 0x01 == 1) plmn (uint32To24 emenbi) b off
    ok b)

/-- uli.go:586-618 `NewUserLocationInformationLazy`: a negative number means absent -/
def newULILazy (mcc mnc : Bytes) (lac ci sac rac tac eci menbi emenbi : Int) : Res (Option IE) :=
  let bit (x : Int) (k : UInt8) : UInt8 := if 0 ≤ x then k else 0
  newULIOld (bit emenbi 0x80 ||| bit menbi 0x40 ||| bit lac 0x20 ||| bit eci 0x10 ||| bit tac 0x08 ||| bit rac 0x04 |||
      bit sac 0x02 ||| bit ci 0x01)
    mcc mnc (.ofInt lac) (.ofInt ci) (.ofInt sac) (.ofInt rac) (.ofInt tac) (.ofInt eci) (.ofInt menbi) (.ofInt emenbi)

end Verif.V2
