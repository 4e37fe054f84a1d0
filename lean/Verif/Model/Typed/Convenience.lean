import Verif.Model.Typed.TFT
/-
Constructors for a particular use: gtpv2/ie/bearer-context.go, bearer-tft.go, tad.go.
Simplification: nil slices of filters, identifiers and parameters are empty lists.
-/
namespace Verif.V2
open Res

/-- a slice of pointers to elements -/
abbrev Ptrs := List (Option IE)

/-- `ies[k] = x` -/
def setPtr (ies : Ptrs) (k : Nat) (x : Option IE) : Res Ptrs := if k < ies.length then ok (ies.set k x) else .panic

/-- the assignments `ies[0] = ..`, `ies[1] = ..`, in this order -/
def setPtrs : Ptrs → Nat → Ptrs → Res Ptrs
  | ies, _, [] => ok ies
  | ies, k, x :: xs => do
    let ies ← setPtr ies k x
    setPtrs ies (k + 1) xs

/-- `copy(ies[k:], src)` -/
def copyPtrs (ies : Ptrs) (k : Nat) (src : Ptrs) : Res Ptrs :=
  if k ≤ ies.length then ok (ies.take k ++ src.take (ies.length - k) ++ ies.drop (k + min (ies.length - k) src.length)) else .panic

variable (g : UInt8 → Bool)

/-- bearer-context.go:10-12 `NewBearerContext` -/
def newBearerContext (ies : Ptrs) : Res (Option IE) := newGrouped g 93 ies

/-- the common body of the constructors with F-TEIDs: n := k + len(fTEIDs), make, k assignments, copy to ies[k:] -/
def within (k : Nat) (fixed fTEIDs : Ptrs) : Res (Option IE) := do
  let ies := List.replicate (k + fTEIDs.length) none
  let ies ← setPtrs ies 0 fixed
  let ies ← copyPtrs ies k fTEIDs
  newBearerContext g ies

/-- bearer-context.go:15-30 `NewBearerContextWithinCreateBearerRequest` -/
def bcCreateBearerRequest (ebi tft qos chargeID flags pco epco mplr : Option IE) (fTEIDs : Ptrs) : Res (Option IE) :=
  within g 8 [ebi, tft, qos, chargeID, flags, pco, epco, mplr] fTEIDs
/-- bearer-context.go:33-45 `NewBearerContextWithinCreateBearerResponse` -/
def bcCreateBearerResponse (ebi cause pco rannasCause epco : Option IE) (fTEIDs : Ptrs) : Res (Option IE) :=
  within g 5 [ebi, cause, pco, rannasCause, epco] fTEIDs
/-- bearer-context.go:48-50 `NewBearerContextWithinDeleteBearerRequest` -/
def bcDeleteBearerRequest (ebi cause : Option IE) : Res (Option IE) := newBearerContext g [ebi, cause]
/-- bearer-context.go:53-55 `NewBearerContextWithinDeleteBearerResponse` -/
def bcDeleteBearerResponse (ebi cause pco rannasCause epco : Option IE) : Res (Option IE) :=
  newBearerContext g [ebi, cause, pco, rannasCause, epco]
/-- bearer-context.go:58-60 `NewBearerContextWithinModifyBearerCommand` -/
def bcModifyBearerCommand (ebi qos : Option IE) : Res (Option IE) := newBearerContext g [ebi, qos]
/-- bearer-context.go:63-65 `NewBearerContextWithinUpdateBearerRequest` -/
def bcUpdateBearerRequest (ebi tft qos flags pco apco epco mplr : Option IE) : Res (Option IE) :=
  newBearerContext g [ebi, tft, qos, flags, pco, apco, epco, mplr]
/-- bearer-context.go:68-80 `NewBearerContextWithinUpdateBearerResponse` -/
def bcUpdateBearerResponse (ebi cause pco rannasCause epco : Option IE) (fTEIDs : Ptrs) : Res (Option IE) :=
  within g 5 [ebi, cause, pco, rannasCause, epco] fTEIDs
/-- bearer-context.go:83-85 `NewBearerContextWithinDeleteBearerCommand` -/
def bcDeleteBearerCommand (ebi flags rannasCause : Option IE) : Res (Option IE) := newBearerContext g [ebi, flags, rannasCause]
/-- bearer-context.go:88-90 `NewBearerContextWithinDeleteBearerFailureIndication` -/
def bcDeleteBearerFailure (ebi cause : Option IE) : Res (Option IE) := newBearerContext g [ebi, cause]
/-- bearer-context.go:93-101 `NewBearerContextWithinCreateIndirectDataForwardingTunnelRequest` -/
def bcIndirectRequest (ebi : Option IE) (fTEIDs : Ptrs) : Res (Option IE) := within g 1 [ebi] fTEIDs
/-- bearer-context.go:104-113 `NewBearerContextWithinCreateIndirectDataForwardingTunnelResponse` -/
def bcIndirectResponse (ebi cause : Option IE) (fTEIDs : Ptrs) : Res (Option IE) := within g 2 [ebi, cause] fTEIDs
/-- bearer-context.go:116-129 `NewBearerContextWithinForwardRelocationRequest` -/
def bcForwardRelocation (ebi tft qos container ti flags : Option IE) (fTEIDs : Ptrs) : Res (Option IE) :=
  within g 6 [ebi, tft, qos, container, ti, flags] fTEIDs
/-- bearer-context.go:132-144 `NewBearerContextWithinContextResponse` -/
def bcContextResponse (ebi tft qos container ti : Option IE) (fTEIDs : Ptrs) : Res (Option IE) :=
  within g 5 [ebi, tft, qos, container, ti] fTEIDs
/-- bearer-context.go:147-155 `NewBearerContextWithinContextAcknowledge` -/
def bcContextAcknowledge (ebi fwdFTEID : Option IE) : Res (Option IE) := do
  let ies ← setPtrs (List.replicate 2 none) 0 [ebi, fwdFTEID]
  newBearerContext g ies

/-! The constructors for the operations of a template; t is 84 in bearer-tft.go (Bearer TFT) and 85 in tad.go (Traffic Aggregate
Description). -/

/-- bearer-tft.go:33-35 `NewBearerTFTCreateNewTFT`, tad.go:22-24 `NewTrafficAggregateDescriptionCreateNewTFT` -/
def tftCreateNew (t : UInt8) (filters : List (Option Filter)) (params : List (Option Param)) : Res (Option IE) :=
  newBearerTFT t 1 filters [] params
/-- bearer-tft.go:38-40 `NewBearerTFTAddPacketFilters`, tad.go:27-29 -/
def tftAdd (t : UInt8) (filters : List (Option Filter)) (params : List (Option Param)) : Res (Option IE) :=
  newBearerTFT t 3 filters [] params
/-- bearer-tft.go:43-45 `NewBearerTFTReplacePacketFilters`, tad.go:32-34 -/
def tftReplace (t : UInt8) (filters : List (Option Filter)) (params : List (Option Param)) : Res (Option IE) :=
  newBearerTFT t 4 filters [] params
/-- bearer-tft.go:48-50 `NewBearerTFTDeletePacketFilters`, tad.go:37-39 -/
def tftDeleteFilters (t : UInt8) (ids : Bytes) (params : List (Option Param)) : Res (Option IE) := newBearerTFT t 5 [] ids params
/-- bearer-tft.go:53-55 `NewBearerTFTDeleteExistingTFT`, tad.go:42-44 -/
def tftDeleteExisting (t : UInt8) (params : List (Option Param)) : Res (Option IE) := newBearerTFT t 2 [] [] params
/-- bearer-tft.go:58-60 `NewBearerTFTNoTFTOperation`, tad.go:47-49 -/
def tftNoOperation (t : UInt8) (params : List (Option Param)) : Res (Option IE) := newBearerTFT t 6 [] [] params

end Verif.V2
