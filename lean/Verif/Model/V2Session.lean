import Verif.Model.V2Conn
import Verif.Model.Typed.Plmn
import Verif.Model.Typed.Identity
/-
Bearers of a GTPv2 session (gtpv2/session.go:163-356, gtpv2/bearer.go) and the creation of a session from information
elements (gtpv2/conn.go:461-576).

sync.Map.Range visits the entries in an order that is not specified: `Order` is any choice of it.  An uninterrupted Range
is one step (simplification: entries stored or deleted by other goroutines during a Range are not modelled).
-/
namespace Verif.V2.Conn
open Res Send Utils

/-- the order in which one sync.Map.Range visits the entries -/
def Order := { f : List (String × Option Nat) → List (String × Option Nat) // ∀ l, (f l).Perm l }

/-- the order of the model's list -/
def Order.id : Order := ⟨fun l => l, fun l => List.Perm.refl l⟩
/-- the opposite one -/
def Order.rev : Order := ⟨List.reverse, fun l => List.reverse_perm l⟩

variable (c : Conn) (s : Nat)

/-- session.go:167-169 `AddBearer` -/
def addBearer (name : String) (b : Option Nat) : Conn :=
  update c s (fun x => { x with bearers := x.bearers.store name b })

/-- session.go:172-174 `RemoveBearer` -/
def removeBearer (name : String) : Conn := update c s (fun x => { x with bearers := x.bearers.delete name })

/-- session.go:186-194 `GetDefaultBearer`; `none` is nil -/
def getDefaultBearer : Option Nat :=
  match (c.heap s).bearers.load "default" with
  | some b => b
  | none => none

/-- session.go:197-200 `SetDefaultBearer` -/
def setDefaultBearer (b : Option Nat) : Conn := addBearer c s "default" b

/-- session.go:203-209 `LookupBearerByName` -/
def lookupBearerByName (name : String) : Res (Option Nat) :=
  match (c.heap s).bearers.load name with
  | some b => ok b
  | none => err .notFound

/-- the function given to Range in session.go:214-221 and 234-241: stop at the first bearer with the EBI; the member of a nil
bearer is read -/
def findEBI (ebi : UInt8) : List (String × Option Nat) → Res (Option (String × Nat))
  | [] => ok none
  | (_, none) :: _ => .panic
  | (n, some b) :: l => if ebi = (c.brs b).ebi then ok (some (n, b)) else findEBI ebi l

/-- session.go:212-228 `LookupBearerByEBI` -/
def lookupBearerByEBI (o : Order) (ebi : UInt8) : Res Nat := do
  match ← findEBI c ebi (o.1 (c.heap s).bearers) with
  | some (_, b) => ok b
  | none => err .notFound

/-- session.go:232-248 `LookupBearerNameByEBI`: an empty name counts as none -/
def lookupBearerNameByEBI (o : Order) (ebi : UInt8) : Res String := do
  match ← findEBI c ebi (o.1 (c.heap s).bearers) with
  | some (n, _) => if n = "" then err .notFound else ok n
  | none => err .notFound

/-- session.go:177-183 `RemoveBearerByEBI` -/
def removeBearerByEBI (o : Order) (ebi : UInt8) : Res Conn :=
  match lookupBearerNameByEBI c s o ebi with
  | ok n => ok (removeBearer c s n)
  | err _ => ok c
  | .panic => .panic
  | .diverge => .diverge

/-- session.go:253-259 `LookupEBIByName` -/
def lookupEBIByName (name : String) : Res UInt8 :=
  match (c.heap s).bearers.load name with
  | some (some b) => ok (c.brs b).ebi
  | some none => .panic
  | none => ok 0

/-- session.go:266-273: the function given to Range -/
def findTEID (teid : UInt32) : List (String × Option Nat) → Res UInt8
  | [] => ok 0
  | (_, none) :: _ => .panic
  | (_, some b) :: l => if teid = (c.brs b).teidIn ∨ teid = (c.brs b).teidOut then ok (c.brs b).ebi else findTEID teid l

/-- session.go:264-276 `LookupEBIByTEID` -/
def lookupEBIByTEID (o : Order) (teid : UInt32) : Res UInt8 := findTEID c teid (o.1 (c.heap s).bearers)

/-- session.go:331-342 `Bearers` -/
def bearers (o : Order) : List (Option Nat) := (o.1 (c.heap s).bearers).map Prod.snd

/-- session.go:345-356 `BearerCount` -/
def bearerCount : Nat := (c.heap s).bearers.length

/-- conn.go:815-826 `(*Conn).BearerCount` -/
def connBearerCount : Nat := ((c.byImsi.filter (fun e => (c.heap e.2).active)).map (fun e => bearerCount c e.2)).sum

/-- an assignment to a bearer object -/
def updateBearer (b : Nat) (f : Bearer → Bearer) : Conn :=
  { c with brs := fun i => if i = b then f (c.brs i) else c.brs i }

/-! ### ParseCreateSession -/

/-- session.go:53-65 `NewSession` as called in conn.go:463, at the free addresses `s` (session) and `b` (its bearer) -/
def newSession (b : Nat) (raddr : Addr) : Conn :=
  { c with
    heap := fun i => if i = s then ⟨[], raddr, false, [], [("default", some b)], [], [], [], [], 0⟩ else c.heap i
    brs := fun i => if i = b then {} else c.brs i }

/-- what a piece of code with early `return nil, err` leaves behind: the connection, and whether it went on -/
abbrev Out := Conn × Res Unit

/-- continue unless the piece before returned -/
def Out.then (x : Out) (f : Conn → Out) : Out :=
  match x with
  | (c, ok _) => f c
  | (c, err e) => (c, err e)
  | (c, .panic) => (c, .panic)
  | (c, .diverge) => (c, .diverge)

/-- `x.F, err = r; if err != nil { return nil, err }`: the zero value `z` is stored when there is an error -/
def assign {α : Type} (r : Res α) (z : α) (f : α → Conn) (c : Conn) : Out :=
  match r with
  | ok a => (f a, ok ())
  | err e => (f z, err e)
  | .panic => (c, .panic)
  | .diverge => (c, .diverge)

/-- `v, err := r; if err != nil { return nil, err }` -/
def define {α : Type} (r : Res α) (c : Conn) (f : α → Out) : Out :=
  match r with
  | ok a => f a
  | err e => (c, err e)
  | .panic => (c, .panic)
  | .diverge => (c, .diverge)

/-- apn.go:13-18 `AccessPointName` -/
def apnOf (g : UInt8 → Bool) (i : IE) : Res Bytes := Plain.getName g ⟨"AccessPointName", 71, [71]⟩ i
/-- rat-type.go:13-20 `RATType` -/
def ratOf (g : UInt8 → Bool) (i : IE) : Res UInt8 := Plain.get8 g ⟨"RATType", 82, [82]⟩ i

/-- conn.go:529-555: the assignments for a Bearer QoS child; conn.go:552 reads the uplink for the downlink -/
def qosStep (g : UInt8 → Bool) (b : Nat) (i : IE) (c : Conn) : Out :=
  (assign (i.priorityLevel g) 0 (fun v => updateBearer c b (fun x => { x with pl := v })) c).then fun c =>
  (assign (i.qciLabel g) 0 (fun v => updateBearer c b (fun x => { x with qci := v })) c).then fun c =>
  (define (i.hasPCI g) c fun v => (updateBearer c b (fun x => { x with pci := v }), ok ())).then fun c =>
  (define (i.hasPVI g) c fun v => (updateBearer c b (fun x => { x with pvi := v }), ok ())).then fun c =>
  (assign i.mbrUp 0 (fun v => updateBearer c b (fun x => { x with mbrUp := v })) c).then fun c =>
  (assign i.mbrDown 0 (fun v => updateBearer c b (fun x => { x with mbrDown := v })) c).then fun c =>
  (assign i.gbrUp 0 (fun v => updateBearer c b (fun x => { x with gbrUp := v })) c).then fun c =>
  assign i.gbrUp 0 (fun v => updateBearer c b (fun x => { x with gbrDown := v })) c

/-- conn.go:522-568: one child of the Bearer Context -/
def childStep (g : UInt8 → Bool) (s b : Nat) (i : IE) (c : Conn) : Out :=
  if i.typ = 73 then assign (i.ebi g) 0 (fun v => updateBearer c b (fun x => { x with ebi := v })) c
  else if i.typ = 80 then qosStep g b i c
  else if i.typ = 87 then
    define i.interfaceType c fun it =>
    define i.teid c fun teid =>
    (addTEID c s it teid, ok ())
  else (c, ok ())

/-- conn.go:521-569: the loop over the children -/
def childLoop (g : UInt8 → Bool) (s b : Nat) : List IE → Conn → Out
  | [], c => (c, ok ())
  | i :: l, c => (childStep g s b i c).then (childLoop g s b l)

/-- conn.go:470-573: one information element -/
def ieStep (g : UInt8 → Bool) (s b : Nat) (i : IE) (c : Conn) : Out :=
  if i.typ = 1 then assign i.imsi [] (fun v => update c s (fun x => { x with imsi := v })) c
  else if i.typ = 76 then assign i.msisdn [] (fun v => update c s (fun x => { x with msisdn := v })) c
  else if i.typ = 75 then assign i.mei [] (fun v => update c s (fun x => { x with imei := v })) c
  else if i.typ = 83 then
    (assign (i.plmn >>= fun p => ok p.1) [] (fun v => update c s (fun x => { x with mcc := v })) c).then fun c =>
    assign (i.plmn >>= fun p => ok p.2) [] (fun v => update c s (fun x => { x with mnc := v })) c
  else if i.typ = 71 then assign (apnOf g i) [] (fun v => updateBearer c b (fun x => { x with apn := v })) c
  else if i.typ = 82 then assign (ratOf g i) 0 (fun v => update c s (fun x => { x with rat := v })) c
  else if i.typ = 87 then
    define i.interfaceType c fun it =>
    define i.teid c fun teid =>
    if it = c.localIf then (registerSession (addTEID c s it teid) teid s, ok ())
    else (addTEID c s it teid, ok ())
  else if i.typ = 93 then
    if i.instance' = 0 then childLoop g s b i.children c else (c, ok ())
  else (c, ok ())

/-- conn.go:466-574: the loop over the arguments; nil is skipped -/
def ieLoop (g : UInt8 → Bool) (s b : Nat) : List (Option IE) → Conn → Out
  | [], c => (c, ok ())
  | none :: l, c => ieLoop g s b l c
  | some i :: l, c => (ieStep g s b i c).then (ieLoop g s b l)

/-- conn.go:461-576 `ParseCreateSession`; the session returned is `s` -/
def parseCreateSession (g : UInt8 → Bool) (s b : Nat) (raddr : Addr) (ies : List (Option IE)) : Out :=
  ieLoop g s b ies (newSession c s b raddr)

/-! ### requests -/

/-- conn.go:380-395 `SendMessageTo` that no other goroutine interrupts (all interleavings: Model/V2Send.lean), with the
counter at `n`; `w` says whether the socket write succeeds.  The new counter, what is written, the result -/
def sendMessageTo (g : UInt8 → Bool) (n : UInt32) (m : Message) (a : Addr) (w : Bool) : UInt32 × List Ev × Res UInt32 :=
  match marshalMsg g (setSeq m (inc n)) with
  | ok (_, b) => if w then (inc n, [.sent a b], ok (inc n)) else (dec (inc n), [], err .other)
  | err e => (dec (inc n), [], err e)
  | .panic => (inc n, [], .panic)
  | .diverge => (inc n, [], .diverge)

/-- conn.go:429-437 `EchoRequest` -/
def echoRequest (g : UInt8 → Bool) (n : UInt32) (raddr : Addr) (w : Bool) : UInt32 × List Ev × Res UInt32 :=
  sendMessageTo g n (newMessage g Tab.echoRequest 0 0 [some (newIE 3 0 [c.restart])]) raddr w

/-- conn.go:595-610 `CreateSession`: the session returned is `s` -/
def createSession (g : UInt8 → Bool) (n : UInt32) (s b : Nat) (raddr : Addr) (ies : List (Option IE)) (w : Bool) :
    Conn × UInt32 × List Ev × Res (Nat × UInt32) :=
  match parseCreateSession c g s b raddr ies with
  | (c, ok _) =>
    match sendMessageTo g n (newMessage g Tab.createSessionRequest 0 0 ies) raddr w with
    | (n, ev, r) => (c, n, ev, r >>= fun q => ok (s, q))
  | (c, err e) => (c, n, [], err e)
  | (c, .panic) => (c, n, [], .panic)
  | (c, .diverge) => (c, n, [], .diverge)

/-- conn.go:613-621 `DeleteSession` -/
def deleteSession (g : UInt8 → Bool) (n : UInt32) (teid : UInt32) (ies : List (Option IE)) (w : Bool) :
    UInt32 × List Ev × Res UInt32 :=
  sendMessageTo g n (newMessage g Tab.deleteSessionRequest teid 0 ies) (c.heap s).peer w

/-- conn.go:624-632 `ModifyBearer` -/
def modifyBearer (g : UInt8 → Bool) (n : UInt32) (teid : UInt32) (ies : List (Option IE)) (w : Bool) :
    UInt32 × List Ev × Res UInt32 :=
  sendMessageTo g n (newMessage g Tab.modifyBearerRequest teid 0 ies) (c.heap s).peer w

/-- conn.go:635-643 `DeleteBearer` -/
def deleteBearer (g : UInt8 → Bool) (n : UInt32) (teid : UInt32) (ies : List (Option IE)) (w : Bool) :
    UInt32 × List Ev × Res UInt32 :=
  sendMessageTo g n (newMessage g Tab.deleteBearerRequest teid 0 ies) (c.heap s).peer w

end Verif.V2.Conn
