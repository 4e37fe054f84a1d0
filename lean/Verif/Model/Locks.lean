import Verif.Base
/-
The mutexes of the library and the shared variables they are for: gtpv2/conn.go, gtpv2/session.go, gtpv2/bearer.go,
gtpv2/logger.go, gtpv2/ie/ie_grouped.go, gtpv1/u-conn.go, gtpv1/tunnel.go, gtpv1/tunnel_linux.go, gtpv1/relay.go,
gtpv1/logger.go, gtpv1/handlers.go.

A function is a program over a few instructions: take and give back a mutex, read and write a variable, wait for something
that may never come (a datagram, a channel, the end of a context), and input/output that returns. Its branches and loops are
free choices; the values computed are in the other models. Programs run in goroutines, interleaved instruction by
instruction.

Simplifications: sync.Map and channels synchronise by themselves and touch no variable here; every datagram received is
handled by a goroutine of its own, which is a call of `datagram` at any time; functions given by the user (handlers, and the
function given to SetIsGroupedFun) are any sequence of calls; a panic (second Close) ends the program but for its deferred
unlocks, which is the path without the rest. Variables of an object are reached from it without further synchronisation.
Fields that are only written by constructors, before the object is shared, are left out.
-/
namespace Verif.Locks

/-- the mutexes: `Conn.mu`, `Session.mu`, `UPlaneConn.mu`, `pktConn4.mu`/`pktConn6.mu`, `Relay.mu`, `logMu` of gtpv1 and
gtpv2, `mu` of gtpv2/ie; the number tells the objects apart -/
inductive Kind | conn | sess | uconn | pkt | relay | log1 | log2 | ie
  deriving DecidableEq, Repr

structure Lock where
  kind : Kind
  obj : Nat
  deriving DecidableEq, Repr

/-- exclusive (`Lock`), shared (`RLock`) -/
inductive Mode | ex | sh
  deriving DecidableEq, Repr

/-- the shared variables:
`Conn`: pktConn, validationEnabled, sequence. `Session`: isActive, peerAddr and peerAddrString, Subscriber.
`Bearer`: raddr, teidIn and teidOut, the exported fields. `UPlaneConn`: pktConn, relayMap, errIndEnabled, KernelGTP.
`Relay`: teidPair. The logger of gtpv1 and of gtpv2. gtpv2/ie: isGroupedFun, defaultGroupedIEMap. -/
inductive VKind
  | pktConn | validation | sequence | active | peerAddr | subscriber | bearerAddr | bearerTEID | bearer
  | uPktConn | relayMap | errInd | kernel | teidPair | logger1 | logger2 | groupedFun | groupedMap
  deriving DecidableEq, Repr

structure Var where
  kind : VKind
  obj : Nat
  deriving DecidableEq, Repr

inductive Instr
  | acq (m : Mode) (l : Lock)
  | rel (m : Mode) (l : Lock)
  | rd (x : Var)
  | wr (x : Var)
  | wait
  | io
  deriving DecidableEq, Repr

/-- programs; `locked m l p` is `p` between taking and giving back `l`, `any` an arbitrary choice (of an object), `user` a
function given by the user -/
inductive Prog
  | skip
  | rd (x : Var)
  | wr (x : Var)
  | wait
  | io
  | locked (m : Mode) (l : Lock) (p : Prog)
  | seq (p q : Prog)
  | alt (p q : Prog)
  | star (p : Prog)
  | any (f : Nat → Prog)
  | user

namespace Prog
scoped infixr:60 " ;; " => Prog.seq
scoped infixr:55 " <|> " => Prog.alt

/-- p or nothing -/
def opt (p : Prog) : Prog := p <|> skip
end Prog
open Prog

/-! ### logging -/

/-- gtpv1/logger.go:64-69, gtpv2/logger.go:63-68 `logf` (the logger itself is used through its own mutex) -/
def logf1 : Prog := locked .ex ⟨.log1, 0⟩ (rd ⟨.logger1, 0⟩ ;; io)
def logf2 : Prog := locked .ex ⟨.log2, 0⟩ (rd ⟨.logger2, 0⟩ ;; io)

/-- gtpv1/logger.go:53-62, gtpv2/logger.go:53-62 `setLogger` -/
def setLogger1' : Prog := locked .ex ⟨.log1, 0⟩ (wr ⟨.logger1, 0⟩)
def setLogger2' : Prog := locked .ex ⟨.log2, 0⟩ (wr ⟨.logger2, 0⟩)

/-! ### gtpv2/ie -/

/-- ie_grouped.go:47-52 (the default function), :80-82 `IsGrouped` -/
def isGrouped' : Prog := rd ⟨.groupedFun, 0⟩ ;; (locked .sh ⟨.ie, 0⟩ (rd ⟨.groupedMap, 0⟩) <|> user)

/-- parsing and serialising GTPv2 messages: gtpv2/ie/ie.go:236-293 call `IsGrouped`, nothing else is shared -/
def codec : Prog := star isGrouped'

/-! ### gtpv2.Conn -/

/-- conn.go:227-229 `WriteTo` -/
def write (c : Nat) : Prog := rd ⟨.pktConn, c⟩ ;; io

/-- conn.go:398-410 `IncSequence` -/
def incSeq (c : Nat) : Prog := locked .ex ⟨.conn, c⟩ (rd ⟨.sequence, c⟩ ;; wr ⟨.sequence, c⟩)

/-- conn.go:412-418 `DecSequence` -/
def decSeq (c : Nat) : Prog := locked .ex ⟨.conn, c⟩ (rd ⟨.sequence, c⟩ ;; wr ⟨.sequence, c⟩)

/-- conn.go:380-395 `SendMessageTo` -/
def send (c : Nat) : Prog := incSeq c ;; codec ;; (decSeq c <|> (write c ;; opt (decSeq c)))

/-- conn.go:649-661 `RespondTo` -/
def respond (c : Nat) : Prog := codec ;; opt (write c)

/-- conn.go:664-673 `GetSessionByTEID` -/
def byTEID : Prog := opt (any fun s => rd ⟨.peerAddr, s⟩)

/-- conn.go:360-376 `validate` -/
def validate' (c : Nat) : Prog := respond c <|> opt byTEID

/-- conn.go:313-331 `handleMessage`; the handlers are those of handlers.go:53-90 or of the user -/
def handle (c : Nat) : Prog := rd ⟨.validation, c⟩ ;; opt (validate' c) ;; opt (user <|> respond c)

/-- conn.go:194-206, the goroutine started for a datagram -/
def datagram2 (c : Nat) : Prog := codec ;; (logf2 <|> (handle c ;; opt (rd ⟨.pktConn, c⟩ ;; logf2)))

/-- conn.go:699-704 `RegisterSession` -/
def register (s : Nat) : Prog := rd ⟨.subscriber, s⟩

/-- conn.go:707-725 `RemoveSession` -/
def remove (s : Nat) : Prog := rd ⟨.subscriber, s⟩ ;;
  opt (logf2 ;; star (any fun s' => rd ⟨.subscriber, s'⟩ ;; rd ⟨.subscriber, s⟩))

/-- conn.go:461-577 `ParseCreateSession`, for session s with default bearer b; it registers the session (:503, :531) as soon as it meets an
F-TEID for the local interface, and goes on with the next elements -/
def parseCreate (s b : Nat) : Prog := star (wr ⟨.subscriber, s⟩ <|> wr ⟨.bearer, b⟩ <|> register s)

/-! ### gtpv1.UPlaneConn -/

/-- u-conn.go:489-491 `WriteToWithDSCPECN`, with 88-104 and 150-166 of the socket -/
def writeDSCP (u : Nat) : Prog := rd ⟨.uPktConn, u⟩ ;; locked .ex ⟨.pkt, u⟩ io

/-- u-conn.go:478-482 `WriteTo` -/
def uwrite (u : Nat) : Prog := locked .ex ⟨.uconn, u⟩ (writeDSCP u)

/-- u-conn.go:655-667 `RespondTo` -/
def urespond (u : Nat) : Prog := uwrite u

/-- u-conn.go:630-649 `ErrorIndication` -/
def errorInd (u : Nat) : Prog := rd ⟨.uPktConn, u⟩ ;; opt (uwrite u)

/-- handlers.go:59-97 `handleTPDU`; the goroutine it starts waits for a reader (a call of `waitTPDU`) -/
def handleTPDU (u : Nat) : Prog := rd ⟨.errInd, u⟩ ;; opt (errorInd u ;; opt logf1)

/-- u-conn.go:590-601 `handleMessage` -/
def uhandle (u : Nat) : Prog := opt (user <|> handleTPDU u <|> urespond u <|> logf1)

/-- u-conn.go:387-436, the goroutine started for a datagram -/
def datagram1 (u : Nat) : Prog := rd ⟨.relayMap, u⟩ ;;
  (opt (locked .ex ⟨.uconn, u⟩ (rd ⟨.relayMap, u⟩) ;;
    (opt (uhandle u ;; opt (rd ⟨.uPktConn, u⟩ ;; logf1)) <|> any fun u' => writeDSCP u' ;; opt (rd ⟨.uPktConn, u⟩ ;; logf1)))
  <|> (opt (uhandle u) ;; opt (rd ⟨.uPktConn, u⟩ ;; logf1)))

/-- the functions of the API, and the goroutines the library starts -/
inductive Op
  -- logging, v = false: gtpv1, true: gtpv2
  | setLogger (v : Bool) | enableLogging (v : Bool) | disableLogging (v : Bool)
  -- gtpv2/ie
  | setIsGroupedFun | addGroupedIEType | isGrouped | codec
  -- gtpv2.Conn
  | listen (c : Nat) | serve (c : Nat) | closer (c : Nat) | datagram (c : Nat)
  | readFrom (c : Nat) | writeTo (c : Nat) | close (c : Nat) | localAddr (c : Nat) | setDeadline (c : Nat)
  | addHandler (c : Nat) | enableValidation (c : Nat) | disableValidation (c : Nat)
  | sendMessageTo (c : Nat) | incSequence (c : Nat) | decSequence (c : Nat) | sequenceNumber (c : Nat)
  | respondTo (c : Nat) | parseCreateSession (s b : Nat) | createSession (c s b : Nat) | request (c s : Nat)
  | getSessionByTEID | getSessionByIMSI | getIMSIByTEID | registerSession (s : Nat) | removeSession (s : Nat)
  | newSenderFTEID | sessions | sessionCount | connBearerCount
  -- gtpv2.Session
  | activate (s : Nat) | deactivate (s : Nat) | isActive (s : Nat) | peerAddr (s : Nat) | updatePeerAddr (s : Nat)
  | sessTEID | passMessage | waitMessage (s : Nat) | editBearers | lookupByEBI (s : Nat) | lookupEBI
  | bearers (s : Nat) | bearerCount (s : Nat)
  -- gtpv2.Bearer
  | remoteAddress (b : Nat) | setRemoteAddress (b : Nat) | bearerTEID (b : Nat) | setBearerTEID (b : Nat)
  -- gtpv1.UPlaneConn
  | uListen (u : Nat) | uServe (u : Nat) | uCloser (u : Nat) | uDatagram (u : Nat) | waitTPDU
  | uReadFrom (u : Nat) | readFromGTP | uWriteTo (u : Nat) | writeToWithDSCPECN (u : Nat) | uClose (u : Nat)
  | uLocalAddr (u : Nat) | uSetDeadline (u : Nat) | uAddHandler | errorIndication (u : Nat) | newFTEID
  | enableErrInd (u : Nat) | disableErrInd (u : Nat) | relayTo (u : Nat) | closeRelay (u : Nat)
  | enableKernelGTP (u : Nat) | tunnel (u : Nat)
  -- gtpv1.Relay
  | relayRun (r left right : Nat) | relayClose (left right : Nat) | addPeer (r : Nat)

/-- what the functions do with mutexes and variables -/
def Op.prog : Op → Prog
  /- gtpv1/logger.go:24-30, gtpv2/logger.go:24-30 `SetLogger` -/
  | .setLogger false => setLogger1'
  | .setLogger true => setLogger2'
  /- gtpv1/logger.go:37-42, gtpv2/logger.go:37-42 `EnableLogging` -/
  | .enableLogging false => locked .ex ⟨.log1, 0⟩ setLogger1'
  | .enableLogging true => locked .ex ⟨.log2, 0⟩ setLogger2'
  /- gtpv1/logger.go:46-51, gtpv2/logger.go:46-51 `DisableLogging` -/
  | .disableLogging false => locked .ex ⟨.log1, 0⟩ (rd ⟨.logger1, 0⟩)
  | .disableLogging true => locked .ex ⟨.log2, 0⟩ (rd ⟨.logger2, 0⟩)
  /- gtpv2/ie/ie_grouped.go:56-60 `SetIsGroupedFun` -/
  | .setIsGroupedFun => locked .ex ⟨.ie, 0⟩ (wr ⟨.groupedFun, 0⟩)
  /- gtpv2/ie/ie_grouped.go:66-72 `AddGroupedIEType` -/
  | .addGroupedIEType => locked .ex ⟨.ie, 0⟩ (star (wr ⟨.groupedMap, 0⟩))
  | .isGrouped => isGrouped'
  | .codec => Locks.codec
  /- gtpv2/conn.go:146-155 `Listen` -/
  | .listen c => locked .ex ⟨.conn, c⟩ (io ;; wr ⟨.pktConn, c⟩)
  /- gtpv2/conn.go:167, 179-208 `Serve`, also the end of `ListenAndServe` (137-143) and `Dial` (128-132) -/
  | .serve c => star (rd ⟨.pktConn, c⟩ ;; wait) ;; opt (rd ⟨.pktConn, c⟩) ;; opt logf2
  /- gtpv2/conn.go:168-177, the goroutine that closes the socket -/
  | .closer c => wait ;; rd ⟨.pktConn, c⟩ ;; io ;; opt logf2
  | .datagram c => datagram2 c
  /- gtpv2/conn.go:218-220 `ReadFrom` -/
  | .readFrom c => rd ⟨.pktConn, c⟩ ;; wait
  | .writeTo c => write c
  /- gtpv2/conn.go:233-240 `Close` -/
  | .close c => locked .ex ⟨.conn, c⟩ skip
  /- gtpv2/conn.go:243-245 `LocalAddr` -/
  | .localAddr c => rd ⟨.pktConn, c⟩
  /- gtpv2/conn.go:262-280 `SetDeadline`, `SetReadDeadline`, `SetWriteDeadline` -/
  | .setDeadline c => rd ⟨.pktConn, c⟩ ;; io
  /- gtpv2/conn.go:298-311 `AddHandler`, `AddHandlers` -/
  | .addHandler _ => skip
  /- gtpv2/conn.go:344-348 `EnableValidation` -/
  | .enableValidation c => locked .ex ⟨.conn, c⟩ (wr ⟨.validation, c⟩)
  /- gtpv2/conn.go:354-358 `DisableValidation` -/
  | .disableValidation c => locked .ex ⟨.conn, c⟩ (wr ⟨.validation, c⟩)
  /- also gtpv2/conn.go:429-437 `EchoRequest` -/
  | .sendMessageTo c => send c
  | .incSequence c => incSeq c
  | .decSequence c => decSeq c
  /- gtpv2/conn.go:421-426 `SequenceNumber` -/
  | .sequenceNumber c => locked .ex ⟨.conn, c⟩ (rd ⟨.sequence, c⟩)
  /- also gtpv2/conn.go:440-458 `EchoResponse`, `VersionNotSupportedIndication` -/
  | .respondTo c => respond c
  | .parseCreateSession s b => parseCreate s b
  /- gtpv2/conn.go:595-610 `CreateSession` -/
  | .createSession c s b => parseCreate s b ;; opt (Locks.codec ;; send c)
  /- gtpv2/conn.go:613-643 `DeleteSession`, `ModifyBearer`, `DeleteBearer` -/
  | .request c s => Locks.codec ;; rd ⟨.peerAddr, s⟩ ;; send c
  | .getSessionByTEID => byTEID
  /- gtpv2/conn.go:676-681 `GetSessionByIMSI` -/
  | .getSessionByIMSI => skip
  /- gtpv2/conn.go:684-691 `GetIMSIByTEID` -/
  | .getIMSIByTEID => opt (any fun s => rd ⟨.peerAddr, s⟩ ;; opt (rd ⟨.subscriber, s⟩))
  | .registerSession s => register s
  /- also gtpv2/conn.go:730-737 `RemoveSessionByIMSI` -/
  | .removeSession s => opt (remove s) ;; opt logf2
  /- gtpv2/conn.go:748-774 `NewSenderFTEID` -/
  | .newSenderFTEID => star logf2
  /- gtpv2/conn.go:786-794 `Sessions` -/
  | .sessions => skip
  /- gtpv2/conn.go:799-810 `SessionCount` -/
  | .sessionCount => star (any fun s => locked .ex ⟨.sess, s⟩ (rd ⟨.active, s⟩))
  /- gtpv2/conn.go:815-826 `BearerCount` -/
  | .connBearerCount => star (any fun s => locked .ex ⟨.sess, s⟩ (rd ⟨.active, s⟩) ;; opt (locked .ex ⟨.sess, s⟩ skip))
  /- gtpv2/session.go:68-78 `Activate` -/
  | .activate s => locked .ex ⟨.sess, s⟩ (rd ⟨.subscriber, s⟩ ;; opt (wr ⟨.active, s⟩))
  /- gtpv2/session.go:81-87 `Deactivate` -/
  | .deactivate s => locked .ex ⟨.sess, s⟩ (wr ⟨.active, s⟩)
  /- gtpv2/session.go:90-95 `IsActive` -/
  | .isActive s => locked .ex ⟨.sess, s⟩ (rd ⟨.active, s⟩)
  /- gtpv2/session.go:98-100 `PeerAddr` -/
  | .peerAddr s => rd ⟨.peerAddr, s⟩
  /- gtpv2/session.go:103-106 `UpdatePeerAddr` -/
  | .updatePeerAddr s => wr ⟨.peerAddr, s⟩
  /- gtpv2/session.go:115-125 `AddTEID`, `GetTEID` -/
  | .sessTEID => skip
  /- gtpv2/session.go:134-141 `PassMessageTo` -/
  | .passMessage => wait
  /- gtpv2/session.go:147-161 `WaitMessage` -/
  | .waitMessage s => wait ;; opt (rd ⟨.subscriber, s⟩)
  /- gtpv2/session.go:167-174 `AddBearer`, `RemoveBearer`, :186-200 the default bearer -/
  | .editBearers => skip
  /- gtpv2/session.go:177-183 `RemoveBearerByEBI`, :203-248 `LookupBearerByName`, `LookupBearerByEBI`,
  `LookupBearerNameByEBI` -/
  | .lookupByEBI s => star (any fun b => rd ⟨.bearer, b⟩) ;; opt (rd ⟨.subscriber, s⟩)
  /- gtpv2/session.go:253-278 `LookupEBIByName`, `LookupEBIByTEID` -/
  | .lookupEBI => star (any fun b => opt (rd ⟨.bearerTEID, b⟩) ;; opt (rd ⟨.bearer, b⟩))
  /- gtpv2/session.go:331-342 `Bearers` -/
  | .bearers s => locked .ex ⟨.sess, s⟩ skip
  /- gtpv2/session.go:345-356 `BearerCount` -/
  | .bearerCount s => locked .ex ⟨.sess, s⟩ skip
  /- gtpv2/bearer.go:40-42 `RemoteAddress` -/
  | .remoteAddress b => rd ⟨.bearerAddr, b⟩
  /- gtpv2/bearer.go:45-47 `SetRemoteAddress` -/
  | .setRemoteAddress b => wr ⟨.bearerAddr, b⟩
  /- gtpv2/bearer.go:50-52 `IncomingTEID`, :60-62 `OutgoingTEID` -/
  | .bearerTEID b => rd ⟨.bearerTEID, b⟩
  /- gtpv2/bearer.go:55-57 `SetIncomingTEID`, :65-67 `SetOutgoingTEID` -/
  | .setBearerTEID b => wr ⟨.bearerTEID, b⟩
  /- gtpv1/u-conn.go:319-330 `ListenAndServe` before serving -/
  | .uListen u => rd ⟨.uPktConn, u⟩ ;; opt (locked .ex ⟨.uconn, u⟩ (io ;; wr ⟨.uPktConn, u⟩))
  /- gtpv1/u-conn.go:337, 362-384 `serve` -/
  | .uServe u => star (rd ⟨.uPktConn, u⟩ ;; wait) ;; opt (rd ⟨.uPktConn, u⟩) ;; opt logf1
  /- gtpv1/u-conn.go:338-360, the goroutine that closes the socket -/
  | .uCloser u => wait ;; rd ⟨.kernel, u⟩ ;; opt (rd ⟨.kernel, u⟩ ;; io ;; opt logf1 ;; rd ⟨.kernel, u⟩ ;; io ;; opt logf1) ;;
      rd ⟨.uPktConn, u⟩ ;; opt (rd ⟨.uPktConn, u⟩ ;; io ;; opt logf1)
  | .uDatagram u => datagram1 u
  /- gtpv1/handlers.go:88-95, the goroutine that waits for a reader -/
  | .waitTPDU => wait
  /- gtpv1/u-conn.go:448-450 `ReadFrom` -/
  | .uReadFrom u => rd ⟨.uPktConn, u⟩ ;; wait
  /- gtpv1/u-conn.go:457-471 `ReadFromGTP` -/
  | .readFromGTP => wait
  /- also gtpv1/u-conn.go:494-504 `WriteToGTP`, :604-627 `EchoRequest`, `EchoResponse`, :655-667 `RespondTo` -/
  | .uWriteTo u => uwrite u
  | .writeToWithDSCPECN u => writeDSCP u
  /- gtpv1/u-conn.go:514-521 `Close` -/
  | .uClose u => locked .ex ⟨.uconn, u⟩ skip
  /- gtpv1/u-conn.go:524-526 `LocalAddr` -/
  | .uLocalAddr u => rd ⟨.uPktConn, u⟩
  /- gtpv1/u-conn.go:543-561 `SetDeadline`, `SetReadDeadline`, `SetWriteDeadline` -/
  | .uSetDeadline u => rd ⟨.uPktConn, u⟩ ;; io
  /- gtpv1/u-conn.go:577-588 `AddHandler`, `AddHandlers` -/
  | .uAddHandler => skip
  | .errorIndication u => errorInd u
  /- gtpv1/u-conn.go:682-709 `NewFTEID` -/
  | .newFTEID => star logf1
  /- gtpv1/u-conn.go:742-746 `EnableErrorIndication` -/
  | .enableErrInd u => locked .ex ⟨.uconn, u⟩ (wr ⟨.errInd, u⟩)
  /- gtpv1/u-conn.go:754-758 `DisableErrorIndication` -/
  | .disableErrInd u => locked .ex ⟨.uconn, u⟩ (wr ⟨.errInd, u⟩)
  /- gtpv1/tunnel.go:21-33 `RelayTo` -/
  | .relayTo u => rd ⟨.kernel, u⟩ ;; opt (locked .ex ⟨.uconn, u⟩ (rd ⟨.relayMap, u⟩ ;; wr ⟨.relayMap, u⟩))
  /- gtpv1/tunnel.go:36-47 `CloseRelay` -/
  | .closeRelay u => rd ⟨.kernel, u⟩ ;; opt (locked .ex ⟨.uconn, u⟩ (wr ⟨.relayMap, u⟩))
  /- gtpv1/tunnel_linux.go:40-85 `EnableKernelGTP` -/
  | .enableKernelGTP u => rd ⟨.uPktConn, u⟩ ;; opt (io ;; wr ⟨.uPktConn, u⟩) ;; rd ⟨.uPktConn, u⟩ ;; io ;;
      opt (wr ⟨.kernel, u⟩ ;; io ;; opt (wr ⟨.kernel, u⟩ ;; rd ⟨.relayMap, u⟩ ;;
        opt (locked .ex ⟨.uconn, u⟩ (wr ⟨.relayMap, u⟩))))
  /- gtpv1/tunnel_linux.go:88-165 `AddTunnel`, `AddTunnelOverride`, `DelTunnelByITEI`, `DelTunnelByMSAddress` -/
  | .tunnel u => star (rd ⟨.kernel, u⟩ ;; io)
  /- gtpv1/relay.go:42-94 `Run`, one of its goroutines; :124-130 `getPeer` -/
  | .relayRun r _ right => star (wait ;; locked .ex ⟨.relay, r⟩ (rd ⟨.teidPair, r⟩) ;; opt (uwrite right))
  /- gtpv1/relay.go:99-108 `Close` -/
  | .relayClose left right => rd ⟨.uPktConn, left⟩ ;; io ;; opt (rd ⟨.uPktConn, right⟩ ;; io)
  /- gtpv1/relay.go:117-122 `AddPeer` -/
  | .addPeer r => locked .ex ⟨.relay, r⟩ (wr ⟨.teidPair, r⟩)

/-- `Path A p w`: w is a possible sequence of instructions of p, when functions given by the user call only functions in A -/
inductive Path (A : Op → Prop) : Prog → List Instr → Prop
  | skip : Path A .skip []
  | rd (x : Var) : Path A (.rd x) [.rd x]
  | wr (x : Var) : Path A (.wr x) [.wr x]
  | wait : Path A .wait [.wait]
  | io : Path A .io [.io]
  | locked {m : Mode} {l : Lock} {p : Prog} {w : List Instr} : Path A p w → Path A (.locked m l p) (.acq m l :: w ++ [.rel m l])
  | seq {p q : Prog} {v w : List Instr} : Path A p v → Path A q w → Path A (.seq p q) (v ++ w)
  | left {p q : Prog} {w : List Instr} : Path A p w → Path A (.alt p q) w
  | right {p q : Prog} {w : List Instr} : Path A q w → Path A (.alt p q) w
  | nil {p : Prog} : Path A (.star p) []
  | cons {p : Prog} {v w : List Instr} : Path A p v → Path A (.star p) w → Path A (.star p) (v ++ w)
  | any {f : Nat → Prog} (i : Nat) {w : List Instr} : Path A (f i) w → Path A (.any f) w
  | done : Path A .user []
  | call {o : Op} {v w : List Instr} : A o → Path A o.prog v → Path A .user w → Path A .user (v ++ w)

/-- a goroutine: the mutexes it holds and what it still has to do -/
structure Thread where
  held : List (Mode × Lock)
  rest : List Instr
  deriving DecidableEq, Repr

abbrev State := List Thread

/-- l is held exclusively -/
def exHeld (s : State) (l : Lock) : Bool := s.any fun t => t.held.contains (.ex, l)
/-- l is held in any way -/
def isHeld (s : State) (l : Lock) : Bool := s.any fun t => t.held.contains (.ex, l) || t.held.contains (.sh, l)
/-- a goroutine waits to hold l exclusively -/
def wanted (s : State) (l : Lock) : Bool := s.any fun t => t.rest.head? == some (.acq .ex l)

/-- one instruction of goroutine i; none: it is blocked (or has ended). A `wait` may end at any time -/
def step (s : State) (i : Nat) : Option State :=
  match s[i]? with
  | none => none
  | some t =>
    match t.rest with
    | [] => none
    | .acq .ex l :: r => if isHeld s l then none else some (s.set i ⟨(.ex, l) :: t.held, r⟩)
    | .acq .sh l :: r => if exHeld s l then none else some (s.set i ⟨(.sh, l) :: t.held, r⟩)
    | .rel m l :: r => some (s.set i ⟨t.held.erase (m, l), r⟩)
    | .rd _ :: r => some (s.set i ⟨t.held, r⟩)
    | .wr _ :: r => some (s.set i ⟨t.held, r⟩)
    | .wait :: r => some (s.set i ⟨t.held, r⟩)
    | .io :: r => some (s.set i ⟨t.held, r⟩)

/-- any schedule -/
def run (s : State) : List Nat → Option State
  | [] => some s
  | i :: is => match step s i with
    | none => none
    | some s' => run s' is

/-- goroutine i goes on without anything from outside; a reader is kept back by a waiting writer (sync.RWMutex) -/
def runnable (s : State) (i : Nat) : Prop :=
  ∃ t r, s[i]? = some t ∧
    ((∃ l, t.rest = .acq .ex l :: r ∧ isHeld s l = false) ∨
     (∃ l, t.rest = .acq .sh l :: r ∧ exHeld s l = false ∧ wanted s l = false) ∨
     (∃ m l, t.rest = .rel m l :: r) ∨ (∃ x, t.rest = .rd x :: r) ∨ (∃ x, t.rest = .wr x :: r) ∨ t.rest = .io :: r)

/-- the goroutines at the start: each calls any functions in A, one after the other -/
def Start (A : Op → Prop) (s : State) : Prop := ∀ t ∈ s, t.held = [] ∧ Path A .user t.rest

end Verif.Locks
