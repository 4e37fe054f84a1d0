# Design of the formal model of go-gtp

Target: wmnsk/go-gtp, sources in /repo, read as text at the pinned commit. Nothing of it was built or run.

## 1. Trusted base

* The Lean 4.33.0 kernel. No own axioms, no `sorry`, no `native_decide`, no `bv_decide`. Every theorem depends on at
  most `propext`, `Classical.choice` and `Quot.sound`; [AXIOMS.md](AXIOMS.md) lists them theorem by theorem
  (written by `tools/axioms.py` from `#print axioms`). `decide +kernel` is used to evaluate whole finite tables
  (all 256 octets, all message tables), never to check a sample in place of a general statement.
* The reading of the Go text into Lean. Every definition in `Verif/Model` cites the file and lines it stands for.
* `tools/extract.py`, `tools/gen_tables.py` (message tables), `tools/gen_indication.py` (Indication flags) and
  `tools/gen_consts.py` (constants and names) read the Go text mechanically. They stop on any statement they do not know, so nothing is skipped in silence; but that they
  translate the known statements rightly is trusted.
* Our understanding of the Go language and of the few library functions modelled: slices, maps, `append`, `copy`,
  `encoding/binary`, `encoding/hex`, `strings.Split/TrimSuffix`, `net.IP.To4/To16`, `sync.Map`, `sync.Mutex`,
  channels, `sync/atomic`; the text functions `net.ParseIP`, `IP.String`, `UDPAddr.String`, `JoinHostPort`,
  `SplitHostPort`, `ResolveUDPAddr` of addresses (`Model/IPText.lean`, `resolve` in `Model/Sgw.lean`, from memory; the library's source is not in /repo); for kernel tunnels, what the kernel does on netlink calls (listed in `Model/Tunnel.lean` and `Model/PgwKernel.lean`).
* That the specification side (`Verif/Spec` and the encodings written out in `Verif/Props`) is what TS 29.274, 29.060,
  29.281, 09.60, 24.008, 29.002, 25.413 and 23.003 say. No copy of the standards was at hand; this side is written from
  memory. It matters most for the code tables of C73 (`Spec/Consts.lean`), which are nothing but numbers, were written
  after reading the constants of the code, and take their choice of entries, order and identifiers from it.

## 2. How the code is represented

* A Go function is a total Lean function into `Res α = ok a | err e | panic | diverge`. Index and slice expressions
  outside the bounds give `panic`. Loops are recursive with fuel; running out of fuel is `diverge`, and the totality
  theorems show that it does not happen.
* `[]byte` is `List UInt8`, integers are `UInt8/16/32/64` with wrap-around. Capacity and sharing are invisible in this
  representation; the one place where they matter for a property (C49) has its own model with an explicit memory.
* `MarshalTo(b)` is a function from the old buffer to the new one, so that "writes only its own octets" can be stated.
* A nil pointer is `none`; dereferencing it is `panic`.
* Messages: all message files have one shape (constructor switch, `MarshalTo` sequence, `UnmarshalBinary` switch,
  `MarshalLen` sum). The tables are extracted from the text, the semantics of the shape is written once
  (`Model/Msg.lean`), theorems are proved once for all tables meeting decidable conditions, which are then evaluated.
* Concurrency: a state machine with one step per atomic action (lock, atomic add, sync.Map operation, channel
  operation, system call). Theorems quantify over all schedules. The memory model is sequential consistency.
* Randomness, system call results and time-outs are arbitrary: theorems hold for all choices.

Layout: `Verif/Base.lean`; `Verif/Model/*` the code; `Verif/Spec/*` independent specifications; `Verif/Proofs/*` helper
lemmas; `Verif/Props/*` property theorems (`Cxx_*`) with concrete `example`s. The section "cases
that meet the hypotheses" at the end of a file applies its theorems to concrete arguments that meet their hypotheses.
A name ending in `_partial` is a proved part of a
claim whose full form fails or is out of reach; the comment says what is missing. Names like `_wrong`, `_loses`,
`_panics` are proofs that the code violates the property.

## 3. What is modelled, and what is not

Modelled: `utils/utils.go`; `gtp.go`; `gtpv2/ie`, `gtpv1/ie`, `gtpv0/ie` (structure, constructors and accessors, except
as below); `gtpv2/message`, `gtpv1/message`, `gtpv0/message` (headers, extension headers, all message types, generic
messages, dispatch); of `gtpv2`: sending and sequence numbers, receiving, validation and handlers, session registry, TEID
allocation, message queue of a session, bearers, `ParseCreateSession` and the request functions; of `gtpv1`: receive loop,
relay (both), handlers, TEID allocation, reading and writing T-PDUs, DSCP marking, kernel tunnels; of both: dialling, starting and
stopping, and which mutexes are held at which accesses to shared variables (`Model/Locks.lean`, transcribed by hand).

Not modelled:

* What is logged, text formatting of errors, tests, and the programs under examples but for the handlers of `examples/gw-tester/pgw` (C98, C106)
  `examples/gw-tester/sgw` (C99, C100, C104, C110) and `examples/gw-tester/mme` (C102, C103).
* Real time (deadlines may pass at any moment), opening of sockets; entries stored by other
  goroutines during an iteration of the bearer table (`gtpv2`).
* Deprecated wrappers in the `*_deprecated.go` files: `tools/deprecated.py` checks that each one only logs and calls its
  replacement with the same arguments.
* Nil slices versus empty slices (except where the code asks), memory exhaustion; the effects of the data races of C72 (all other models take an access to a variable as atomic);
  access by the caller to exported fields.

## 4. Per property

Status and exact theorem names are in MANIFEST.json.

| | how modelled and proved | where the code departs (proved unless marked) |
|---|---|---|
| C01 | utils literally; induction on the digit string, octets against TBCD | |
| C02 | utils literally; all digits | `EncodePLMN` panics for an MNC below two digits, and for an MCC below three unless the MNC has two (exact condition) |
| C03 | utils literally; octet arithmetic | |
| C04 | label loop; induction on labels | labels above 255 octets |
| C05 | IE tree of any depth, arbitrary grouped predicate; parser inverts the spec encoder by induction on size | |
| C06 | fuel-based parser; exact set of accepted strings | |
| C07 | buffer function refines spec encoder | a grouped IE into a buffer of 4 or more but too few octets is cut without error |
| C08 | Add/Remove histories refine operations on a list of children | |
| C09 | header literally; case split on T flag | 65536..65539 octets in total, and fewer than 12 octets, are rejected |
| C10 | same; exact acceptance | `Version()` is the constant 2 |
| C11 | generic over tables | |
| C12 | generic over tables | Version Not Supported Indication is built with a TEID (outside the claim) |
| C13 | generic round trip for tables whose constructor and parser agree; three messages separately, with the exact condition for each | Create Session Request with private extension and additional IEs, Create Bearer Response with instances it does not define, Context Response with type 206 or 207 |
| C14 | decidable agreement of the two switches, plus semantics | same three messages |
| C15 | permutation argument over the filing function | 11 constructors ignore IEs, listed completely |
| C16 | announced length and body per table | Create Session Request |
| C17 | idempotence of serialising; parser after serialiser | Create Session Request |
| C18 | constructor, serialiser, parser composed | empty Echo messages rejected; `NewGeneric` panics on nil |
| C19 | one model for GTPv1 and GTPv0, parametrised by the size table | unknown fixed-size types lose their value; wrong sizes are cut or padded; TEID Data II has 4 octets, 5 in TS 29.060 |
| C20 | as C06 | |
| C21 | header and extension chain literally; induction on the chain | contents above 1018 octets, two `AddExtensionHeaders` calls, E flag with empty chain |
| C22 | same; exact panic condition | Length of 65528 or more overflows and panics |
| C23 | as C13 | End Marker and Supported Extension Headers Notification lose the sequence number |
| C24 | header payload kept in the message state | nine GTPv1 types and one GTPv0 type cannot be serialised twice |
| C25 | composition of C21, C23 | payloads of 65528 octets or more panic |
| C26 | header literally | SNDCP number lost, 65516 octets or more panic, Length not used |
| C27 | as C13 | panic above 64 KiB |
| C28 | dispatch on top of the three parsers | |
| C29 | machine of atomic steps; invariant on the counter | |
| C30 | same machine with failing sends | overlapping calls collide after a failed send |
| C31 | same machine; message with replaced number | |
| C32 | allocation loop against sync.Map, arbitrary random numbers | |
| C33 | two maps and sessions; refinement to the view of registered sessions | `RemoveSession` can hit another session or leave an old entry; panic for reserved TEIDs |
| C34 | receive path on top of the parser; exact panic condition | crash between `NewSenderFTEID` and registration |
| C35 | same | version never checked |
| C36 | channel and waiters, all interleavings | a waiter for another number loses the message |
| C37 | receive loop with relay table | 8 to 10 octets dropped, above 1500 truncated |
| C38 | same, and reader side with channel and Close | as C37; `ReadFromGTP` after Close returns zeros without error |
| C39 | same; exact panic condition | Error Indication without IEs, datagram below two octets, relay entry to unopened connection |
| C40 | lock, two system calls, arbitrary failures | failing to restore is silent |
| C41 | constructor, parser and accessors literally; encoding of 8.22 | `GREKey` fails on an element without an address; interface types from 64 on run into the flags (outside the claim) |
| C42 | same, encodings of 8.7, 8.15, 8.16, 8.86 | PCI/PVI of Bearer QoS, MBR uplink of Flow QoS |
| C43 | same, all 256 presence combinations generically | three deprecated functions: one network, cell identifiers below 2^20; witnesses for the rest |
| C44 | on top of C01 | even IMSI, odd GTPv1/v0 MSISDN |
| C45 | extracted assignments; bits of nine octets | |
| C46 | filters, components, parameters; induction on lists | even number of parameters lost, IPv6 masks and prefixes |
| C47 | containers; PPP, PAP, CHAP, IPCP | empty contents, truncated containers |
| C48 | `≠ panic` for each accessor, any type and payload | TFT prefixes, PPP decoders, GUTI structure, GTPv1 AUTN |
| C49 | explicit buffer with views; children share it | `Add` writes over the following elements |
| C50 | per element: constructor, encoding, accessors, wire | see `_wrong` theorems |
| C51 | type of every field of the extracted tables | three GTPv2 fields |
| C52 | permutation over filing | third Charging Gateway Address dropped (outside the hypothesis) |
| C53 | receive loop with default handlers | |
| C54 | witness IE computed per field | UE MM context of Context Response |
| C55 | tables of plain elements with names, types, accepting accessors | labels above 255 octets |
| C56 | flag octets | swapped or constant cause and bearer flags |
| C57 | accessors over Bearer Context children | `CauseFlags` |
| C58 | tables as C55, flag table by name | empty private extension |
| C59 | per element as C50 | see `_wrong` theorems |
| C60 | association list, arbitrary permutation for every iteration | empty name, nil bearer, `RemoveBearerByEBI` not atomic |
| C61 | loop over the elements turned into “last element of a kind decides” by induction | GBR downlink (conn.go:552), PCI and PVI |
| C62 | same induction; exact description of both tables after success, of the TEID table after an error | F-TEID before IMSI registers the empty IMSI; session stays registered after an error |
| C63 | composition of C13 with an uninterrupted `SendMessageTo` (interleavings: C29, C30) | Create Session Request as C13; session stays registered when the send fails |
| C64 | two goroutines, table and Close as atomic steps; invariant with a log of the T-PDUs sent | one table for both directions, floods after a connection is closed, one T-PDU after Close, second Close panics, silent by default, header fields lost, payloads over 1600 octets cut |
| C65 | what each read meets is an argument; exact condition of each outcome, by induction on the turns of the loop | sender and sequence number unchecked, Echo Request accepted, `nil, nil`, endless wait; the socket stays open after an error (not proved) |
| C66 | Serve, its watcher, Close and the context as atomic steps; invariant and stages | datagrams after Close (GTPv2), socket left open without Serve or after a failed read, second Close panics |
| C67 | exact outcome for every short buffer | GTPv2 headers and messages panic, grouped elements are cut, GTPv1 headers leave two octets of the buffer |
| C68 | header parser does not look beyond Length | piggybacked messages are never handled |
| C69 | calls as machines of kernel calls, any of which may fail; single calls exactly, overlapping calls by invariants | a failing override may lose the old tunnel, replaced TEIDs stay in use, overlapping calls may delete a newer tunnel, failed EnableKernelGTP cannot be repeated |
| C70 | flag octet bit by bit (all 256 values by kernel evaluation), round trips reuse C09 and C21 | SetMessagePriority of 0 to 15 gives 0, SetTEID without T flag loses payload, SetTEID of GTPv1 sets a spare bit, SetNextExtensionHeaderType does not survive the wire |
| C71 | functions as programs over mutexes, variables and waits, run in goroutines; mutexes are taken in one order, nothing is awaited while holding one | EnableLogging deadlocks with itself and stops everything that logs |
| C72 | same programs; a variable is only accessed with its mutex held, and mutexes exclude | twelve variables are accessed without a common mutex; for each a race of two calls |
| C73 | constants and name tables read from the source; compared whole with the tables of the standards as remembered (see section 1), names for all 256 types | five GTPv1 message types are 56 to 60, not 48 to 52; "Errror Indication"; GTPv1 elements of fixed length have no name; names of GTPv2 elements 120 to 122 are shifted by one, 130 is named without being defined |
| C74 | read loop with explicit arrays and goroutines, any schedule; invariant: goroutine i owns array i + 1 | order of arrival is not kept; datagrams above 1500 octets are cut and may be handled as shorter messages |
| C75 | the constructors literally (make, assign, copy); from C05, C46 and the grouped constructor | a Bearer Context of nothing cannot be read; an even number of template parameters is not seen by the receiver |
| C76 | case distinction on the type; the types carrying a value are listed in the statements | UserLocationInfo (deprecated) and XRES of an empty element do not look at the type |
| C77 | inductive histories `Made` (for GTPv2 with the header setters), an invariant of schema and header; the state condition `Fits` implies stability of filing (Proofs/MsgEdit) | three fields of Context Response are never sent, UEMMContext arrives in AdditionalIEs; the first of two fields of one type cannot be cleared alone; C24 types cannot be edited after receiving |
| C78 | the predicate `Reads t n acc` (short: error, long: value, only the first n octets matter) by one tactic; announced sizes by stages (`Part`) | P-TMSI Signature, IP, FQ-CSID, EBIs, GREKey, MNC of GTPv0, AUTN: witnesses |
| C79 | the predicate `Into n mar mto` (short: error; otherwise Marshal's octets, then the old ones); large buffers by running the writer behind a prefix, short ones by following the length | S103, PAP, FQ-CSID, templates, containers, PPP, CHAP, IPCP: large buffers, and for every short one what happens instead of an error (`over s b`: s laid over b as far as there is room) |
| C80 | `LengthRight m`: octets and size of the serialisation against the Length the object shows before; `marshal_eq` of C16/C77 | Create Session Request as in C16, stale payloads as in C24 |
| C81 | `addIE` (Model/Generic) against the constructor with the longer list, and against `Delivers`/`LengthRight` of C77/C80 for received messages; `newGenericNoTEID` against the receiver | nil arguments: panic in GTPv2 (modelled), dropped in the others |
| C82 | any number of calls, sockets and contexts as atomic steps (Model/Listen), the machine of C66 for many calls; invariants over all executions | departures in the claim; opening a socket under the lock is one step, so is reading the field with the socket and using it |
| C83 | SendMessageTo (C29), RespondTo (C31) and the session queues (C36) joined by a network that keeps every datagram (Model/Exchange); invariants over all executions, induction over the exchanges of a session | departures in the claim; the network neither alters nor invents datagrams; timers may fire at any moment |
| C84 | numbered connections, each the receiver of C37 and C38, joined by a network that keeps every datagram (Model/UPath); invariant: every T-PDU in flight is a sent one but for the TEID, and the relay calls lead its way; induction over the relays for delivery | departures in the claim; handling one datagram is one step; a panic (C39) only stops its goroutine in the model |
| C85 | the text functions of `net` and `net/netip` from memory (Model/IPText); a grammar of RFC 4291 2.2 as specification; the parser accepts exactly it, by induction on its derivations; the text of an address is in it and is the one of RFC 5952; then the constructors and accessors of C41, C50, C59 | refusal fails in GTPv0 `NewEndUserAddress` and the dual PDN address; FQ-CSID crashes |
| C86 | the same functions; splitting at the last colon is unique, an address has neither `%` nor brackets | a local address with a zone gives no GSN Address |
| C87 | the parsers once more with a count (Model/Cost), results equal to the uncounted ones; induction on fuel: 4·calls ≤ n + 3, visits ≤ depth·calls and 2·visits ≤ calls² + calls because a success of k calls is measured by k visits; exact cost of well-formed trees; fixed-time steps (slicing, comparing) are not counted | nested grouped elements are measured again at each level: quadratic |
| C88 | createSession on one connection, serveDatagram on another, respondTo back; composed from C13, C35, C61, C62 and the constructor theorems C41, C42, C44, C50, C55 | no private extension together with additional elements; messages above 1500 octets are cut (exact condition proved) |
| C89 | Model/Capacity: writing through a slice of a larger array, the memory is kept also after errors and panics; compared with the list models | GTPv2 headers and messages write past the buffer up to its capacity and report success (exact result proved) |
| C90 | Proofs/Order: which fields the action of a case tests and writes, closed form of a field after a list of elements; conditions on the tables checked by evaluation over all message types | AdditionalIEs keep the order of the list |
| C91 | the same closed form, by the elements that count for a field | the last of repeated elements counts, not the first (3GPP TS 29.274 7.7.10, TS 29.060 11.1.8, from memory) |
| C92 | the parsers on the first k octets, for every k; element encodings are a prefix code, so the elements left are the first ones | GTPv2 and GTPv0: a cut between elements, or one octet behind the header, is not noticed; GTPv0 T-PDUs and T-PDUs relayed by a GTPv1 endpoint are not checked |
| C93 | UnmarshalBinary with the former value as a further argument (Model/Reuse.lean); for messages the loop starts with the former fields | members behind a flag that is not set, children of elements not grouped, and all elements of messages are left over; GTPv1/v0 elements of unknown types are read with the former length; values after an error are not modelled |
| C94 | the composition of C88 for any two message types: constructor, SendMessageTo, serialiser, read buffer, parser, validation, dispatch, RespondTo, and back; then RemoveSession on both sides | elements and lengths as in C13 and C88; handlers are registered and validation is on |
| C95 | what processing a datagram does, as one event or none (UConn.serve, Conn.serveDatagram), and the same of the datagram it sends | application handlers may answer what they like; lengths as in C37 and C38 |
| C96 | UnmarshalBinary of the field structures with the former structure as a further argument (Model/Typed/Reuse.lean) | in 17 structures nothing remains; in the others what remains and what is sent of it is stated exactly; that append may write behind the old slice is not modelled; structures after an error are not modelled |
| C97 | UnmarshalBinary followed by Marshal of the field structures, the octets given explicitly (`take`, masks) | holds but for GUTI, Paging and Service Information, templates with an even number of parameters, PPP and IPCP without payload and Throttling units 5 to 7, whose exact octets are stated |
| C98 | the handlers of examples/gw-tester/pgw as functions on the `Conn` of C31 to C36 (`H` in Model/Pgw.lean), run by the modelled Serve; states are those after any sequence of datagrams (`Runs`); a drawn TEID is an argument that is free when it is drawn (C32), a session object one that is in neither table. An invariant of the two tables carries the proofs | incomplete requests remove the session of their IMSI; crash between reserving the TEID and registering, or for ever if the write fails; two requests at the same time give two sessions; IPv6: no address in the answer, crash with FQ-CSID. `serve` runs a handler as one step; the two departures on concurrency cut it at the answer |
| C99 | the handlers of examples/gw-tester/sgw as functions on a state with two `Conn`, two `UConn` (C37), the queues of the sessions and the handlers that wait (`G` in Model/Sgw.lean); an event is a datagram on either side, or a waiting handler that goes on or gives up, and `Runs` has all states after any events. `C99_forward_partial` says what the P-GW reads and what the S-GW keeps; `C99_attach_partial` runs the MME's request through the S-GW, the P-GW of C98 and the S-GW again, and says what the MME reads | a handler that waits for the P-GW is two steps, other interleavings are not modelled; EBI and quality of service of the MME are not handed on |
| C100 | the model of C99, with the relay of C37 for user data (`Forwarded`: every G-PDU of 11 to 1500 octets). `C100_modify_partial`, `C100_detach_partial`: from any reachable state with the sessions an attach leaves (`Attached`); `C100_life_partial` runs attach, Modify Bearer and detach through both gateways; `C100_timeout_partial`, `C100_refused_partial`: a P-GW that is silent or refuses; `C100_*_wrong`: three departures in concrete reachable states (Props/SgwRuns.lean) | relaying by the kernel (`useKernelGTP`) is not modelled; one event after the other; the detach starts with an empty queue |
| C101 | `Own t i`: the octets Marshal gives for `i` begin with `t`, two octets of length and 0; one conjunct per constructor (Props/Typed/Own.lean) | GTPv1 and GTPv0 elements have no instance; their types are in C58, C59 |
| C102 | the MME of examples/gw-tester as a state with one `Conn`, the two channels as counters, the shared fields and the goroutines of the calls, each cut where it waits (`G` in Model/Mme.lean); events are calls, datagrams, and goroutines that go on or whose time is over (`Runs`; `History` with all calls and outputs). `C102_answers`: answers given and goroutines that owe one add up to the calls made. `C102_attach_partial` says what the S-GW reads (`Asks`, the hypothesis of C99) and what the MME keeps. `C102_*_wrong`: for every state, or in concrete reachable states (Props/MmeRuns.lean) | location ignored, crash without location and on TEID 0, answers and the eNB's address shared between calls, goroutines left; data races on `m.enb`, `m.sgw` not modelled; ModifyBearer of a session without a bearer not looked at |
| C103 | `C103_attach_partial` joins C102, C99 and C100 with the models of all three programs: ten events, of which each takes the octets another one has sent; ends with the answer to the call, `Forwarded` in both directions and the sessions of all three (Props/MmeNetwork.lean) | one event after the other, nothing lost |
| C104 | the model of C99 from any reachable state with the sessions an attach leaves. `C104_delete_partial`: request, the MME's answer and the woken handler; `Stripped` says what is left. `C104_timeout_partial`, `C104_unknown`, `C104_malformed`: the other ways; `C104_crash_wrong`: every Delete Session Request in every `Stripped` state; `C104_mme_wrong` in every reachable state of the model of the MME (Props/SgwBearer.lean) | one event after the other; the queue of the session has no older message |
| C105 | `Tame`: for every element and every zero value, `must` of the accessor returns, with the value of the accessor or the zero value. From C48 (no panic) and C76 (other types), for every accessor that has a Must form (Props/Typed/Must.lean) | `must` is the body all 158 functions have; the accessors that return the text of an address stand under the address |
| C106 | the model of C98 with `setupUPlane` after the answer and a kernel of tunnels, routes and rules on top of that of C69. `RunsK`: any datagrams, any failing kernel calls. `C106_attach_partial`: `downlink` and `uplink` say where the kernel sends a packet and which it accepts; `C106_undisturbed` for all other datagrams, `C106_safe`; departures `C106_detach_wrong` (nothing is removed), `C106_unset_wrong` (accepted, no tunnel), `C106_taken_wrong` (another subscriber takes the address) (Props/PgwKernel.lean) | IPv4; kernel assumed as in Model/Tunnel.lean and Model/PgwKernel.lean; as C98 |
| C107 | the code of Model/Msg.lean with its nil checks (Model/Nil.lean; which loops look for nil is a table read from the Go text by tools/gen_nil.py). `given`: the list without nil; `strip`: the message without. `C107_sent_wrong` for every list field that is not looked at (Props/Nil.lean) | nil entries in ChildIEs and in structures not treated |
| C108 | the two package variables as a state (Model/Declare.lean); the readers and writers take the answer `g` as argument, so the theorems compare `g` (before) with `g'` (after). `forget g x`: x without the children `g` does not allow; `Inside y x`: y is x or at any depth inside it. `C108_built_wrong` for every type, value and receiver (Props/Declare.lean) | calls one after the other; SetIsGroupedFun(nil) left out |
| C109 | an element that was read is the element with its place in the buffer, and `view m` what a program sees of a message when the buffer holds m (Model/Keep.lean). `C109_now`: with the buffer unchanged this is the model all other theorems use. `C109_iff`: the same later if and only if the payload octets are (Props/Keep.lean) | constructors that keep the slice they are given are not treated |
| C110 | the model of C99 and C100 with `useKernelGTP` on: the SubscriberIP of the bearers, two devices with the tunnels of C69, routes and rules (Model/SgwKernel.lean). `RunsK`: any events, any failing kernel calls; of the kernel at the start only that no other rules name the two devices. `forwards` says which G-PDU the kernel sends on, and as which. `C110_through_partial`: attach and Modify Bearer through S-GW and P-GW, packets in both directions through both kernels. `C110_answer_partial`: no answer without tunnels, whatever fails. `C110_undisturbed`: nothing else touches the kernel. Departures `C110_fails_wrong`, `C110_detach_wrong`, `C110_close_wrong` (Props/SgwKernel.lean, SgwKernelRuns.lean). `C110_address_…`: the address noted for a subscriber is changed by no message of others (Props/SgwKernelAddr.lean) | IPv4; as C99, C100, C106; kernel assumed |
| C111 | memory as a list of arrays, slices as parts of them, elements holding a slice; a constructor that calls `make` puts an array at the end of the list (Model/Given.lean). `C111_copied_partial`: writes to arrays of before do not matter; `C111_now`: the model agrees with that of the octets. Departures: the constructors that keep the slice, for which the element is that of the octets the slice has when it is looked at: `C111_new_wrong`, `C111_address_wrong`, `C111_kept_wrong`, with `C111_wrong` for two addresses. Grouped elements: `C111_group_partial` (payload kept, children those given), `C111_group_iff` (unchanged exactly if the children are), `C111_group_wrong` (Props/Given.lean) | groups in groups left out |
| C112 | the memory of C111; an accessor returns which part of the payload it is, test by test as in the code (Model/Shared.lean). `C112_value`, `C112_now`: these are the octets the accessors of Model/Typed return. `C112_partial`: a write to what was returned leaves the rest of the element and all other slices. Departures: `C112_written`, `C112_written_wrong` (the write is in the element), `C112_follows_wrong` (the address kept changes with the element), with `C112_wrong` for an F-TEID and a GSN address. `IPv6` of GTPv2: `C112_ipv6_value`, `C112_ipv6_partial` (four octets are copied), `C112_ipv6_written` (sixteen are not) (Props/Shared.lean) | none |

"Not proved" marks an observation from reading that no theorem covers.

## 5. Mutation tests

`tools/mutate.py` applies the edits of `seeded/mutants/*.py` one at a time to a scratch copy and rebuilds.
`seeded/LOG.jsonl` has one line per edit with the theorems that stopped proving. Some edits in batch3 are
repairs of a departure: there the theorem about the departure has to fail.
A theorem that only stops compiling because its proof script is brittle also counts as failed; the log does not tell the
two apart, so the survivors are what the log is evidence for.

`tools/automut.py` makes such edits itself: it swaps comparisons, changes a number by one, drops a negation, replaces an error by
a value and so on, at random places of the definitions under Verif/Model. `seeded/AUTO.jsonl` has the outcomes. Examples are
removed from the scratch copy, so that only theorems count.
