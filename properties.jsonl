{"id": "C01", "title": "Digit strings survive TBCD packing", "statement": "For every string of decimal digits, packing it with the swapped-nibble (TBCD) encoder and unpacking it again returns the same string: without trimming when the number of digits is even, with the filler-trimming option when it is odd; the packed form has ceil(n/2) octets.", "quantifier": "every digit string of every length", "why_tests_cant": "The input space is unbounded; a test fixes finitely many inputs.", "anchors": ["utils/utils.go: StrToSwappedBytes, SwappedBytesToStr, swap"]}
{"id": "C02", "title": "PLMN encode/decode are inverse", "statement": "For every 3-digit MCC and every 2-digit or 3-digit MNC, encoding succeeds with exactly three octets, decoding returns exactly the same MCC and MNC strings, and therefore two different PLMNs never share an encoding.", "quantifier": "all 1000 MCCs x all 1100 MNCs", "why_tests_cant": "1.1 million combinations; collisions are a statement about pairs.", "anchors": ["utils/utils.go: EncodePLMN, DecodePLMN, DecodeMCC, DecodeMNC"]}
{"id": "C03", "title": "24-bit and 40-bit integer codecs are exact", "statement": "Writing a number with the 24-bit (40-bit) encoder gives exactly 3 (5) octets, reading them back gives the number modulo 2^24 (2^40), and reading then writing any 3 (5) octets gives those octets; any other length reads as 0. A cell identity is split into base station and cell so that the two give it back.", "quantifier": "every uint32/uint64 and every byte string", "why_tests_cant": "2^32 and 2^64 values.", "anchors": ["utils/utils.go: Uint24To32, Uint32To24, Uint40To64, Uint64To40, ParseECI"]}
{"id": "C04", "title": "FQDN/APN labels round trip", "statement": "For every dotted name whose labels have at most 255 octets, decoding the label encoding returns the name; decoding arbitrary octets never panics and always terminates.", "quantifier": "every string; every byte string", "why_tests_cant": "The input space is unbounded; a test fixes finitely many inputs.", "anchors": ["utils/utils.go: EncodeFQDN, DecodeFQDN"]}
{"id": "C05", "title": "GTPv2 IE round trip, including grouped IEs of any depth", "statement": "For every well-formed IE tree (each payload < 64 KiB, Length consistent, grouped IEs carrying children), parsing its serialisation yields an IE with the same type, length, instance, payload and, recursively, the same children; trailing bytes do not change the result.", "quantifier": "every IE tree of any depth and breadth, every trailing byte string", "why_tests_cant": "Unbounded recursive structures.", "anchors": ["gtpv2/ie/ie.go: IE, MarshalTo, UnmarshalBinary, Parse, ParseMultiIEs, MarshalLen", "gtpv2/ie/ie_grouped.go: IsGrouped"]}
{"id": "C06", "title": "GTPv2 IE parsing is total and loss-free", "statement": "For every byte string, parsing one IE or a sequence of IEs returns a value or an error, never panics or diverges; when a sequence parses, serialising the IEs one after another reproduces the input byte for byte.", "quantifier": "every byte string", "why_tests_cant": "The input space is unbounded; a test fixes finitely many inputs.", "anchors": ["gtpv2/ie/ie.go: Parse, ParseMultiIEs, UnmarshalBinary, MarshalTo"]}
{"id": "C07", "title": "GTPv2 IE serialisation writes exactly its announced length", "statement": "For every IE and every destination buffer of at least the announced length, serialising into it overwrites only the first announced-length octets, leaves the rest unchanged, and those octets do not depend on the former buffer content.", "quantifier": "every IE tree, every buffer", "why_tests_cant": "The input space is unbounded; a test fixes finitely many inputs.", "anchors": ["gtpv2/ie/ie.go: MarshalTo, MarshalLen"]}
{"id": "C08", "title": "Editing grouped IEs keeps payload, length and children coherent", "statement": "Starting from an empty grouped IE, after any sequence of Add and Remove calls the payload equals the concatenated serialisations of the current children in insertion order, Length equals its size (while < 64 KiB), Find returns the first child with that type and instance iff one exists, and after Remove(type, instance) no such child remains while all others stay in order.", "quantifier": "every sequence of operations", "why_tests_cant": "Unbounded operation histories.", "anchors": ["gtpv2/ie/ie_grouped.go: NewGroupedIE, Add, Remove, FindByType", "gtpv2/ie/ie.go: SetLength"]}
{"id": "C09", "title": "GTPv2 header round trip", "statement": "For every header (with or without TEID, with any flag bits consistent with TEID presence, any message type, TEID, 24-bit sequence number, spare octet) and every payload such that the message has at least 12 octets and its length fits in 16 bits, parsing the serialisation returns the same header and payload.", "quantifier": "every header and payload", "why_tests_cant": "The input space is unbounded; a test fixes finitely many inputs.", "anchors": ["gtpv2/message/header.go: Header, MarshalTo, UnmarshalBinary, SetLength, MarshalLen"]}
{"id": "C10", "title": "GTPv2 header parsing never panics", "statement": "For every byte string, of any length, parsing a GTPv2 header returns a header or an error; the returned payload is a contiguous part of the input, and is exactly the part delimited by the Length field when the input is long enough. The flags of a header are exactly those given to NewHeaderFlags.", "quantifier": "every byte string, every value of the Length field", "why_tests_cant": "Depends on the joint value of a length field and the buffer size, including uint16 overflow.", "anchors": ["gtpv2/message/header.go: UnmarshalBinary"]}
{"id": "C11", "title": "GTPv2 message parsing never panics", "statement": "For every byte string the GTPv2 message parser returns a message or an error, for every message type.", "quantifier": "every byte string", "why_tests_cant": "The input space is unbounded; a test fixes finitely many inputs.", "anchors": ["gtpv2/message/message.go: Parse", "gtpv2/message/*.go: UnmarshalBinary"]}
{"id": "C12", "title": "GTPv2 parser dispatch is faithful", "statement": "For every byte string that parses, the returned message is of the type selected by octet 2 of the input (a generic message for unsupported types), and its message type, TEID and sequence number accessors return the values at the header positions of the input.", "quantifier": "every byte string", "why_tests_cant": "All 256 types crossed with all contents.", "anchors": ["gtpv2/message/message.go: Parse", "gtpv2/message/header.go: TEID, SetTEID, Sequence, HasTEID"]}
{"id": "C13", "title": "GTPv2 messages round trip", "statement": "For each supported GTPv2 message type and every list of well-formed IEs whose total size fits, building the message with its constructor, serialising and parsing it returns the same message: same header values and the same IE in every named field and every list field.", "quantifier": "every supported message type, every list of IEs in every order and multiplicity", "why_tests_cant": "Every subset, order and multiplicity of IEs.", "anchors": ["gtpv2/message/*.go: New*, MarshalTo, UnmarshalBinary, MarshalLen, SetLength"]}
{"id": "C14", "title": "GTPv2 constructors and parsers file every IE in the same place", "statement": "For each supported message type, the constructor and the parser file any given sequence of IEs in the same fields.", "quantifier": "every message type, every IE type and instance, every sequence of IEs", "why_tests_cant": "Two hand-written switch statements per message have to agree on 256x16 (type, instance) pairs and on arrival order.", "anchors": ["gtpv2/message/*.go: New*, UnmarshalBinary"]}
{"id": "C15", "title": "GTPv2 messages do not lose IEs", "statement": "For each supported message type and each list of IEs in which no single-valued field is hit twice, every IE given to the constructor is present in the serialised message, exactly as many times as given.", "quantifier": "every message type, every list of IEs", "why_tests_cant": "The input space is unbounded; a test fixes finitely many inputs.", "anchors": ["gtpv2/message/*.go: New*, MarshalTo"]}
{"id": "C16", "title": "GTPv2 length field and size are exact", "statement": "For each supported message and every content (field contents chosen freely), serialisation succeeds with exactly the announced size, the Length field equals size minus 4 while that fits 16 bits, and the body is the concatenation of the field IEs in the order the message defines.", "quantifier": "every message type, every field content", "why_tests_cant": "The input space is unbounded; a test fixes finitely many inputs.", "anchors": ["gtpv2/message/*.go: MarshalTo, MarshalLen, SetLength"]}
{"id": "C17", "title": "GTPv2 messages can be re-serialised any number of times", "statement": "Serialising a message twice gives the same bytes, and a parsed message re-serialises to bytes that parse to the same fields (forwarding a message does not change it).", "quantifier": "every message, every byte string that parses", "why_tests_cant": "Unbounded inputs and histories.", "anchors": ["gtpv2/message/*.go: MarshalTo, UnmarshalBinary"]}
{"id": "C18", "title": "Every GTPv2 message the library can produce, it can parse", "statement": "Every message built by a constructor, including one without IEs and without TEID, is accepted by the parser.", "quantifier": "every message type, every list of IEs", "why_tests_cant": "The input space is unbounded; a test fixes finitely many inputs.", "anchors": ["gtpv2/message/header.go: UnmarshalBinary", "gtpv2/message/echo-req.go"]}
{"id": "C19", "title": "GTPv1 and GTPv0 IE round trip", "statement": "For every GTPv1 or GTPv0 IE of a known fixed-size (TV) type with the (non-zero) size its type demands, and every variable-size (TLV) IE with payload < 64 KiB (extension header type list < 256 octets), parsing its serialisation, with any trailing bytes, returns the same IE.", "quantifier": "every type, every payload", "why_tests_cant": "The input space is unbounded; a test fixes finitely many inputs.", "anchors": ["gtpv1/ie/ie.go: IE, MarshalTo, UnmarshalBinary, MarshalLen, IsTV"]}
{"id": "C20", "title": "GTPv1 and GTPv0 IE parsing is total and loss-free", "statement": "For every byte string, parsing one IE or a sequence of IEs returns a value or an error, never panics or diverges; if a sequence parses, the serialisations concatenate to the input.", "quantifier": "every byte string", "why_tests_cant": "The input space is unbounded; a test fixes finitely many inputs.", "anchors": ["gtpv1/ie/ie.go: Parse, ParseMultiIEs", "gtpv0/ie/ie.go: Parse, ParseMultiIEs"]}
{"id": "C21", "title": "GTPv1 header round trip with extension headers", "statement": "For every GTPv1-U/C header with any combination of S, PN and E flags, any sequence number, N-PDU number and (if E is set) non-empty chain of extension headers of legal size, and any payload whose total length fits 16 bits, parsing the serialisation returns the same header, extension headers and payload.", "quantifier": "every header, every extension header chain, every payload", "why_tests_cant": "The input space is unbounded; a test fixes finitely many inputs.", "anchors": ["gtpv1/message/header.go: MarshalTo, UnmarshalBinary, SetLength", "gtpv1/message/extension-header.go: MarshalTo, UnmarshalBinary"]}
{"id": "C22", "title": "GTPv1 header and message parsing never panics", "statement": "For every byte string the GTPv1 header parser and message parser return a value or an error. An extension header must be comprehended exactly when the first bit of its type is set.", "quantifier": "every byte string, including ones longer than 64 KiB", "why_tests_cant": "Joint value of Length field, buffer size and extension headers.", "anchors": ["gtpv1/message/header.go: UnmarshalBinary", "gtpv1/message/message.go: Parse"]}
{"id": "C23", "title": "GTPv1 messages round trip", "statement": "For each supported GTPv1 message type and every list of well-formed IEs that fits, building, serialising and parsing returns the same fields and header values.", "quantifier": "every message type, every list of IEs", "why_tests_cant": "The input space is unbounded; a test fixes finitely many inputs.", "anchors": ["gtpv1/message/*.go: New*, MarshalTo, UnmarshalBinary"]}
{"id": "C24", "title": "GTPv1 messages can be re-serialised", "statement": "Serialising a GTPv1 message twice gives the same bytes; a parsed message can be serialised again.", "quantifier": "every message type, every content, every number of serialisations", "why_tests_cant": "Depends on call history.", "anchors": ["gtpv1/message/*.go: MarshalTo, MarshalLen"]}
{"id": "C25", "title": "T-PDU encapsulation is transparent", "statement": "For every TEID and every payload below 64 KiB, encapsulating and decapsulating returns the same TEID and payload.", "quantifier": "every TEID and payload", "why_tests_cant": "The input space is unbounded; a test fixes finitely many inputs.", "anchors": ["gtpv1/utils.go: Encapsulate, Decapsulate", "gtpv1/message/t-pdu.go"]}
{"id": "C26", "title": "GTPv0 header round trip", "statement": "For every GTPv0 header and payload that fits, parsing the serialisation returns the same header fields and payload.", "quantifier": "every header and payload", "why_tests_cant": "The input space is unbounded; a test fixes finitely many inputs.", "anchors": ["gtpv0/message/header.go: MarshalTo, UnmarshalBinary"]}
{"id": "C27", "title": "GTPv0 messages round trip and parse without panic", "statement": "For each supported GTPv0 message type, every list of well-formed IEs that fits round trips through serialise and parse; parsing never panics.", "quantifier": "every message type, every list of IEs, every byte string", "why_tests_cant": "The input space is unbounded; a test fixes finitely many inputs.", "anchors": ["gtpv0/message/*.go"]}
{"id": "C28", "title": "Version dispatch", "statement": "Parsing with the version-independent entry point returns exactly what the version-specific parser selected by the three high bits of the first octet returns, and an error for other versions or fewer than 8 octets; it never panics on datagrams below 64 KiB.", "quantifier": "every byte string", "why_tests_cant": "The input space is unbounded; a test fixes finitely many inputs.", "anchors": ["gtp.go: Parse"]}
{"id": "C29", "title": "Request sequence numbers do not repeat", "statement": "However many goroutines draw sequence numbers on one connection and however they interleave, as long as no send fails, any two numbers drawn fewer than 2^23 draws apart differ, and all lie in 0..0x7fffff.", "quantifier": "every number of goroutines, every interleaving, every initial counter value in range", "why_tests_cant": "Schedules cannot be enumerated; wrap-around takes 8 million draws.", "anchors": ["gtpv2/conn.go: IncSequence, SendMessageTo"]}
{"id": "C30", "title": "A failed send does not make a later sequence number collide", "statement": "If a send fails and the counter is rolled back, no two successfully sent outstanding requests carry the same sequence number.", "quantifier": "every interleaving of successful and failed sends", "why_tests_cant": "Requires a failure between two atomic steps of another goroutine.", "anchors": ["gtpv2/conn.go: DecSequence, SendMessageTo"]}
{"id": "C31", "title": "Responses echo the request's sequence number", "statement": "Whatever the received request, the response sent for it carries that request's sequence number and goes to the given peer address, and sending a response does not consume a sequence number.", "quantifier": "every request, response and connection state", "why_tests_cant": "The input space is unbounded; a test fixes finitely many inputs.", "anchors": ["gtpv2/conn.go: RespondTo"]}
{"id": "C32", "title": "Allocated local TEIDs are unique and non-zero", "statement": "Whatever random values are drawn and however allocations interleave, a freshly allocated local TEID is never 0 and never one that is already in use on the connection; allocation terminates (possibly with failure).", "quantifier": "every random stream, every interleaving, every registry content", "why_tests_cant": "Randomness and interleavings.", "anchors": ["gtpv2/conn.go: NewSenderFTEID", "gtpv1/u-conn.go: NewFTEID"]}
{"id": "C33", "title": "Session registry behaves as a map", "statement": "After any sequence of register, remove, activate and deactivate operations, lookup by IMSI and by local TEID returns exactly the most recently registered, not removed session (the TEID lookup only for the right peer), and the session count equals the number of registered active subscribers. The subscriber of a TEID is the one of the session found by it.", "quantifier": "every sequence of registry operations", "why_tests_cant": "Unbounded histories.", "anchors": ["gtpv2/conn.go: RegisterSession, RemoveSession, RemoveSessionByIMSI, GetSessionByIMSI, GetSessionByTEID, SessionCount"]}
{"id": "C34", "title": "Incoming datagrams cannot crash the control-plane endpoint", "statement": "For every datagram from any peer and every registry state reachable through the API, processing returns (handler called, error logged, or reply sent) without panic.", "quantifier": "every datagram, every reachable connection state", "why_tests_cant": "Adversarial inputs crossed with histories.", "anchors": ["gtpv2/conn.go: Serve, handleMessage, validate", "gtpv2/handlers.go"]}
{"id": "C35", "title": "Messages for unknown TEIDs never reach the application", "statement": "With validation on, a message that is not version 2, or whose TEID is non-zero and does not belong to a session registered for the sending peer, is never passed to an application handler; every other message whose type has a handler is passed to exactly that handler, exactly once.", "quantifier": "every message, peer and connection state", "why_tests_cant": "The input space is unbounded; a test fixes finitely many inputs.", "anchors": ["gtpv2/conn.go: validate, handleMessage", "gtpv2/handlers.go"]}
{"id": "C36", "title": "Waiting for a message returns the matching one and loses none", "statement": "Messages passed to a session are handed to waiters in the order passed; a waiter for sequence number n gets a message with sequence number n; no passed message is lost or delivered twice.", "quantifier": "every interleaving of pass and wait", "why_tests_cant": "Schedules and queue contents.", "anchors": ["gtpv2/session.go: PassMessageTo, WaitMessage"]}
{"id": "C37", "title": "User-plane relay rewrites only the TEID", "statement": "A G-PDU received with a TEID that has a relay entry is sent to the peer of that entry, byte-identical except for the TEID octets, which carry the configured outgoing TEID; it is never delivered locally.", "quantifier": "every datagram, every relay table", "why_tests_cant": "The input space is unbounded; a test fixes finitely many inputs.", "anchors": ["gtpv1/u-conn.go: serve", "gtpv1/tunnel.go: RelayTo, CloseRelay, peer"]}
{"id": "C38", "title": "User-plane delivery is exact", "statement": "A G-PDU for a TEID without relay entry is, when error indication is enabled, answered with exactly one Error Indication carrying that TEID and the local address and not delivered; when it is disabled, it is offered to the local reader exactly once with unmodified payload, TEID and source address, and nothing is sent.", "quantifier": "every datagram, every connection state", "why_tests_cant": "The input space is unbounded; a test fixes finitely many inputs.", "anchors": ["gtpv1/u-conn.go", "gtpv1/handlers.go: handleTPDU", "gtpv1/message/error-indication.go"]}
{"id": "C39", "title": "Incoming datagrams cannot crash the user-plane endpoint", "statement": "For every datagram up to the receive buffer size and every relay table, processing returns without panic.", "quantifier": "every datagram, every connection state", "why_tests_cant": "Adversarial inputs.", "anchors": ["gtpv1/u-conn.go: serve, handleMessage", "gtpv1/handlers.go"]}
{"id": "C40", "title": "DSCP marking of one write never leaks into another", "statement": "However writers interleave, each datagram leaves with the DSCP/ECN value its writer asked for, and the socket option is restored afterwards unless the operating system refuses to.", "quantifier": "every number of writers, every interleaving", "why_tests_cant": "Schedules.", "anchors": ["gtpv1/u-conn.go: WriteToWithDSCPECN, WriteToGTP"]}
{"id": "C41", "title": "F-TEID IE exact round trip", "statement": "For every interface type below 64, TEID, and optional IPv4/IPv6 address, constructing the F-TEID IE and reading its accessors returns those values, also after serialise/parse; reading never panics.", "quantifier": "every value", "why_tests_cant": "The input space is unbounded; a test fixes finitely many inputs.", "anchors": ["gtpv2/ie/f-teid.go"]}
{"id": "C42", "title": "QoS IEs are exact", "statement": "Bearer QoS, Flow QoS and AMBR IEs return, for all field values in range (PCI, PL, PVI, QCI, 40-bit bit rates, 32-bit AMBR), exactly the values given.", "quantifier": "every value", "why_tests_cant": "2^160 combinations.", "anchors": ["gtpv2/ie/bearer-qos.go", "gtpv2/ie/flow-qos.go", "gtpv2/ie/ambr.go"]}
{"id": "C43", "title": "User Location Information round trip", "statement": "For every combination of present/absent CGI, SAI, RAI, TAI, ECGI, LAI, MENBI, EMENBI with values in range, serialising and parsing gives the same structure, with flags matching presence.", "quantifier": "every combination and all values", "why_tests_cant": "The input space is unbounded; a test fixes finitely many inputs.", "anchors": ["gtpv2/ie/uli.go"]}
{"id": "C44", "title": "Subscriber identity IEs return the digits given", "statement": "For every digit string accepted by the standard (IMSI up to 15 digits, MSISDN, MEI), the IE accessor returns the digits given to the constructor.", "quantifier": "every digit string", "why_tests_cant": "10^15 identities; parity of the number of digits matters.", "anchors": ["gtpv2/ie/imsi.go", "gtpv2/ie/msisdn.go", "gtpv2/ie/mei.go", "gtpv1/ie/imsi.go", "gtpv0/ie/imsi.go"]}
{"id": "C45", "title": "Indication flags are independent", "statement": "Each of the 72 indication flags given to a constructor is reported by its own accessor and by no other.", "quantifier": "all 2^72 flag vectors", "why_tests_cant": "2^72 vectors.", "anchors": ["gtpv2/ie/indication.go"]}
{"id": "C46", "title": "Traffic flow template round trip", "statement": "For every TFT (operation, packet filters with components, parameters) within format limits, serialising and parsing returns the same TFT.", "quantifier": "every TFT", "why_tests_cant": "The input space is unbounded; a test fixes finitely many inputs.", "anchors": ["gtpv2/ie/tft.go"]}
{"id": "C47", "title": "Protocol configuration options round trip", "statement": "For every list of protocol containers with payload below 256 octets, serialising and parsing returns the same options.", "quantifier": "every list", "why_tests_cant": "The input space is unbounded; a test fixes finitely many inputs.", "anchors": ["gtpv2/ie/pco.go", "gtpv2/ie/pco-ppp.go"]}
{"id": "C48", "title": "IE accessors never panic", "statement": "For every byte string received as IE payload, reading it through the typed accessors returns a value or an error.", "quantifier": "every byte string, every accessor", "why_tests_cant": "The input space is unbounded; a test fixes finitely many inputs.", "anchors": ["gtpv2/ie/*.go", "gtpv1/ie/*.go", "gtpv0/ie/*.go"]}
{"id": "C49", "title": "Editing a received grouped IE leaves its siblings alone", "statement": "Parsing a message and adding a child to one of its grouped IEs, or removing children from it, does not change the value of any other IE of the message.", "quantifier": "every message, every child", "why_tests_cant": "Depends on slice capacity and memory aliasing, not on values.", "anchors": ["gtpv2/ie/ie_grouped.go: Add", "gtpv2/ie/ie.go: UnmarshalBinary"]}
{"id": "C50", "title": "Structured IEs return what was given", "statement": "For the IEs with several fields or a computed encoding (PDN address, data forwarding, PLMN-carrying IEs, GUTI, trace reference, user CSG information, fully qualified CSID, timers, throttling, time zone, timestamp, RAN/NAS cause, paging) and every in-range value, the accessors return exactly the values given to the constructor, also after serialise/parse.", "quantifier": "every value in range", "why_tests_cant": "The input space is unbounded; a test fixes finitely many inputs.", "anchors": ["gtpv2/ie/paa.go", "gtpv2/ie/guti.go", "gtpv2/ie/epc-timer.go", "gtpv2/ie/ue-timezone.go", "gtpv2/ie/trace-reference.go", "gtpv2/ie/fq-csid.go", "gtpv2/ie/uci.go", "gtpv2/ie/throttling.go", "gtpv2/ie/ran-nas-cause.go"]}
{"id": "C51", "title": "A named field holds only IEs of the type it is named after", "statement": "For every message type of every protocol version, whether built with the constructor or parsed from any octets, every named field is empty or holds an IE of exactly the IE type the field is named after.", "quantifier": "every message type, every list of IEs, every byte string", "why_tests_cant": "1000 fields times 256 types times all inputs.", "anchors": ["gtpv2/message/*.go", "gtpv1/message/*.go", "gtpv0/message/*.go"]}
{"id": "C52", "title": "GTPv1 and GTPv0 messages do not lose IEs", "statement": "For each supported GTPv1 and GTPv0 message type and each list of well-formed IEs in which a type is repeated only if the message has several places for it, the serialised message contains exactly the IEs given to the constructor, in some order.", "quantifier": "every message type, every list of IEs", "why_tests_cant": "The input space is unbounded; a test fixes finitely many inputs.", "anchors": ["gtpv1/message/*.go: New*, MarshalTo", "gtpv0/message/*.go: New*, MarshalTo"]}
{"id": "C53", "title": "User-plane Echo Requests are answered", "statement": "With the default handler, every Echo Request datagram is answered with exactly one Echo Response to its sender, with the same sequence number and restart counter 0; nothing else happens, whatever the relay table.", "quantifier": "every Echo Request, every connection state", "why_tests_cant": "The input space is unbounded; a test fixes finitely many inputs.", "anchors": ["gtpv1/handlers.go: handleEchoRequest", "gtpv1/u-conn.go: RespondTo, serve"]}
{"id": "C54", "title": "Every named field can be filled", "statement": "For every message type and every named field of it there are IEs which, given to the constructor, fill that field.", "quantifier": "every message type, every named field", "why_tests_cant": "A field no IE ever reaches looks like an absent IE; each test only checks the fields it expects.", "anchors": ["gtpv2/message/*.go: New*", "gtpv1/message/*.go: New*", "gtpv0/message/*.go: New*"]}
{"id": "C55", "title": "Plain-value IEs return the value given", "statement": "For each IE that carries a single integer, string or name, and every value of it, the IE built by its constructor has the type number of the standard and a payload that is the value in network order, its accessor returns exactly the value given, also after serialise/parse, and the accessors of the other plain IEs reject it.", "quantifier": "every plain-value IE, every value", "why_tests_cant": "The input space is unbounded; a test fixes finitely many inputs.", "anchors": ["gtpv2/ie/*.go: New*, accessors"]}
{"id": "C56", "title": "Cause and flag IEs report the flags given", "statement": "The Cause IE, Bearer Flags, MBMS Flags and Node Features return, for every combination of values, exactly the cause value, offending IE and flags given, each flag through its own accessor.", "quantifier": "every cause value, every combination of flags, every offending IE", "why_tests_cant": "The input space is unbounded; a test fixes finitely many inputs.", "anchors": ["gtpv2/ie/cause.go", "gtpv2/ie/bearer-flags.go", "gtpv2/ie/mbms-flags.go", "gtpv2/ie/node-features.go"]}
{"id": "C57", "title": "Accessors on a Bearer Context read the child of the right type", "statement": "An accessor that accepts a Bearer Context returns, for every list of children, exactly what it returns for the first child of its type, and a not-found error when there is none.", "quantifier": "every list of children", "why_tests_cant": "The input space is unbounded; a test fixes finitely many inputs.", "anchors": ["gtpv2/ie/ebi.go", "gtpv2/ie/charging-id.go", "gtpv2/ie/cause.go", "gtpv2/ie/bearer-flags.go", "gtpv2/ie/ran-nas-cause.go"]}
{"id": "C58", "title": "Plain GTPv1 and GTPv0 IEs return the value given", "statement": "For each GTPv1 and GTPv0 IE that carries a single number, truth value, octet string or set of flags, and every value of it, the IE built by its constructor has the type number and payload of the standard and survives serialise/parse, its accessor returns exactly the value given, and each flag is reported by its own accessor.", "quantifier": "every such IE, every value", "why_tests_cant": "The input space is unbounded; a test fixes finitely many inputs.", "anchors": ["gtpv1/ie/*.go: New*, accessors", "gtpv0/ie/*.go: New*, accessors"]}
{"id": "C59", "title": "Structured GTPv1 and GTPv0 IEs return what was given", "statement": "For the GTPv1 and GTPv0 IEs with several fields or a computed encoding (APN, routeing area, user location, addresses, time zone, timestamp, authentication vectors, quality of service, protocol configuration options) and every value in range, the payload is the one of the standard and the accessors return exactly the values given to the constructor, also after serialise/parse.", "quantifier": "every value in range", "why_tests_cant": "The input space is unbounded; a test fixes finitely many inputs.", "anchors": ["gtpv1/ie/apn.go", "gtpv1/ie/rai.go", "gtpv1/ie/uli.go", "gtpv1/ie/end-user-address.go", "gtpv1/ie/ms-timezone.go", "gtpv1/ie/authentication-triplet.go", "gtpv1/ie/authentication-quintuplet.go", "gtpv1/ie/pco.go", "gtpv0/ie/apn.go", "gtpv0/ie/rai.go", "gtpv0/ie/qos-profile.go", "gtpv0/ie/end-user-address.go"]}
{"id": "C60", "title": "Bearer table of a session behaves as a map", "statement": "After a bearer is added under a name it is found under that name, by its EPS bearer identity when no other bearer has the same identity, and by either of its TEIDs; removing it by name or identity removes exactly it; the bearer count and the list of bearers agree with what was added and removed, and the count of a connection is the sum over its active sessions.", "quantifier": "every table content, every iteration order of the table", "why_tests_cant": "Iteration order of the table is random at run time.", "anchors": ["gtpv2/session.go: AddBearer, RemoveBearer, RemoveBearerByEBI, LookupBearerByName, LookupBearerByEBI, LookupEBIByTEID, Bearers, BearerCount", "gtpv2/conn.go: BearerCount"]}
{"id": "C61", "title": "A session created from information elements has the values of the elements", "statement": "For every list of information elements, ParseCreateSession returns without panic; it succeeds exactly when every element it uses is readable, and then subscriber, location, default bearer, QoS and TEIDs of the session are those of the last element of each kind, empty where there is none.", "quantifier": "every list of information elements, every connection", "why_tests_cant": "The input space is unbounded; a test fixes finitely many inputs.", "anchors": ["gtpv2/conn.go: ParseCreateSession"]}
{"id": "C62", "title": "A session created from information elements can be found, and only then", "statement": "After ParseCreateSession succeeds the session is found by its IMSI and by the TEID of each F-TEID for the connection's own interface, whatever the order of the elements; lookups of other subscribers and TEIDs, and other sessions, are unchanged; when it fails, no lookup changes.", "quantifier": "every list of information elements, every connection", "why_tests_cant": "The input space is unbounded; a test fixes finitely many inputs.", "anchors": ["gtpv2/conn.go: ParseCreateSession, RegisterSession, GetSessionByIMSI, GetSessionByTEID"]}
{"id": "C63", "title": "Request functions send exactly the request described", "statement": "CreateSession, DeleteSession, ModifyBearer, DeleteBearer and EchoRequest send exactly one datagram, to the peer, which parses to the request of that type with the TEID and elements given and the sequence number returned; when they return an error nothing was sent, no sequence number is used up and no session is left behind.", "quantifier": "every list of well-formed elements, every connection state", "why_tests_cant": "The input space is unbounded; a test fixes finitely many inputs.", "anchors": ["gtpv2/conn.go: CreateSession, DeleteSession, ModifyBearer, DeleteBearer, EchoRequest, SendMessageTo"]}
{"id": "C64", "title": "The relay forwards every T-PDU to its peer and nothing else", "statement": "A relay between two user-plane connections sends, for each T-PDU read from one of them whose TEID was added with AddPeer, exactly one T-PDU with the same payload, the outgoing TEID and to the address of that AddPeer call, in the order read, and sends nothing else; after Close it sends nothing more.", "quantifier": "every interleaving of the two goroutines, AddPeer, Close and arriving T-PDUs", "why_tests_cant": "Schedules and traffic.", "anchors": ["gtpv1/relay.go: Run, AddPeer, Close"]}
{"id": "C65", "title": "Dialling returns a connection only after an Echo Response", "statement": "Dial and DialUPlane send an Echo Request to the remote address and return a connection exactly when an Echo Response to it arrives from that address in time, and otherwise an error; they neither panic nor wait for ever, whatever arrives.", "quantifier": "every sequence of datagrams, failures and silence", "why_tests_cant": "The input space is unbounded; a test fixes finitely many inputs.", "anchors": ["gtpv2/conn.go: Dial", "gtpv1/u-conn.go: DialUPlane"]}
{"id": "C66", "title": "Close or the end of the context stops a connection", "statement": "After Close, or when the context of Serve ends, Serve returns nil, the socket is closed and no datagram is handled any more; before that Serve does not return unless a read fails, and then the error is returned and the socket closed. Close may be called at any time and any number of times.", "quantifier": "every interleaving of Serve, Close, cancellation and arriving datagrams", "why_tests_cant": "Schedules.", "anchors": ["gtpv2/conn.go: Serve, Close", "gtpv1/u-conn.go: serve, Close"]}
{"id": "C67", "title": "A buffer that is too small is refused", "statement": "For every information element, header and message of the three protocol versions and every destination buffer shorter than the announced length, serialising into it returns an error and does not panic.", "quantifier": "every element, header and message, every buffer that is too small", "why_tests_cant": "The input space is unbounded; a test fixes finitely many inputs.", "anchors": ["gtpv2/ie/ie.go: MarshalTo", "gtpv2/message/header.go: MarshalTo", "gtpv1/ie/ie.go: MarshalTo", "gtpv1/message/header.go: MarshalTo", "gtpv0/message/header.go: MarshalTo"]}
{"id": "C68", "title": "Octets after a GTPv2 message", "statement": "A datagram whose first message (with a correct Length) is followed by further octets is read and handled as the first message alone; if the first message has the P flag, the message that follows is handled as well.", "quantifier": "every message, every continuation", "why_tests_cant": "The input space is unbounded; a test fixes finitely many inputs.", "anchors": ["gtpv2/message/message.go: Parse", "gtpv2/message/header.go: UnmarshalBinary", "gtpv2/conn.go: Serve"]}
{"id": "C69", "title": "Kernel tunnels follow the calls", "statement": "With kernel GTP-U enabled, AddTunnel adds the tunnel described unless one with its subscriber address or incoming TEID exists; AddTunnelOverride replaces those; DelTunnelByITEI and DelTunnelByMSAddress delete exactly the tunnel named; in each case all other tunnels stay, whatever calls overlap, and a call that fails changes nothing. The incoming TEID of a tunnel that is gone may be given out again. Relay calls are refused. A failed EnableKernelGTP can be repeated, and the device goes with the connection.", "quantifier": "every set of tunnels, every failure of a kernel call, every interleaving of calls", "why_tests_cant": "Needs a kernel with the GTP module and root; failures of netlink calls cannot be arranged.", "anchors": ["gtpv1/tunnel_linux.go: EnableKernelGTP, AddTunnel, AddTunnelOverride, DelTunnelByITEI, DelTunnelByMSAddress", "gtpv1/tunnel.go: RelayTo, CloseRelay", "gtpv1/u-conn.go: serve"]}
{"id": "C70", "title": "Header setters set what they are given", "statement": "After a setter of a header (SetPiggybacking, SetTEID, SetSequenceNumber, SetMessagePriority of GTPv2; SetTEID, SetSequenceNumber, SetNPDUNumber, SetNextExtensionHeaderType of GTPv1) the accessor returns the value given, nothing else has changed, and the header is still serialised to octets that parse to it. TID of a GTPv0 message is the sixteen digits its octets stand for.", "quantifier": "every header that survives the wire, every value", "why_tests_cant": "Tests set a field on one fixed header and do not look at the other fields or parse the result.", "anchors": ["gtpv2/message/header.go: SetPiggybacking, SetTEID, SetSequenceNumber, SetMessagePriority", "gtpv1/message/header.go: SetTEID, SetSequenceNumber, SetNPDUNumber, SetNextExtensionHeaderType", "gtpv0/message/header.go: tid"]}
{"id": "C71", "title": "Concurrent calls do not deadlock", "statement": "However many goroutines call whatever functions of the library, including from handlers, as long as one of them has something to do other than wait for the network, a channel or a context, one of them can go on; a goroutine that waits for one of these holds up nobody else; and every call can come to an end once what it waits for comes.", "quantifier": "every number of goroutines, every sequence of calls in each, every interleaving", "why_tests_cant": "A deadlock needs one particular interleaving of particular calls.", "anchors": ["gtpv2/conn.go", "gtpv2/session.go", "gtpv2/logger.go", "gtpv2/ie/ie_grouped.go", "gtpv1/u-conn.go", "gtpv1/relay.go", "gtpv1/tunnel.go", "gtpv1/tunnel_linux.go", "gtpv1/logger.go"]}
{"id": "C72", "title": "Concurrent calls do not race", "statement": "No two goroutines calling functions of the library access the same variable at the same time when one of them writes it: the sequence number, the socket, the validation flag, the tables and flags of connections, the fields of sessions and bearers reached through methods, the loggers and the table and function of grouped types.", "quantifier": "every number of goroutines, every sequence of calls in each, every interleaving", "why_tests_cant": "The race detector sees only the schedules that happen.", "anchors": ["gtpv2/conn.go", "gtpv2/session.go", "gtpv2/bearer.go", "gtpv2/logger.go", "gtpv2/ie/ie_grouped.go", "gtpv1/u-conn.go", "gtpv1/relay.go", "gtpv1/tunnel.go", "gtpv1/tunnel_linux.go", "gtpv1/logger.go"]}
{"id": "C73", "title": "Constants and names are those of the standards", "statement": "Every exported constant for a message type, information element type, extension header type, cause or other code has the number the standards give it, and no two types of one protocol version share a number. Every message and every information element of any type names itself as the standards name that type; for types without a name, messages say Unknown with the number and information elements say Undefined.", "quantifier": "every constant, every message type and information element type", "why_tests_cant": "Tests use the same constant on both sides, so a wrong number is not noticed.", "anchors": ["gtpv0/constants.go", "gtpv1/constants.go", "gtpv2/constants.go", "gtpv0/ie/ie.go: Name", "gtpv1/ie/ie.go: Name", "gtpv2/ie/ie.go: Name", "gtpv0/message/message.go", "gtpv1/message/message.go", "gtpv1/message/extension-header.go", "gtpv2/message/message.go", "gtpv2/ie/bearer-tft.go", "gtpv2/ie/tft.go", "gtpv2/ie/pco.go", "gtpv2/ie/pco-ppp.go"]}
{"id": "C74", "title": "Datagrams do not interfere", "statement": "Every datagram a serving connection reads is handled exactly once, with its own sender and exactly its own octets, in the order of arrival, whatever arrives or is handled at the same time and whatever handlers write into messages they keep.", "quantifier": "every sequence of datagrams, every interleaving of the read loop, the goroutines and writes into messages", "why_tests_cant": "Depends on the schedule and on shared memory.", "anchors": ["gtpv2/conn.go: Serve", "gtpv1/u-conn.go: serve"]}
{"id": "C75", "title": "Special constructors build what their name says", "statement": "Every constructor of a Bearer Context for one message builds a Bearer Context of exactly the elements given, in the order of the parameters with the F-TEIDs last and nil ones left out; every constructor of a traffic flow template or traffic aggregate description for one operation builds the template with that operation and the filters, identifiers and parameters given. Reading the element, also after sending it, returns them.", "quantifier": "every argument, nil or not, every number of F-TEIDs, packet filters and parameters that fits", "why_tests_cant": "The input space is unbounded; a test fixes finitely many inputs.", "anchors": ["gtpv2/ie/bearer-context.go", "gtpv2/ie/bearer-tft.go", "gtpv2/ie/tad.go"]}
{"id": "C76", "title": "Accessors refuse elements that do not carry the value", "statement": "An accessor of an information element, called on an element of a type that does not carry the value asked for, returns an error; an accessor that only answers with a truth value answers false. Called on a Bearer Context, an accessor that looks inside returns an error unless there is a child carrying the value.", "quantifier": "every accessor of the three versions, every element: all 256 types, every payload and instance", "why_tests_cant": "The input space is unbounded; a test fixes finitely many inputs.", "anchors": ["gtpv2/ie/*.go", "gtpv1/ie/*.go", "gtpv0/ie/*.go"]}
{"id": "C77", "title": "Assigning a field of a message changes what is sent in that field only", "statement": "A program may assign the exported fields of a message it has built or received, set header values of it (GTPv2: TEID, sequence number, piggybacking flag, priority), serialise it, assign again and so on. If every element is in the field meant for its type, then the receiver of the serialised message finds exactly the present fields, of the same message type, with the header values; in particular, replacing an element by one of its type and instance, adding one to a list, or setting a field to nil changes nothing else in what is received.", "quantifier": "every message type of the three versions, every finite history of building, receiving, assigning and serialising, every content that fits", "why_tests_cant": "The input space is unbounded; a test fixes finitely many inputs.", "anchors": ["gtpv2/message/*.go", "gtpv1/message/*.go", "gtpv0/message/*.go"]}
{"id": "C78", "title": "An accessor needs exactly the octets of its value", "statement": "On a received element of the type that carries it, the accessor of a value of fixed size, or of a structure that announces its size (tunnel endpoint, allocated address, location, data forwarding, authentication vector), returns an error if the payload ends before the value does, and otherwise a value; octets after the end of the value do not change it. An accessor answering yes or no answers no on an empty payload.", "quantifier": "every payload of every length, every accessor listed in the theorems, every type it accepts", "why_tests_cant": "A test of an accessor uses a payload of the right size; the boundary has to be checked at each length, for every flag combination and announced length, together with all trailing octets.", "anchors": ["gtpv2/ie/*.go", "gtpv1/ie/*.go", "gtpv0/ie/*.go"]}
{"id": "C79", "title": "A field structure serialises into any buffer with room", "statement": "For every structure behind a composed element (tunnel endpoint, allocated address, location, QoS, AMBR, GUTI, trace reference, CSG information, FQ-CSID, data forwarding, throttling, paging, RAN/NAS cause, traffic flow template and its parts, protocol configuration options and their parts) and every buffer of the caller: if the buffer has at least the announced length, MarshalTo puts exactly the octets Marshal returns at its start, whatever the buffer held before, and leaves the rest alone; otherwise it returns an error and does not panic.", "quantifier": "every structure, every buffer of every length and content", "why_tests_cant": "The input space is unbounded; a test fixes finitely many inputs.", "anchors": ["gtpv2/ie/f-teid.go: MarshalTo", "gtpv2/ie/uli.go: MarshalTo", "gtpv2/ie/bearer-qos.go: MarshalTo", "gtpv2/ie/tft.go: MarshalTo", "gtpv2/ie/pco.go: MarshalTo", "gtpv2/ie/pco-ppp.go: MarshalTo", "gtpv2/ie/fq-csid.go: MarshalTo", "gtpv2/ie/s103pdf.go: MarshalTo"]}
{"id": "C80", "title": "A message shows the Length it will be sent with", "statement": "For GTPv0, GTPv1 and GTPv2: a message fresh from its constructor, or after SetLength on it whatever fields were assigned before, shows a Length that is the Length in the serialised octets, says how many octets follow the part of the header that Length does not count (20, 8 and 4 octets), and is still the same after serialising.", "quantifier": "every message type incl. Generic, every list of IEs, every header, every assignment of the fields, while the length fits 16 bits", "why_tests_cant": "The input space is unbounded; a test fixes finitely many inputs.", "anchors": ["gtpv2/message/create-session-req.go: SetLength", "gtpv2/message/generic.go: SetLength", "gtpv1/message/create-pdp-context-req.go: SetLength", "gtpv0/message/create-pdp-context-req.go: SetLength"]}
{"id": "C81", "title": "Elements can be added to a Generic message at any time", "statement": "For the three versions: AddIE on a Generic message gives the message the constructor would have given with the further elements after the former ones. A message received of a type without a struct of its own, with elements added, is sent on with its former elements followed by the added ones, the same header values and a Length that is right before and after serialising. A GTPv2 Generic message built without TEID is serialised and read back as that type, sequence number and elements, without TEID.", "quantifier": "every message type, every received message, every list of elements that fits", "why_tests_cant": "The input space is unbounded; a test fixes finitely many inputs.", "anchors": ["gtpv2/message/generic.go: AddIE, NewGenericWithoutTEID", "gtpv1/message/generic.go: AddIE", "gtpv0/message/generic.go: AddIE"]}
{"id": "C82", "title": "A connection can be listened on and served again", "statement": "Listen (GTPv2) and ListenAndServe (GTPv1) may be called any number of times and from any goroutine. A call that the operating system grants receives from an open socket of its own until its context ends, Close is called or the read fails; a call that is refused returns an error, leaves the connection as it was and no socket behind, and can be repeated. A connection without a socket answers every use with an error. Nothing of this panics.", "quantifier": "every interleaving of any number of calls of Listen, Serve, ListenAndServe and Close, cancelled contexts, arriving datagrams, failing reads and answers of the operating system", "why_tests_cant": "Schedules of several calls and operating system errors.", "anchors": ["gtpv2/conn.go: NewConn, ListenAndServe, Listen, Serve, Close, LocalAddr, WriteTo, ReadFrom", "gtpv1/u-conn.go: newPktConn, NewUPlaneConn, ListenAndServe, serve, Close"]}
{"id": "C83", "title": "A requester is given the answer to its own request", "statement": "After SendMessageTo has returned a sequence number, the message that WaitMessage returns for that number is what some node that received this very request gave to RespondTo, whatever other requests are under way and however the network loses, delays, repeats and reorders datagrams; and if such an answer arrives while the requester waits, WaitMessage returns it.", "quantifier": "every interleaving of any number of requesters, answering nodes and waiters over every network that only hands over datagrams that were written", "why_tests_cant": "Needs reordering networks, duplicated answers and 2^23 requests; a leftover message shows only in the next exchange.", "anchors": ["gtpv2/conn.go: SendMessageTo, IncSequence, DecSequence, RespondTo", "gtpv2/session.go: PassMessageTo, WaitMessage"]}
{"id": "C84", "title": "User data crosses any number of relays unchanged", "statement": "In a network of user-plane connections with relays set up by RelayTo, what ReadFromGTP is offered anywhere is the payload that somebody sent, whole, and the tunnels lead from the address and TEID it was sent to, to the connection and TEID it comes out at; nothing is altered, mixed up or made up. A payload given to WriteToGTP comes out at the end of its tunnels if no datagram on the way is lost.", "quantifier": "every network of connections and addresses, every sequence of API calls, sends and arrivals in which datagrams are lost, repeated and reordered at will; any number of relays in a row", "why_tests_cant": "Needs whole networks and all their interleavings; tests know one relay.", "anchors": ["gtpv1/u-conn.go: serve, WriteToGTP, ReadFromGTP", "gtpv1/tunnel.go: RelayTo, CloseRelay", "gtpv1/handlers.go: handleTPDU"]}
{"id": "C85", "title": "An address given as text is the address that is sent and comes back as text", "statement": "For GTPv0, GTPv1 and GTPv2: a constructor that takes an address as text accepts exactly dotted-decimal IPv4 and the IPv6 forms of RFC 4291; the element it makes carries the address the text stands for, across the wire and with any instance, and the accessors that return text return the same address: the very text for dotted decimal, and the recommended form of RFC 5952 for IPv6. A text that is no address gives no element, or one that the accessors refuse; nothing panics.", "quantifier": "every string, every address, every constructor and accessor with an address as text", "why_tests_cant": "Tests use a handful of well-formed addresses; the forms of IPv6 text, the shortening of zeros and the malformed strings are unbounded, and a wrong one silently becomes another address.", "anchors": ["gtpv2/ie/ip-addr.go: NewIPAddress, IPAddress", "gtpv2/ie/f-teid.go: NewFullyQualifiedTEID", "gtpv2/ie/paa.go: NewPDNAddressAllocation, NewPDNAddressAllocationIPv6, NewPDNAddressAllocationDual", "gtpv2/ie/s103pdf.go: NewS103PDNDataForwardingInfo, HSGWAddress", "gtpv2/ie/s1udf.go: NewS1UDataForwarding, SGWAddress", "gtpv2/ie/fq-csid.go: NewFullyQualifiedCSID", "gtpv1/ie/gsn-address.go: NewGSNAddress, GSNAddress", "gtpv1/ie/end-user-address.go: NewEndUserAddress, NewEndUserAddressIPv4, NewEndUserAddressIPv6", "gtpv0/ie/gsn-address.go: NewGSNAddress", "gtpv0/ie/charging-gateway-address.go: NewChargingGatewayAddress", "gtpv0/ie/end-user-address.go: NewEndUserAddress, IPAddress"]}
{"id": "C86", "title": "Socket addresses are compared and reported as addresses", "statement": "GetSessionByTEID takes a sender for the peer of a session exactly if both have the same IP address, port and zone, however the addresses are kept in memory (4 or 16 octets); no two different senders are confused. The GSN Address in an Error Indication is the IP address the connection listens on.", "quantifier": "every pair of UDP addresses, every local address", "why_tests_cant": "The comparison is one of printed texts; that no two addresses print alike is a statement over all pairs.", "anchors": ["gtpv2/conn.go: GetSessionByTEID", "gtpv2/session.go: NewSession, UpdatePeerAddr", "gtpv1/u-conn.go: ErrorIndication"]}
{"id": "C87", "title": "The cost of parsing is bounded by the size of the input", "statement": "Whatever octets are handed to the parsers, accepted or not, the work is bounded in advance by their number n: GTPv2 makes at most one element for every four octets begun, GTPv0 and GTPv1 at most one per octet, extension headers at most one per four octets and one more; payloads are not copied. The calls of MarshalLen made on the way and the depth of the recursion are linear in n as well, so a small datagram cannot keep a node busy. Serialising an element costs time linear in the number of elements in it.", "quantifier": "every byte string, every set of grouped types, every element tree", "why_tests_cant": "Worst cases are particular nestings of elements; a test measures some inputs, not the worst.", "anchors": ["gtpv2/ie/ie.go: Parse, UnmarshalBinary, ParseMultiIEs, MarshalLen, MarshalTo", "gtpv1/ie/ie.go: ParseMultiIEs", "gtpv0/ie/ie.go: ParseMultiIEs", "gtpv1/message/extension-header.go: ParseMultiExtensionHeaders", "gtpv2/conn.go: Serve"]}
{"id": "C88", "title": "A Create Session exchange carries everything to the other side and back", "statement": "The elements given to CreateSession on one node are what the Create Session Request handler of the other node is called with, once, each in the field of the message meant for it, with the sequence number CreateSession returned; made from a subscriber's data with the constructors, the accessors there return that data. What that handler gives to RespondTo, for the TEID in the request, is what the first node's Create Session Response handler is called with, once, with the same sequence number, and the session found by the TEID is the one CreateSession returned.", "quantifier": "every pair of connections in any state, every list of elements, all subscriber data, every answer, whatever else the requester does in between", "why_tests_cant": "Tests compare fixed messages on one side; the composition of constructors, session table, serialiser, parser, validation and dispatch on two nodes is not run for all inputs.", "anchors": ["gtpv2/conn.go: CreateSession, ParseCreateSession, SendMessageTo, Serve, handleMessage, RespondTo, GetSessionByTEID", "gtpv2/message/create-session-req.go", "gtpv2/message/create-session-res.go"]}
{"id": "C89", "title": "Serialising writes nowhere but in the buffer it is given", "statement": "MarshalTo of an element, a header or a message changes only the octets of the slice it is given, whether it succeeds, fails or panics, and behaves the same whatever lies behind that slice in the same array: in particular a slice that is too short for the result is not accepted because its capacity would be sufficient.", "quantifier": "every element, header and message of the three versions, every slice of every array, every content of the array", "why_tests_cant": "Tests give MarshalTo a buffer made for it, whose capacity is its length; what happens to the memory behind a shorter slice is never looked at.", "anchors": ["gtpv2/message/header.go: MarshalTo", "gtpv2/ie/ie.go: MarshalTo", "gtpv1/message/header.go: MarshalTo", "gtpv1/message/extension-header.go: MarshalTo", "gtpv1/ie/ie.go: MarshalTo", "gtpv0/message/header.go: MarshalTo", "gtpv0/ie/ie.go: MarshalTo"]}
{"id": "C90", "title": "The order of elements of different types does not matter", "statement": "Two messages made from, or parsed from datagrams with, the same elements in a different order, those of each type in the same order among themselves, have the same fields. If also the elements without a field of their own are in the same order, AdditionalIEs are the same and so are the octets the messages are serialised to.", "quantifier": "every message type of the three versions, every two such lists of elements, every header", "why_tests_cant": "The input space is unbounded; a test fixes finitely many inputs.", "anchors": ["gtpv2/message/*.go: New*, UnmarshalBinary", "gtpv1/message/*.go: New*, UnmarshalBinary", "gtpv0/message/*.go: New*, UnmarshalBinary"]}
{"id": "C91", "title": "Which of several elements of one type counts", "statement": "If an element that a message may hold once is there several times, the first one counts and the others are ignored. Fields that hold a list keep all elements meant for them, in their order. Where a message has several places for elements of one type, such as the addresses for signalling and for user traffic, they are filled in the order of the elements.", "quantifier": "every message type of the three versions, every list of elements, constructor and parser", "why_tests_cant": "The input space is unbounded; a test fixes finitely many inputs.", "anchors": ["gtpv2/message/*.go: New*, UnmarshalBinary", "gtpv1/message/*.go: New*, UnmarshalBinary", "gtpv0/message/*.go: New*, UnmarshalBinary"]}
{"id": "C92", "title": "A message that arrives cut short is refused", "statement": "If only the first octets of a message or T-PDU arrive, fewer than its Length field says, the parser returns an error, and the endpoint does nothing: it calls no handler, delivers nothing, and forwards nothing.", "quantifier": "every message and T-PDU of the three versions whose Length is right, every place to cut", "why_tests_cant": "A test cuts a few messages at a few places, mostly inside an element, where any parser stumbles; the cuts that go unnoticed are those between elements.", "anchors": ["gtpv2/message/header.go: UnmarshalBinary", "gtpv1/message/header.go: UnmarshalBinary", "gtpv0/message/header.go: UnmarshalBinary", "gtpv1/u-conn.go: serve", "gtpv2/conn.go: Serve, handleMessage"]}
{"id": "C93", "title": "Decoding into a value used before gives what decoding into a fresh one gives", "statement": "UnmarshalBinary called on a header, an element, an extension header or a message that already holds something, for instance the message decoded before, returns the same error or leaves the same value as on a fresh one: nothing of the former content is left over, and it has no influence on what is accepted.", "quantifier": "every former value and every byte string, the three versions", "why_tests_cant": "A test decodes into fresh values; what is left over depends on the pair of the old and the new content.", "anchors": ["gtpv2/message/header.go: UnmarshalBinary", "gtpv2/ie/ie.go: UnmarshalBinary", "gtpv1/message/header.go: UnmarshalBinary", "gtpv1/message/extension-header.go: UnmarshalBinary", "gtpv1/ie/ie.go: UnmarshalBinary", "gtpv0/message/header.go: UnmarshalBinary", "gtpv0/ie/ie.go: UnmarshalBinary", "gtpv2/message/*.go: UnmarshalBinary", "gtpv1/message/*.go: UnmarshalBinary", "gtpv0/message/*.go: UnmarshalBinary"]}
{"id": "C94", "title": "Requests and answers of any type reach the other side, for as long as the session lives", "statement": "A message of any type given to SendMessageTo is what the other node's handler for that type is called with, once, if its TEID is 0 or leads to a session with the sender there; what that handler gives to RespondTo, of any type, reaches the first node's handler likewise, with the sequence number SendMessageTo returned. Otherwise no handler is called and nothing is answered. So the exchanges of a session, from CreateSession to DeleteSession and its answer, all reach the handlers, and once both nodes have called RemoveSession nothing sent to the TEIDs of the session, by whomever, is handled or answered.", "quantifier": "every message type, every list of elements, every pair of connections in any state, every sender", "why_tests_cant": "Tests run one exchange of one type; that nothing gets through after the removal is a statement over all senders and messages.", "anchors": ["gtpv2/conn.go: SendMessageTo, RespondTo, Serve, handleMessage, validate, GetSessionByTEID, CreateSession, DeleteSession, RegisterSession, RemoveSession", "gtpv2/message/*.go"]}
{"id": "C95", "title": "Automatic answers tell the sender what it needs, and are not answered", "statement": "An endpoint answers Echo Requests and, unless told otherwise, payload for an unknown tunnel by itself. The answer is one datagram of at most 36 octets, to the sender; there the handler for its type is called, once, with the sequence number of the Echo Request and the restart counter (0 on the user plane) or, for a payload, the TEID in question and the address of the answering node. Whoever receives an automatic answer, in whatever state, sends nothing because of it and does not crash, so no datagram can make endpoints keep each other busy. Apart from such answers and relayed payload an endpoint sends nothing of its own accord. What a handler gives to RespondTo reaches the handler for its type at the other side likewise.", "quantifier": "every datagram, every state of the two endpoints, user plane and control plane", "why_tests_cant": "Tests look at one endpoint and one datagram; an exchange that does not end needs two endpoints and the right first datagram.", "anchors": ["gtpv1/handlers.go", "gtpv1/u-conn.go: serve, handleMessage, EchoRequest, EchoResponse, ErrorIndication, RespondTo, WriteToGTP", "gtpv2/handlers.go", "gtpv2/conn.go: Serve, handleMessage, EchoRequest, RespondTo"]}
{"id": "C96", "title": "Decoding a composed element into a structure used before gives what decoding into a fresh one gives", "statement": "UnmarshalBinary called on the structure behind a composed element (F-TEID, PAA, ULI, TFT, PCO, FQ-CSID, AMBR, Bearer QoS, ...) that already holds something returns the same error or leaves the same structure as on a fresh one, so that serialising the structure gives the octets of what was decoded and nothing of what was there before.", "quantifier": "every former structure and every byte string", "why_tests_cant": "A test decodes into fresh structures; what is left over, and whether it is sent, depends on the pair of the old and the new content.", "anchors": ["gtpv2/ie/f-teid.go: UnmarshalBinary", "gtpv2/ie/paa.go: UnmarshalBinary", "gtpv2/ie/uli.go: UnmarshalBinary", "gtpv2/ie/tft.go: UnmarshalBinary", "gtpv2/ie/pco.go: UnmarshalBinary", "gtpv2/ie/pco-ppp.go: UnmarshalBinary", "gtpv2/ie/fq-csid.go: UnmarshalBinary", "gtpv2/ie/ambr.go, bearer-qos.go, flow-qos.go, s103pdf.go, s1udf.go, trace-reference.go, uci.go, guti.go, ran-nas-cause.go, throttling.go, paging-and-service-information.go: UnmarshalBinary", "gtpv1/ie/pco.go: UnmarshalBinary"]}
{"id": "C97", "title": "Decoding a composed element and serialising it again gives back the octets decoded", "statement": "If the payload of a composed element (F-TEID, PAA, ULI, TFT, PCO, FQ-CSID, AMBR, Bearer QoS, GUTI, a PLMN, ...) can be decoded into its structure, then serialising that structure gives the octets that were decoded, with spare bits cleared and without the octets behind what the element announces, so that a node that passes an element on changes nothing in it.", "quantifier": "every byte string the decoder accepts", "why_tests_cant": "Tests decode the output of the encoder, so octets the encoder never makes (spare bits, hexadecimal digits in a PLMN, trailing octets, empty lists) are not tried; the lists inside can have any length.", "anchors": ["utils/utils.go: EncodePLMN, DecodePLMN", "gtpv2/ie/f-teid.go, paa.go, uli.go, tft.go, pco.go, pco-ppp.go, fq-csid.go: MarshalTo, UnmarshalBinary", "gtpv2/ie/ambr.go, bearer-qos.go, flow-qos.go, s103pdf.go, s1udf.go, trace-reference.go, uci.go, guti.go, ran-nas-cause.go, throttling.go, paging-and-service-information.go: MarshalTo, UnmarshalBinary", "gtpv1/ie/pco.go: MarshalTo, UnmarshalBinary"]}
{"id": "C98", "title": "The example P-GW sets up, keeps and removes the sessions it is asked for", "statement": "The P-GW in examples/gw-tester, built on the library, answers a complete Create Session Request with one message to the sender: Request Accepted, the address asked for, the TEIDs and addresses of the P-GW, the TEID and sequence number of the request. The S-GW can then use the TEID it was given until it asks for the deletion, which is answered likewise and after which nothing sent to that TEID is handled. A subscriber has one session; a new one replaces the old one, other sessions are not touched. An incomplete request or one from a stranger changes nothing. No datagram crashes the P-GW.", "quantifier": "every sequence of datagrams from any senders, every content of the request, every address of the P-GW", "why_tests_cant": "Needs a peer, sockets and every incomplete request; what a stranger can remove and which order of two requests leaves two sessions does not show in a run that works.", "anchors": ["examples/gw-tester/pgw/handlers.go: handleCreateSessionRequest, handleDeleteSessionRequest", "examples/gw-tester/pgw/pgw.go: run", "gtpv2/conn.go: Serve, handleMessage, RespondTo, NewSenderFTEID, RegisterSession, RemoveSession, RemoveSessionByIMSI, GetSessionByIMSI, GetSessionByTEID", "gtpv2/session.go: AddTEID, GetTEID, Activate"]}
{"id": "C99", "title": "An attach through the example S-GW and P-GW gives the MME and both gateways the same session", "statement": "The S-GW in examples/gw-tester sends a complete Create Session Request of the MME on to the P-GW named in it, with the elements of the MME and its own TEIDs and addresses, and answers nothing yet. The P-GW's answer makes it answer the MME: one message to the TEID the MME gave, with the sequence number of its request, Request Accepted, the address asked for, and the TEIDs and addresses of both gateways. Then both gateways have an active session with the values of the request, each with the TEIDs the other one drew, and the S-GW knows where the P-GW takes user data.", "quantifier": "every request, every state of both gateways that any events can lead to, every TEID drawn", "why_tests_cant": "Needs three peers and sockets; that the sessions of two programs agree in all values and TEIDs for every request and after every history is not visible in a run.", "anchors": ["examples/gw-tester/sgw/s11_handlers.go: handleCreateSessionRequest", "examples/gw-tester/sgw/s5_handlers.go: handleCreateSessionResponse", "examples/gw-tester/sgw/sgw.go: run", "examples/gw-tester/pgw/handlers.go: handleCreateSessionRequest", "gtpv2/conn.go: CreateSession, SendMessageTo, RespondTo, RegisterSession", "gtpv2/session.go: WaitMessage, PassMessageTo, AddTEID, Activate", "gtpv2/ie/ie.go: Add, Remove"]}
{"id": "C100", "title": "After an attach the example S-GW relays user data both ways, a detach leaves nothing of the subscriber, and a silent P-GW is reported", "statement": "After an attach, the MME's Modify Bearer Request is answered with Request Accepted and the S-GW's TEID and address for user data; from then on user data that comes for this TEID leaves for the P-GW's TEID and address, and user data for the TEID the P-GW was given leaves for the eNodeB's. A Delete Session Request goes on to the P-GW, whose answer reaches the MME with the TEID and the sequence number it expects, and then none of the S-GW's two sessions and the P-GW's session is found by TEID or IMSI, and nothing sent to their TEIDs is handled. If the P-GW does not answer an attach, or refuses it, the MME's request is answered with a failure cause (No resources available), and the session on S11 is gone.", "quantifier": "every state of both gateways that any events can lead to, every request, every user data packet, every TEID drawn", "why_tests_cant": "Needs an eNodeB, an MME and two gateways with sockets; that nothing is left in any table for any history is not visible in a run, and time-outs take seconds.", "anchors": ["examples/gw-tester/sgw/s11_handlers.go: handleModifyBearerRequest, handleDeleteSessionRequest, handleCreateSessionRequest, handleFTEIDU", "examples/gw-tester/sgw/s5_handlers.go: handleCreateSessionResponse, handleDeleteSessionResponse", "examples/gw-tester/pgw/handlers.go: handleDeleteSessionRequest", "gtpv1/tunnel.go: RelayTo", "gtpv1/u-conn.go: serve", "gtpv2/conn.go: DeleteSession, RespondTo, RemoveSession", "gtpv2/session.go: WaitMessage, PassMessageTo"]}
{"id": "C101", "title": "A constructor makes an element of the type it is named after, with instance 0", "statement": "Whatever arguments it is given, every constructor of a GTPv2 information element returns an element that goes out with the type number TS 29.274 gives that element and with instance 0 and no spare bits, unless it returns nil or panics.", "quantifier": "every constructor of a GTPv2 element and all its arguments", "why_tests_cant": "A receiver files an element by type and instance; a wrong instance is invisible to the accessors, so tests that read back the value do not notice it.", "anchors": ["gtpv2/ie: all NewXxx functions that return an element", "gtpv2/ie/ie.go: New, NewUint8IE, NewUint16IE, NewUint32IE, NewStringIE, NewFQDNIE", "gtpv2/ie/ie_grouped.go: NewGroupedIE"]}
{"id": "C102", "title": "The example MME answers every attach call once and asks the S-GW for what the call says", "statement": "The MME in examples/gw-tester, built on the library, turns a complete attach call of an eNB into one Create Session Request to the S-GW of its configuration, with the subscriber's numbers and address from the call, the network, access point name and P-GW of the configuration and a TEID of its own, by which the session is found from then on; the call waits. In any order of calls, datagrams and time-outs a call has been answered once or still waits, never both. If the S-GW is silent or refuses, the call fails, and after a refusal nothing of the session is left. Calls of different eNBs do not disturb one another, and no call and no datagram crashes the MME.", "quantifier": "every call, every sequence of calls, datagrams from any senders, woken and expired goroutines, every TEID drawn", "why_tests_cant": "Needs an eNB, an S-GW and sockets; that two calls at the same time take each other's answers and addresses depends on their interleaving, and time-outs take seconds.", "anchors": ["examples/gw-tester/mme/mme.go: Attach, CreateSession, ModifyBearer, run", "examples/gw-tester/mme/handlers.go: handleCreateSessionResponse, handleModifyBearerResponse", "gtpv2/conn.go: CreateSession, ModifyBearer, Serve, handleMessage, RemoveSession, GetSessionByTEID, NewSenderFTEID", "gtpv2/session.go: AddTEID, GetTEID, Activate", "gtpv2/ie/uli.go: NewUserLocationInformationStruct"]}
{"id": "C103", "title": "An attach through the example MME, S-GW and P-GW connects the eNB with the P-GW", "statement": "When an eNB calls the MME in examples/gw-tester with complete values, and the S-GW and the P-GW in examples/gw-tester are at the addresses the MME has for them, the messages the three exchange end with a successful answer to the call, which has the S-GW's address and TEID for user data. From then on user data sent there leaves for the P-GW's address and TEID, user data the P-GW sends to the S-GW leaves for the eNB's address and TEID of the call, all three hold an active session of this subscriber with each other's TEIDs, and nobody waits.", "quantifier": "every call, every state of the three that any events can lead to, every TEID drawn", "why_tests_cant": "Needs four programs and sockets; that their tables agree for every call and after every history is not visible in a run.", "anchors": ["examples/gw-tester/mme/mme.go: Attach, CreateSession, ModifyBearer", "examples/gw-tester/mme/handlers.go: handleCreateSessionResponse, handleModifyBearerResponse", "examples/gw-tester/sgw/s11_handlers.go: handleCreateSessionRequest, handleModifyBearerRequest", "examples/gw-tester/sgw/s5_handlers.go: handleCreateSessionResponse", "examples/gw-tester/pgw/handlers.go: handleCreateSessionRequest", "gtpv1/tunnel.go: RelayTo", "gtpv2/conn.go: Serve, CreateSession, ModifyBearer, RespondTo"]}
{"id": "C104", "title": "The P-GW deletes a bearer through the example S-GW, and always gets an answer", "statement": "When the P-GW sends the S-GW in examples/gw-tester a Delete Bearer Request for the bearer of an attached subscriber, the S-GW sends one to the MME with the MME's TEID and the same bearer, and the MME's answer reaches the P-GW with all its elements and the TEID and sequence number the P-GW expects. After it the bearer is gone and the session still works, in particular it can be deleted. If the MME does not answer, the P-GW is told No resources available; a request for a bearer that does not exist gets Context not found, one without a bearer Mandatory IE missing, and both change nothing.", "quantifier": "every request, every answer of the MME, every state of the S-GW that any events can lead to and in which the subscriber is attached", "why_tests_cant": "Needs an MME and a P-GW that sends this request, which the P-GW of the examples never does; what a later detach does with the session is not visible in one exchange.", "anchors": ["examples/gw-tester/sgw/s5_handlers.go: handleDeleteBearerRequest", "examples/gw-tester/sgw/s11_handlers.go: handleDeleteBearerResponse, handleDeleteSessionRequest", "examples/gw-tester/mme/mme.go: run", "gtpv2/session.go: LookupBearerByEBI, RemoveBearerByEBI, GetDefaultBearer, WaitMessage, PassMessageTo", "gtpv2/conn.go: DeleteBearer, RespondTo"]}
{"id": "C105", "title": "An accessor named Must never panics: it returns the value, or the zero value", "statement": "On every element, whatever its type and content, each accessor whose name begins with Must returns: the value the accessor of the same name without Must returns, if that one returns no error, and otherwise the zero value of the result; in particular it returns the zero value on an element of another type.", "quantifier": "every accessor named Must of the three versions and every element, as received or as made", "why_tests_cant": "The name says the opposite, and a handler that calls it on what a peer sent relies on it; a crash needs the one payload for which the accessor is wrong.", "anchors": ["gtpv2/ie: all functions MustXxx", "gtpv1/ie: all functions MustXxx", "gtpv0/ie: all functions MustXxx"]}
{"id": "C106", "title": "With kernel tunnels, an attach at the example P-GW makes the kernel pass exactly the packets of the subscriber", "statement": "When the P-GW in examples/gw-tester uses kernel tunnels, a complete Create Session Request is answered as without them, and if no kernel call fails, packets to the subscriber's address are sent to the S-GW's address and TEID for user data in the request, and packets that come with the TEID in the answer are accepted if they come from the subscriber's address and only then. No datagram, whoever sends it, changes where the packets of a subscriber go, but a complete Create Session Request for the same address; and no datagram crashes the P-GW, whatever kernel calls fail.", "quantifier": "every sequence of datagrams with any octets, any kernel calls failing, every TEID drawn, every address", "why_tests_cant": "Needs root, the kernel module and an S-GW; which tunnels a history of attaches, detaches and failures leaves behind is not visible in a run.", "anchors": ["examples/gw-tester/pgw/handlers.go: handleCreateSessionRequest, handleDeleteSessionRequest", "examples/gw-tester/pgw/pgw.go: setupUPlane, run", "gtpv1/tunnel_linux.go: EnableKernelGTP, AddTunnelOverride", "gtpv1/u-conn.go: NewFTEID"]}
{"id": "C107", "title": "An element that is nil counts as left out", "statement": "Constructors of elements return nil for values they cannot represent. Wherever elements are taken - by the constructors of messages and grouped elements, by Add, by CreateSession and ParseCreateSession, and from the fields of a message when it is serialised or its size asked for - nil ones change nothing: the result is that for the other elements alone.", "quantifier": "every message type of the three versions, every list of elements with nil anywhere in it, every content of the fields", "why_tests_cant": "A nil turns up only for arguments that cannot be represented; whether one of the hundreds of loops looks for it shows as a crash with that one argument.", "anchors": ["gtpv2/message, gtpv1/message, gtpv0/message: NewXxx, MarshalTo, MarshalLen, SetLength of every message", "gtpv2/message/generic.go: NewGeneric, AddIE, SetLength", "gtpv2/ie/ie_grouped.go: NewGroupedIE, Add", "gtpv2/conn.go: ParseCreateSession, CreateSession"]}
{"id": "C108", "title": "Declaring an element type as grouped only adds structure", "statement": "After AddGroupedIEType the grouped types are those of the library and those given; SetIsGroupedFun decides alone. Whatever is readable after a declaration was readable before, with the same type, length, instance and payload of every element and the same message fields; new are only the children of the declared types, and what is read is written back with the same octets. Octets readable before are refused after the declaration exactly if an element of a declared type, at any depth, does not hold a sequence of elements. Elements without declared types are read alike. An element of any type that was built with its value is sent with that value.", "quantifier": "every set of declarations, every octets, every element at any depth, every message", "why_tests_cant": "The result depends on a process-wide variable, and the failing combination - a declared type whose peers put something else into it, or an element built before or after the declaration - is not in the captured packets the tests use.", "anchors": ["gtpv2/ie/ie_grouped.go: SetIsGroupedFun, AddGroupedIEType, IsGrouped", "gtpv2/ie/ie.go: New, MarshalTo, MarshalLen, UnmarshalBinary, ParseMultiIEs", "gtpv2/message/message.go: Parse"]}
{"id": "C109", "title": "A message that was read keeps its value when the buffer is used again", "statement": "After Parse has returned a message, elements and header of it are what they were when read, whatever the program then does with the buffer it gave to Parse, such as reading the next datagram into it.", "quantifier": "every message and T-PDU of the three versions, every later content of the buffer", "why_tests_cant": "Tests parse from a buffer made for the purpose and never write to it again; whether a value is a copy or a slice of the buffer is not seen in a comparison.", "anchors": ["gtpv2/ie/ie.go: UnmarshalBinary, ParseMultiIEs", "gtpv2/message/header.go: UnmarshalBinary", "gtpv1/message/header.go: UnmarshalBinary", "gtpv1/message/extension-header.go: UnmarshalBinary", "gtpv1/ie/ie.go: UnmarshalBinary", "gtpv0/message/header.go: UnmarshalBinary", "gtpv0/ie/ie.go: UnmarshalBinary"]}
{"id": "C110", "title": "With kernel tunnels, a packet of a subscriber goes from the eNodeB through S-GW and P-GW and back once the MME has been answered", "statement": "The S-GW of the example program, with the kernel doing GTP-U: after an attach and a Modify Bearer Request the kernels of S-GW and P-GW forward the packets of the subscriber, and of no other, between the TEID and address of the eNodeB and the network behind the P-GW; an answer to the MME means that the tunnels are there; other messages leave the kernel alone.", "quantifier": "every order of datagrams from anyone on both sides, every kernel call failing or not, all addresses and TEIDs", "why_tests_cant": "Needs root, two network namespaces and the GTP kernel module; the example programs have no tests.", "anchors": ["examples/gw-tester/sgw/s11_handlers.go: handleModifyBearerRequest", "examples/gw-tester/sgw/s11_handlers.go: handleCreateSessionRequest", "examples/gw-tester/sgw/s5_handlers.go: handleCreateSessionResponse", "examples/gw-tester/sgw/sgw.go: addRoutes", "examples/gw-tester/sgw/sgw.go: close", "gtpv1/tunnel_linux.go: AddTunnelOverride"]}
{"id": "C111", "title": "An element keeps its value when the program changes the slice it was built from", "statement": "An element built by one of the constructors that take octets or a net.IP is that of the octets at the time of the call, whatever the program writes into the slice afterwards, such as the next address to hand out.", "quantifier": "every element type with such a constructor in the three versions, every slice of every array, every later content of the arrays of the program", "why_tests_cant": "Tests build elements from literals, which are never written to; that a constructor keeps the slice is not seen in the element.", "anchors": ["gtpv2/ie/ie.go: New", "gtpv2/ie/ip-addr.go: NewIPAddressNetIP", "gtpv2/ie/f-teid.go: NewFullyQualifiedTEIDNetIP", "gtpv2/ie/paa.go: NewPDNAddressAllocationNetIP", "gtpv1/ie/gsn-address.go: NewGSNAddressByIP", "gtpv1/ie/qos-profile.go: NewQoSProfile", "gtpv1/ie/end-user-address.go: NewEndUserAddressByIP", "gtpv1/ie/ie.go: New", "gtpv0/ie/ie.go: New"]}
{"id": "C112", "title": "What an accessor has returned and the element do not depend on each other", "statement": "A []byte or net.IP returned by an accessor belongs to the caller: writing to it, such as counting up an address, does not change the element, and it stays what it was when the element changes, such as by the next datagram in the same buffer.", "quantifier": "every accessor of the three versions that returns a []byte or a net.IP, every element, every octets written", "why_tests_cant": "Tests compare what an accessor returns and drop it; that it is a part of the element is seen only if one of the two is written to.", "anchors": ["gtpv2/ie/ip-addr.go: IP", "gtpv2/ie/fq-csid.go: NodeID", "gtpv2/ie/private-extension.go: PrivateExtension", "gtpv2/ie/indication.go: Indication", "gtpv1/ie/ip.go: IP", "gtpv1/ie/authentication-triplet.go: RAND, SRES, Kc", "gtpv1/ie/authentication-quintuplet.go: XRES, CK, IK, AUTN", "gtpv1/ie/private-extension.go: PrivateExtension, ExtensionValue", "gtpv0/ie/qos-profile.go: QualityOfServiceProfile"]}
