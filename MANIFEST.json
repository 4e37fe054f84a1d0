{
 "claims": [
  {
   "property": "C01",
   "status": "proved",
   "theorems": [
    "Verif.Utils.C01_octets",
    "Verif.Utils.C01_even",
    "Verif.Utils.C01_odd",
    "Verif.Utils.C01_unpack_returns"
   ],
   "note": ""
  },
  {
   "property": "C02",
   "status": "proved",
   "theorems": [
    "Verif.Utils.C02_plmn_octets",
    "Verif.Utils.C02_plmn_round_trip",
    "Verif.Utils.C02_plmn_injective",
    "Verif.Utils.C02_plmn_panics_iff"
   ],
   "note": "outside the claim: exact condition under which other digit strings panic"
  },
  {
   "property": "C03",
   "status": "proved",
   "theorems": [
    "Verif.Utils.C03_uint24",
    "Verif.Utils.C03_uint24_bytes",
    "Verif.Utils.C03_uint40",
    "Verif.Utils.C03_uint40_bytes",
    "Verif.Utils.C03_eci"
   ],
   "note": ""
  },
  {
   "property": "C04",
   "status": "proved",
   "theorems": [
    "Verif.Utils.C04_fqdn_round_trip",
    "Verif.Utils.C04_labels",
    "Verif.Utils.C04_fqdn_decode_returns"
   ],
   "note": ""
  },
  {
   "property": "C05",
   "status": "proved",
   "theorems": [
    "Verif.V2.C05_ie_round_trip",
    "Verif.V2.C05_ies_round_trip",
    "Verif.V2.C05_new_wf"
   ],
   "note": "arbitrary grouped predicate, arbitrary depth"
  },
  {
   "property": "C06",
   "status": "proved",
   "theorems": [
    "Verif.V2.C06_parse_total_lossless",
    "Verif.V2.C06_accepts_iff",
    "Verif.V2.C06_parse_prefix"
   ],
   "note": ""
  },
  {
   "property": "C07",
   "status": "proved",
   "theorems": [
    "Verif.V2.C07_marshalTo_exact",
    "Verif.V2.C07_marshalLen_exact",
    "Verif.V2.C07_short_refused",
    "Verif.V2.C07_grouped_short_wrong"
   ],
   "note": "outside the claim: a buffer that is too small is refused, except that grouped elements are cut (proved)"
  },
  {
   "property": "C08",
   "status": "proved",
   "theorems": [
    "Verif.V2.C08_edit_history",
    "Verif.V2.C08_edit_wf",
    "Verif.V2.C08_find",
    "Verif.V2.C08_remove_gone",
    "Verif.V2.C08_not_grouped"
   ],
   "note": ""
  },
  {
   "property": "C09",
   "status": "proved",
   "theorems": [
    "Verif.V2.C09_header_round_trip",
    "Verif.V2.C09_new_header",
    "Verif.V2.C09_short_header_rejected"
   ],
   "note": "for messages of 12..65535 octets; below 12 octets see C18"
  },
  {
   "property": "C10",
   "status": "proved",
   "theorems": [
    "Verif.V2.C10_parse_total_faithful",
    "Verif.V2.C10_accepts",
    "Verif.V2.C10_accessors",
    "Verif.V2.C10_flags"
   ],
   "note": ""
  },
  {
   "property": "C100",
   "status": "partial",
   "theorems": [
    "Verif.V2.Sgw.C100_modify_partial",
    "Verif.V2.Sgw.C100_detach_partial",
    "Verif.V2.Sgw.C100_life_partial",
    "Verif.V2.Sgw.C100_timeout_partial",
    "Verif.V2.Sgw.C100_refused_partial",
    "Verif.V2.Sgw.C100_modify_wrong",
    "Verif.V2.Sgw.C100_intruder_wrong",
    "Verif.V2.Sgw.C100_delete_wrong"
   ],
   "note": "with the limits of C99, user data relayed by the program itself and not by the kernel, an eNodeB on IPv4 whose F-TEID has an interface type other than 1, 10 and 11, both sockets for user data open, and an empty queue of the session before the detach. Departures, proved as they are: the EBI in the answer to Modify Bearer is 0; after a time-out the session on S5 stays; the cause of a refusal never reaches the MME; Modify Bearer crashes the S-GW if the P-GW gave no F-TEID for user data; a stranger ends the S11 session of a subscriber with an incomplete request; a detach without a session on S5 is not answered"
  },
  {
   "property": "C101",
   "status": "proved",
   "theorems": [
    "Verif.V2.C101_plain",
    "Verif.V2.C101_identity",
    "Verif.V2.C101_addresses",
    "Verif.V2.C101_bearers",
    "Verif.V2.C101_uses",
    "Verif.V2.C101_others"
   ],
   "note": "every modelled constructor; the type numbers of the standard are from memory (C73)"
  },
  {
   "property": "C102",
   "status": "partial",
   "theorems": [
    "Verif.V2.Mme.C102_answers",
    "Verif.V2.Mme.C102_once",
    "Verif.V2.Mme.C102_attach_partial",
    "Verif.V2.Mme.C102_no_address",
    "Verif.V2.Mme.C102_timeout",
    "Verif.V2.Mme.C102_refused",
    "Verif.V2.Mme.C102_location_wrong",
    "Verif.V2.Mme.C102_nowhere_wrong",
    "Verif.V2.Mme.C102_token_wrong",
    "Verif.V2.Mme.C102_crash_wrong",
    "Verif.V2.Mme.C102_enb_wrong",
    "Verif.V2.Mme.C102_two_wrong",
    "Verif.V2.Mme.C102_stuck_wrong"
   ],
   "note": "answers: for every history until a crash. The request: for IPv4 addresses, an IMSI with an odd number of digits, an access point name of at most 100 octets, element types filed as grouped as the library does at the start and a successful write. The goroutine of a call is cut where it waits; the data races on the shared fields of the MME are not modelled. Departures proved: tracking area and cell of the call are ignored; a call without a location, and a Create Session Response with TEID 0 from anyone, crash the MME; an answer wakes whichever call waits, so that one answer can make two calls fail; all calls share one place for the address of the eNB, so that the S-GW is told the TEID of one eNB with the address of another; after a time-out the session stays, and the goroutine of a failed call can go on and never end"
  },
  {
   "property": "C103",
   "status": "partial",
   "theorems": [
    "Verif.V2.Mme.C103_attach_partial"
   ],
   "note": "with the limits of C99, C100 and C102: IPv4, an IMSI with an odd number of digits, nothing is lost, and the events of this attach follow one another; each of the three starts from any state that any of its own events can lead to"
  },
  {
   "property": "C104",
   "status": "partial",
   "theorems": [
    "Verif.V2.Sgw.C104_delete_partial",
    "Verif.V2.Sgw.C104_timeout_partial",
    "Verif.V2.Sgw.C104_unknown",
    "Verif.V2.Sgw.C104_malformed",
    "Verif.V2.Sgw.C104_crash_wrong",
    "Verif.V2.Sgw.C104_mme_wrong"
   ],
   "note": "with the limits of C99; requests and answers of at most 1496 octets, and no older message in the queue of the session. Departures proved: of several bearers in a request only the first is passed on; the bearer stays in the S11 session, and user data is relayed as before; after a time-out the bearer is deleted although the P-GW is told of a failure; once the bearer is deleted, the Delete Session Request of the MME crashes the S-GW, for every such request and state; the MME of the example ignores the request, so that with it every exchange times out"
  },
  {
   "property": "C105",
   "status": "partial",
   "theorems": [
    "Verif.V2.C105_addr",
    "Verif.V2.C105_identity",
    "Verif.V2.C105_qos",
    "Verif.V2.C105_plain",
    "Verif.V2.C105_tables",
    "Verif.TLV.C105_v1",
    "Verif.TLV.C105_v0",
    "Verif.TLV.C105_v1_tables",
    "Verif.TLV.C105_xres",
    "Verif.TLV.C105_autn_partial"
   ],
   "note": "all 158 of them but MustAUTN of GTPv1, which panics on exactly the quintuplets of 50 octets (proved). On a nil element all of them panic. That every accessor returns the zero value together with an error was checked in the text of the functions"
  },
  {
   "property": "C106",
   "status": "partial",
   "theorems": [
    "Verif.V2.Pgw.C106_safe",
    "Verif.V2.Pgw.C106_attach_partial",
    "Verif.V2.Pgw.C106_undisturbed",
    "Verif.V2.Pgw.C106_detach_wrong",
    "Verif.V2.Pgw.C106_unset_wrong",
    "Verif.V2.Pgw.C106_taken_wrong"
   ],
   "note": "for a P-GW on IPv4 addresses and IPv4 subscribers, datagrams handled one after the other, successful writes, free TEIDs drawn, and with the limits of C98; the kernel is assumed as in Model/Tunnel.lean and Model/PgwKernel.lean. Departures proved: a detach leaves tunnel, route, rule and TEID behind; the request is accepted before the tunnel is made, and if that fails nobody is told; a request of another subscriber for the same address takes its packets over while the first session stays active; a subscriber who attaches again makes the handler return an error. Not modelled: what the P-GW removes when it stops"
  },
  {
   "property": "C107",
   "status": "partial",
   "theorems": [
    "Verif.Msg.C107_fields",
    "Verif.V2.C107_new",
    "Verif.V2.C107_grouped",
    "Verif.V2.C107_session",
    "Verif.V2.C107_sent_partial",
    "Verif.V2.C107_sent_wrong",
    "Verif.V2.C107_generic_wrong",
    "Verif.V1.C107_new",
    "Verif.V1.C107_sent",
    "Verif.V0.C107_new",
    "Verif.V0.C107_sent"
   ],
   "note": "GTPv1, GTPv0, all constructors of messages and grouped elements, Add and CreateSession: no exception. GTPv2 fields: every field for one element and AdditionalIEs but in Echo Request and Create Session Response. Departures proved: nil in any other list field (BearerContexts and so on), or in AdditionalIEs of those two, makes MarshalLen, Marshal and MarshalTo panic, whatever else the message holds; NewGeneric and AddIE of GTPv2 panic on nil. Not treated: nil in ChildIEs of an element, nil filters or containers in structures"
  },
  {
   "property": "C108",
   "status": "partial",
   "theorems": [
    "Verif.V2.Declare.C108_before",
    "Verif.V2.Declare.C108_add",
    "Verif.V2.Declare.C108_set",
    "Verif.V2.Declare.C108_grows",
    "Verif.V2.C108_read",
    "Verif.V2.C108_reads",
    "Verif.V2.C108_read_iff",
    "Verif.V2.C108_reads_iff",
    "Verif.V2.C108_others",
    "Verif.V2.C108_written",
    "Verif.V2.C108_message",
    "Verif.V2.C108_built_wrong"
   ],
   "note": "The last sentence fails, proved: an element built with data (New and the constructors that use it) whose type is grouped, by the library or by a declaration, is written as four octets that announce the data, and every receiver refuses them. Calls are one after the other; SetIsGroupedFun(nil) is not treated"
  },
  {
   "property": "C109",
   "status": "partial",
   "theorems": [
    "Verif.V2.C109_now",
    "Verif.V2.C109_iff",
    "Verif.V2.C109_numbers",
    "Verif.V2.C109_element",
    "Verif.V2.C109_reused_wrong",
    "Verif.V1.C109_now",
    "Verif.V1.C109_iff",
    "Verif.V1.C109_numbers",
    "Verif.V0.C109_now",
    "Verif.V0.C109_iff",
    "Verif.TLV.C109_element"
   ],
   "note": "Holds for the numbers (flags, types, lengths, TEID, sequence numbers, instances) and for where each element is filed. Departure, with its exact extent: payloads of headers, elements and extension headers are parts of the buffer, so the message is what it was exactly if the buffer still holds these octets. The connections of the library copy each datagram before they parse it (C74), so handlers are not concerned"
  },
  {
   "property": "C11",
   "status": "proved",
   "theorems": [
    "Verif.V2.C11_parse_total"
   ],
   "note": ""
  },
  {
   "property": "C110",
   "status": "partial",
   "theorems": [
    "Verif.V2.Sgw.C110_address_s11",
    "Verif.V2.Sgw.C110_address_s5",
    "Verif.V2.Sgw.C110_address_wake",
    "Verif.V2.Sgw.C110_address_expire",
    "Verif.V2.Sgw.C110_undisturbed",
    "Verif.V2.Sgw.C110_attach_partial",
    "Verif.V2.Sgw.C110_modify_partial",
    "Verif.V2.Sgw.C110_answer_partial",
    "Verif.V2.Sgw.C110_through_partial",
    "Verif.V2.Sgw.C110_fails_wrong",
    "Verif.V2.Sgw.C110_detach_wrong",
    "Verif.V2.Sgw.C110_close_wrong"
   ],
   "note": "IPv4, nothing lost, one datagram after the other, as C99, C100 and C106; the kernel is assumed (Model/Tunnel.lean, PgwKernel.lean, SgwKernel.lean). Departures: the MME is not told when a tunnel cannot be made, and the other one stays (C110_fails_wrong); a detach leaves both tunnels, which forward on (C110_detach_wrong); close never removes the second route and always has an error, since addRoutes notes the first one twice (C110_close_wrong)"
  },
  {
   "property": "C111",
   "status": "partial",
   "theorems": [
    "Verif.V2.C111_now",
    "Verif.V2.C111_copied_partial",
    "Verif.V2.C111_kept_iff",
    "Verif.V2.C111_new_wrong",
    "Verif.V2.C111_address_wrong",
    "Verif.V2.C111_wrong",
    "Verif.V2.C111_group_partial",
    "Verif.V2.C111_group_iff",
    "Verif.V2.C111_group_wrong",
    "Verif.V2.C111_nested",
    "Verif.TLV.C111_now",
    "Verif.TLV.C111_copied_partial",
    "Verif.TLV.C111_kept_wrong",
    "Verif.TLV.C111_wrong",
    "Verif.TLV.C111_nested"
   ],
   "note": "Holds for the constructors that make a payload and copy (F-TEID, PDN address allocation, S1-U and S103 forwarding, RAN/NAS cause, private extension, indication, PCO, TFT, end user address, triplet, quintuplet). Departures: New of all versions, NewIPAddressNetIP, NewGSNAddressByIP, NewQoSProfile and NewExtensionHeaderTypeList keep the slice, and the element follows it; a grouped element keeps its payload, but its children follow their slices, and with them what is sent. Groups in groups are not covered"
  },
  {
   "property": "C112",
   "status": "partial",
   "theorems": [
    "Verif.V2.C112_value",
    "Verif.V2.C112_now",
    "Verif.V2.C112_partial",
    "Verif.V2.C112_written",
    "Verif.V2.C112_written_wrong",
    "Verif.V2.C112_follows_wrong",
    "Verif.V2.C112_wrong",
    "Verif.V2.C112_ipv6_value",
    "Verif.V2.C112_ipv6_written",
    "Verif.V2.C112_ipv6_partial",
    "Verif.TLV.C112_value",
    "Verif.TLV.C112_now",
    "Verif.TLV.C112_partial",
    "Verif.TLV.C112_written",
    "Verif.TLV.C112_written_wrong",
    "Verif.TLV.C112_follows_wrong",
    "Verif.TLV.C112_wrong"
   ],
   "note": "Departure: all these accessors return a part of the payload itself, but IPv6 for an address of four octets, which is copied. Proved: the caller gets the right octets; what it writes there is in the element, exactly there, and everything else stays; what it keeps is the part of the element as it is when looked at"
  },
  {
   "property": "C12",
   "status": "proved",
   "theorems": [
    "Verif.V2.C12_dispatch_faithful",
    "Verif.V2.C12_version_not_supported_wrong"
   ],
   "note": "outside the claim: Version Not Supported Indications are built with a TEID"
  },
  {
   "property": "C13",
   "status": "partial",
   "theorems": [
    "Verif.V2.C13_round_trip_partial",
    "Verif.V2.C13_round_trip_contextResponse_partial",
    "Verif.V2.C13_round_trip_createBearerResponse_partial",
    "Verif.V2.C13_round_trip_createSessionRequest_partial",
    "Verif.V2.C13_generic_round_trip",
    "Verif.V2.C13_createSessionRequest_overwrites",
    "Verif.V2.C13_contextResponse_loses",
    "Verif.V2.C13_createBearerResponse_loses",
    "Verif.V2.C13_createSessionRequest_iff",
    "Verif.V2.C13_createSessionRequest_lost",
    "Verif.V2.C13_createSessionRequest_zeros",
    "Verif.V2.C13_contextResponse_iff",
    "Verif.V2.C13_createBearerResponse_iff"
   ],
   "note": "41 of 44 message types for every IE list; for the other three exactly which IE lists round trip (an equivalence each, the _iff theorems). Throughout: well-formed IEs, fewer than 65536 octets, and at least 12 (only empty Echo messages have fewer, C18)"
  },
  {
   "property": "C14",
   "status": "partial",
   "theorems": [
    "Verif.V2.C14_same_filing_partial",
    "Verif.V2.C14_observed_partial",
    "Verif.V2.C14_disagreements"
   ],
   "note": "41 of 44 message types; the code disagrees with the property in the other three (proved)"
  },
  {
   "property": "C15",
   "status": "partial",
   "theorems": [
    "Verif.V2.C15_no_ie_lost_partial",
    "Verif.V2.C15_ignored",
    "Verif.V2.C15_loses",
    "Verif.V2.C15_keeps"
   ],
   "note": "all but Context Response, for IEs the constructor does not ignore; the complete list of ignored IEs is proved"
  },
  {
   "property": "C16",
   "status": "partial",
   "theorems": [
    "Verif.V2.C16_exact_size_partial",
    "Verif.V2.C16_createSessionRequest_exact",
    "Verif.V2.C16_createSessionRequest_wrong"
   ],
   "note": "all 44 message types; for Create Session Request with both a private extension and additional IEs size and Length are right but the body is not the IEs: what it is, is proved for all of them (C16_createSessionRequest_exact)"
  },
  {
   "property": "C17",
   "status": "partial",
   "theorems": [
    "Verif.V2.C17_serialise_twice",
    "Verif.V2.C17_forward_partial",
    "Verif.V2.C17_forwarding_breaks"
   ],
   "note": "same exception as C16"
  },
  {
   "property": "C18",
   "status": "partial",
   "theorems": [
    "Verif.V2.C18_accepted_partial",
    "Verif.V2.C18_echo",
    "Verif.V2.C18_empty_echo_rejected",
    "Verif.V2.C18_unparseable",
    "Verif.V2.C18_newGeneric_nil"
   ],
   "note": "the code rejects its own empty Echo messages (proved)"
  },
  {
   "property": "C19",
   "status": "proved",
   "theorems": [
    "Verif.TLV.C19_round_trip",
    "Verif.TLV.C19_new",
    "Verif.TLV.C19_wrong_size",
    "Verif.TLV.C19_unknown_type",
    "Verif.TLV.C19_no_value",
    "Verif.TLV.C19_teid_data_ii_wrong"
   ],
   "note": "both protocol versions, with the sizes of the library; fixed-size types unknown to the library lose their value, and TEID Data II has another size in TS 29.060 (proved)"
  },
  {
   "property": "C20",
   "status": "proved",
   "theorems": [
    "Verif.TLV.C20_total",
    "Verif.TLV.C20_lossless",
    "Verif.TLV.C20_accepts_iff",
    "Verif.TLV.C20_accepts_one_iff"
   ],
   "note": ""
  },
  {
   "property": "C21",
   "status": "proved",
   "theorems": [
    "Verif.V1.C21_round_trip",
    "Verif.V1.C21_setLength",
    "Verif.V1.C21_ext_round_trip",
    "Verif.V1.C21_add",
    "Verif.V1.C21_flags",
    "Verif.V1.C21_ext_too_large",
    "Verif.V1.C21_add_twice",
    "Verif.V1.C21_empty_chain"
   ],
   "note": "contents of extension headers come back padded to the four-octet boundary; the last three theorems are departures outside the hypotheses: contents above 1018 octets, two calls of AddExtensionHeaders, E flag with an empty chain"
  },
  {
   "property": "C22",
   "status": "partial",
   "theorems": [
    "Verif.V1.C22_header_partial",
    "Verif.V1.C22_message_partial",
    "Verif.V1.C22_header_faithful",
    "Verif.V1.C22_header_wf",
    "Verif.V1.C22_header_cases",
    "Verif.V1.C22_header_panics",
    "Verif.V1.C22_message_panics",
    "Verif.V1.C22_comprehension"
   ],
   "note": "proved for every input below 64 KiB; for longer ones it panics only with a Length of 65528 or more, and does so whenever E, S and PN are clear (both proved)"
  },
  {
   "property": "C23",
   "status": "partial",
   "theorems": [
    "Verif.V1.C23_round_trip_partial",
    "Verif.V1.C23_generic",
    "Verif.V1.C23_sehn_loses_seq"
   ],
   "note": "all 12 types and generic messages; End Marker and Supported Extension Headers Notification only with sequence number 0 (the library builds them without the S flag, loss proved)"
  },
  {
   "property": "C24",
   "status": "partial",
   "theorems": [
    "Verif.V1.C24_serialise_twice_partial",
    "Verif.V1.C24_tpdu_twice",
    "Verif.V1.C24_forward_partial",
    "Verif.V1.C24_second_fails",
    "Verif.V1.C24_forward_fails",
    "Verif.V1.C24_forward_panics",
    "Verif.V1.C24_stale_types",
    "Verif.V0.C24_v0_twice_partial",
    "Verif.V0.C24_v0_second_fails"
   ],
   "note": "holds for Echo, End Marker, T-PDU and generic messages; for the nine other types the code returns an error or panics (proved)"
  },
  {
   "property": "C25",
   "status": "partial",
   "theorems": [
    "Verif.V1.C25_partial",
    "Verif.V1.C25_seq_partial",
    "Verif.V1.C25_ext",
    "Verif.V1.C25_large_panics"
   ],
   "note": "payloads up to 65527 octets (65523 with sequence number); 65528..65535 octets panic (proved)"
  },
  {
   "property": "C26",
   "status": "partial",
   "theorems": [
    "Verif.V0.C26_partial",
    "Verif.V0.C26_new",
    "Verif.V0.C26_sndcp_lost",
    "Verif.V0.C26_large_panics",
    "Verif.V0.C26_faithful",
    "Verif.V0.C26_flags"
   ],
   "note": "the SNDCP N-PDU number is lost, payloads of 65516..65535 octets panic (both proved)"
  },
  {
   "property": "C27",
   "status": "partial",
   "theorems": [
    "Verif.V0.C27_round_trip",
    "Verif.V0.C27_generic",
    "Verif.V0.C27_tpdu_partial",
    "Verif.V0.C27_total_partial",
    "Verif.V0.C27_large_panics",
    "Verif.V0.C27_decapsulate_faithful",
    "Verif.V0.C27_decapsulate_partial",
    "Verif.V0.C27_decapsulate_total_partial"
   ],
   "note": "round trip for all 8 types, generic messages and T-PDU; no panic below 64 KiB, panic above (proved)"
  },
  {
   "property": "C28",
   "status": "proved",
   "theorems": [
    "Verif.Gtp.C28_dispatch",
    "Verif.Gtp.C28_short",
    "Verif.Gtp.C28_total",
    "Verif.Gtp.C28_own_v0",
    "Verif.Gtp.C28_own_v1",
    "Verif.Gtp.C28_own_v2"
   ],
   "note": ""
  },
  {
   "property": "C29",
   "status": "proved",
   "theorems": [
    "Verif.V2.Send.C29_distinct",
    "Verif.V2.Send.C29_wire",
    "Verif.V2.Send.C29_datagrams_distinct"
   ],
   "note": ""
  },
  {
   "property": "C30",
   "status": "partial",
   "theorems": [
    "Verif.V2.Send.C30_sequential_partial",
    "Verif.V2.Send.C30_collision"
   ],
   "note": "holds when calls do not overlap; overlapping calls collide after a failed send (proved)"
  },
  {
   "property": "C31",
   "status": "proved",
   "theorems": [
    "Verif.V2.Send.C31_respond",
    "Verif.V2.Send.C31_octets",
    "Verif.V2.Send.C31_only_sequence",
    "Verif.V2.Conn.C31_echo"
   ],
   "note": ""
  },
  {
   "property": "C32",
   "status": "proved",
   "theorems": [
    "Verif.Alloc.C32_unique",
    "Verif.Alloc.C32_no_double",
    "Verif.Alloc.C32_stays_taken",
    "Verif.Alloc.C32_terminates"
   ],
   "note": "gtpv2 NewSenderFTEID and gtpv1 NewFTEID"
  },
  {
   "property": "C33",
   "status": "partial",
   "theorems": [
    "Verif.V2.Conn.C33_registry_partial",
    "Verif.V2.Conn.C33_imsi_history",
    "Verif.V2.Conn.C33_teid_sound",
    "Verif.V2.Conn.C33_count",
    "Verif.V2.Conn.C33_remove_other_by_imsi",
    "Verif.V2.Conn.C33_old_teid_remains",
    "Verif.V2.Conn.C33_remove_other_by_teid",
    "Verif.V2.Conn.C33_imsi_change",
    "Verif.V2.Conn.C33_remove_panics",
    "Verif.V2.Conn.C33_subscriber"
   ],
   "note": "holds while a session is removed from where it was registered; the four ways in which RemoveSession hits another or leaves an old entry are proved"
  },
  {
   "property": "C34",
   "status": "partial",
   "theorems": [
    "Verif.V2.Conn.C34_panics_iff",
    "Verif.V2.Conn.C34_no_crash_partial",
    "Verif.V2.Conn.C34_reserved_crashes"
   ],
   "note": "the exact condition of a panic is proved: a message for a TEID reserved by NewSenderFTEID and not yet registered"
  },
  {
   "property": "C35",
   "status": "partial",
   "theorems": [
    "Verif.V2.Conn.C35_reaches_partial",
    "Verif.V2.Conn.C35_registered",
    "Verif.V2.Conn.C35_version_ignored"
   ],
   "note": "everything but the version check, which the code never performs (proved)"
  },
  {
   "property": "C36",
   "status": "partial",
   "theorems": [
    "Verif.V2.Queue.C36_accounting",
    "Verif.V2.Queue.C36_match",
    "Verif.V2.Queue.C36_order",
    "Verif.V2.Queue.C36_no_loss_partial",
    "Verif.V2.Queue.C36_capacity",
    "Verif.V2.Queue.C36_loses"
   ],
   "note": "order, match and no double delivery hold always; a waiter asking for another number than that of the first message in the queue loses the message for everybody (proved)"
  },
  {
   "property": "C37",
   "status": "partial",
   "theorems": [
    "Verif.V1.UConn.C37_table",
    "Verif.V1.UConn.C37_relay_partial",
    "Verif.V1.UConn.C37_others",
    "Verif.V1.UConn.C37_short_dropped",
    "Verif.V1.UConn.C37_long_truncated"
   ],
   "note": "G-PDUs of 11 to 1500 octets; shorter ones are dropped, longer ones truncated (both proved)"
  },
  {
   "property": "C38",
   "status": "partial",
   "theorems": [
    "Verif.V1.UConn.C38_indication_partial",
    "Verif.V1.UConn.C38_delivery_partial",
    "Verif.V1.UConn.C38_end_to_end",
    "Verif.V1.UConn.C38_switch",
    "Verif.V1.UConn.C38_calls_partial",
    "Verif.V1.UConn.C37_short_dropped",
    "Verif.V1.URead.C38_exactly_once",
    "Verif.V1.URead.C38_read"
   ],
   "note": "all but G-PDUs of 8 to 10 octets while a relay entry exists, which are dropped (proved)"
  },
  {
   "property": "C39",
   "status": "partial",
   "theorems": [
    "Verif.V1.UConn.C39_panics_iff",
    "Verif.V1.UConn.C39_no_crash_partial",
    "Verif.V1.UConn.C39_error_indication_crashes",
    "Verif.V1.UConn.C39_tiny_crashes"
   ],
   "note": "the exact condition of a panic is proved: Error Indication without its IEs, a datagram below two octets while relaying, a relay entry to a connection that is not open"
  },
  {
   "property": "C40",
   "status": "proved",
   "theorems": [
    "Verif.V1.Dscp.C40_own_value",
    "Verif.V1.Dscp.C40_restored",
    "Verif.V1.Dscp.C40_once",
    "Verif.V1.Dscp.C40_restore_silent_wrong"
   ],
   "note": "the value is restored unless the system call that restores it fails; then no error is reported (proved)"
  },
  {
   "property": "C41",
   "status": "partial",
   "theorems": [
    "Verif.V2.C41_fteid_partial",
    "Verif.V2.C41_gre_wrong",
    "Verif.V2.C48_addr"
   ],
   "note": "interface types below 64, every TEID, every choice of addresses; before and after the wire; only GREKey of an element without any address is refused (proved)"
  },
  {
   "property": "C42",
   "status": "partial",
   "theorems": [
    "Verif.V2.C42_ambr",
    "Verif.V2.C42_bearer_qos_partial",
    "Verif.V2.C42_bearer_qos_pci_wrong",
    "Verif.V2.C42_arp",
    "Verif.V2.C42_flow_qos_partial",
    "Verif.V2.C42_flow_qos_mbr_wrong"
   ],
   "note": "all values but the PCI/PVI flag accessors of Bearer QoS and MBRForUplink of Flow QoS, which the code reads from the wrong place (both proved)"
  },
  {
   "property": "C43",
   "status": "proved",
   "theorems": [
    "Verif.V2.C43_uli",
    "Verif.V2.C43_newECGI",
    "Verif.V2.C48_uli",
    "Verif.V2.C43_old_getter_partial",
    "Verif.V2.C43_old_constructor_partial",
    "Verif.V2.C43_lazy_partial",
    "Verif.V2.C43_old_round_trip_partial",
    "Verif.V2.C43_old_eci_wrong",
    "Verif.V2.C43_old_getter_wrong"
   ],
   "note": "the three deprecated functions (two constructors with flat arguments, getter with one PLMN) agree for locations of one network and cell identifiers below 2^20 and depart from the property otherwise, proved as witnesses"
  },
  {
   "property": "C44",
   "status": "partial",
   "theorems": [
    "Verif.V2.C44_v2_msisdn_mei",
    "Verif.V2.C44_v2_imsi_partial",
    "Verif.V2.C44_v2_imsi_even_wrong",
    "Verif.TLV.C44_imsi_partial",
    "Verif.TLV.C44_imsi_even_wrong",
    "Verif.TLV.C44_msisdn_partial",
    "Verif.TLV.C44_msisdn_odd_wrong",
    "Verif.TLV.C44_imeisv"
   ],
   "note": "GTPv2 MSISDN and MEI, IMEISV for every digit string; IMSI only for odd lengths, GTPv1 MSISDN only for even lengths - the code returns other digits for the rest (proved)"
  },
  {
   "property": "C45",
   "status": "proved",
   "theorems": [
    "Verif.V2.C45_indication",
    "Verif.V2.C45_complete",
    "Verif.V2.C45_bit_sequence",
    "Verif.V2.C45_octets",
    "Verif.V2.C48_indication"
   ],
   "note": "the table of assignments and accessors is extracted from the source; 65 flags have accessors, the 7 spare bits have none"
  },
  {
   "property": "C46",
   "status": "partial",
   "theorems": [
    "Verif.V2.C46_tft_partial",
    "Verif.V2.C46_params_lost",
    "Verif.V2.C46_in_bearer_context",
    "Verif.V2.C46_components_partial",
    "Verif.V2.C46_ipv6_wrong",
    "Verif.V2.C46_built_partial",
    "Verif.V2.C46_long_filter_wrong"
   ],
   "note": "templates with no parameters or an odd number of them; an even number of parameters is lost and the IPv6 mask loses an octet (both proved)"
  },
  {
   "property": "C47",
   "status": "proved",
   "theorems": [
    "Verif.V2.C47_pco",
    "Verif.V2.C47_ppp",
    "Verif.V2.C47_ppp_contents",
    "Verif.V2.C47_pap",
    "Verif.V2.C47_chap",
    "Verif.V2.C47_ipcp",
    "Verif.V2.C47_ipcp_addr",
    "Verif.V2.C47_truncated_accepted",
    "Verif.V2.C47_ppp_empty",
    "Verif.V2.C47_empty_fails"
   ],
   "note": "container lists round trip; also the PPP, PAP, CHAP and IPCP contents; departures for empty contents and truncated input are proved as witnesses"
  },
  {
   "property": "C48",
   "status": "partial",
   "theorems": [
    "Verif.V2.C48_addr",
    "Verif.V2.C48_qos",
    "Verif.V2.C48_uli",
    "Verif.V2.C48_identity",
    "Verif.TLV.C48_identity",
    "Verif.V2.C48_indication",
    "Verif.V2.C48_tft_partial",
    "Verif.V2.C48_tft_prefix_panics",
    "Verif.V2.C48_tft_prefix_panics_iff",
    "Verif.V2.C48_pco_partial",
    "Verif.V2.C48_plain",
    "Verif.V2.C48_plmn",
    "Verif.V2.C48_guti_partial",
    "Verif.V2.C48_time",
    "Verif.TLV.C48_v1_plain",
    "Verif.TLV.C48_v1_structured",
    "Verif.TLV.C48_autn_partial"
   ],
   "note": "all typed accessors of GTPv2, GTPv1 and GTPv0; the prefix accessors of the TFT, the GUTI structure and the GTPv1 AUTN accessor panic (proved, with the exact condition)"
  },
  {
   "property": "C49",
   "status": "partial",
   "theorems": [
    "Verif.V2.C49_partial",
    "Verif.V2.C49_remove",
    "Verif.V2.C49_built",
    "Verif.V2.C49_damages",
    "Verif.V2.C49_wrong"
   ],
   "note": "removing always, adding for the elements before the edited one, and for all of them when it is the last one or the first child does not fit into the rest of the buffer; otherwise Add writes over the following elements (proved, C49_damages)"
  },
  {
   "property": "C50",
   "status": "partial",
   "theorems": [
    "Verif.V2.C50_paa_v4",
    "Verif.V2.C50_paa_v6",
    "Verif.V2.C50_paa_dual",
    "Verif.V2.C50_s103",
    "Verif.V2.C50_s1u_partial",
    "Verif.V2.C50_s1u_received",
    "Verif.V2.C50_s1u_teid_wrong",
    "Verif.V2.C50_ip",
    "Verif.V2.C50_ran_nas_partial",
    "Verif.V2.C50_ran_nas_empty",
    "Verif.V2.C50_paging_partial",
    "Verif.V2.C50_paging_odd_partial",
    "Verif.V2.C50_paging_wrong",
    "Verif.V2.C50_plmn",
    "Verif.V2.C50_global_cn",
    "Verif.V2.C50_trace",
    "Verif.V2.C50_uci_partial",
    "Verif.V2.C50_uci_cmi_wrong",
    "Verif.V2.C50_guti_partial",
    "Verif.V2.C50_guti_plmn_wrong",
    "Verif.V2.C50_guti_bad_plmn",
    "Verif.V2.C50_csid_partial",
    "Verif.V2.C50_csid_wrong",
    "Verif.V2.C50_epc_timer_octet",
    "Verif.V2.C50_epc_timer_partial",
    "Verif.V2.C50_epc_timer_wrong",
    "Verif.V2.C50_throttling_partial",
    "Verif.V2.C50_throttling_wrong",
    "Verif.V2.C50_time_zone",
    "Verif.V2.C50_time_zone_limit",
    "Verif.V2.C50_timestamp_partial",
    "Verif.V2.C50_timestamp_before_1970",
    "Verif.V2.C50_delay_value_partial",
    "Verif.V2.C50_delay_value_wrong",
    "Verif.V2.C50_new_delay_value",
    "Verif.V2.C50_new_delay_multiple",
    "Verif.V2.C50_timer_raw"
   ],
   "note": "every structured GTPv2 IE; where the code returns something else (TEID of S1-U data forwarding, paging flags, CMI of user CSG information, PLMN of the GUTI structure, inexpressible timers, delay value, times before 1970) the departure is proved"
  },
  {
   "property": "C51",
   "status": "partial",
   "theorems": [
    "Verif.FieldTypes.C51_v2_new_partial",
    "Verif.FieldTypes.C51_v2_parse_partial",
    "Verif.FieldTypes.C51_v2_wrong",
    "Verif.FieldTypes.C51_v1_new",
    "Verif.FieldTypes.C51_v1_parse",
    "Verif.FieldTypes.C51_v0_new",
    "Verif.FieldTypes.C51_v0_parse"
   ],
   "note": "Full for GTPv1 and GTPv0. GTPv2: for all fields but three that the code fills with another type (C51_v2_wrong shows all three)."
  },
  {
   "property": "C52",
   "status": "proved",
   "theorems": [
    "Verif.V1.C52_v1_no_loss",
    "Verif.V0.C52_v0_no_loss",
    "Verif.V1.C52_v1_third_gateway"
   ],
   "note": ""
  },
  {
   "property": "C53",
   "status": "proved",
   "theorems": [
    "Verif.V1.UConn.C53_echo"
   ],
   "note": ""
  },
  {
   "property": "C54",
   "status": "partial",
   "theorems": [
    "Verif.FieldTypes.C54_v2_partial",
    "Verif.FieldTypes.C54_v2_never",
    "Verif.FieldTypes.C54_v1",
    "Verif.FieldTypes.C54_v0"
   ],
   "note": "Full for GTPv1 and GTPv0. GTPv2: all fields but UEMMContext of ContextResponse, proved to stay empty for every input."
  },
  {
   "property": "C55",
   "status": "partial",
   "theorems": [
    "Verif.V2.C55_uint8",
    "Verif.V2.C55_uint16",
    "Verif.V2.C55_uint32",
    "Verif.V2.C55_string",
    "Verif.V2.C55_name",
    "Verif.V2.C55_name_long",
    "Verif.V2.C55_others"
   ],
   "note": "every plain IE and value; names only with labels of at most 255 octets (longer ones are lost, proved)"
  },
  {
   "property": "C56",
   "status": "partial",
   "theorems": [
    "Verif.V2.C56_cause_partial",
    "Verif.V2.C56_cause_flags_wrong",
    "Verif.V2.C56_bearer_flags",
    "Verif.V2.C56_never_reported",
    "Verif.V2.C56_mbms_flags",
    "Verif.V2.C56_node_features"
   ],
   "note": "cause value, offending IE and the flags read from the right bit; the CS/BCE accessors are swapped, two others read the wrong bit, four flags are never reported (all proved)"
  },
  {
   "property": "C57",
   "status": "partial",
   "theorems": [
    "Verif.V2.C57_partial",
    "Verif.V2.C57_causeFlags_wrong"
   ],
   "note": "all accessors but CauseFlags, which returns the cause value on a Bearer Context (proved)"
  },
  {
   "property": "C58",
   "status": "partial",
   "theorems": [
    "Verif.TLV.C58_types",
    "Verif.TLV.C58_uint8",
    "Verif.TLV.C58_uint16",
    "Verif.TLV.C58_uint32",
    "Verif.TLV.C58_bool",
    "Verif.TLV.C58_raw",
    "Verif.TLV.C58_teid",
    "Verif.TLV.C58_flow_label_ii",
    "Verif.TLV.C58_others",
    "Verif.TLV.C58_flag_names",
    "Verif.TLV.C58_flag_all",
    "Verif.TLV.C58_flags",
    "Verif.TLV.C58_flags_ii",
    "Verif.TLV.C58_flag_get"
   ],
   "note": "every plain IE and value; only the empty value of a private extension cannot be read back (part of C58_others)"
  },
  {
   "property": "C59",
   "status": "partial",
   "theorems": [
    "Verif.TLV.C59_apn_v1",
    "Verif.TLV.C59_apn_v0_partial",
    "Verif.TLV.C59_apn_v0_never",
    "Verif.TLV.C59_uli",
    "Verif.TLV.C59_uli_rai",
    "Verif.TLV.C59_rai_v1_partial",
    "Verif.TLV.C59_rai_v1_wrong",
    "Verif.TLV.C59_rai_v1_panics",
    "Verif.TLV.C59_rai_v0_partial",
    "Verif.TLV.C59_rai_v0_wrong",
    "Verif.TLV.C59_gsn_v1",
    "Verif.TLV.C59_address_v0",
    "Verif.TLV.C59_eua",
    "Verif.TLV.C59_eua_kinds",
    "Verif.TLV.C59_eua_ppp_partial",
    "Verif.TLV.C59_eua_ppp_wrong",
    "Verif.TLV.C59_time_zone",
    "Verif.TLV.C59_timestamp_partial",
    "Verif.TLV.C59_timestamp_before_1970",
    "Verif.TLV.C59_triplet",
    "Verif.TLV.C59_quintuplet_partial",
    "Verif.TLV.C59_autn_wrong",
    "Verif.TLV.C59_xres_any_type",
    "Verif.TLV.C59_qos_partial",
    "Verif.TLV.C59_qos_wrong",
    "Verif.TLV.C59_pco"
   ],
   "note": "all of them; departures proved: GTPv0 APN accessor, three-digit MNC in the GTPv1 RAI, MCC/MNC of the GTPv0 RAI, PPP type number, AUTN, GTPv0 delay/peak/mean classes, times before 1970"
  },
  {
   "property": "C60",
   "status": "partial",
   "theorems": [
    "Verif.V2.Conn.C60_by_name",
    "Verif.V2.Conn.C60_default",
    "Verif.V2.Conn.C60_table_kept",
    "Verif.V2.Conn.C60_by_ebi",
    "Verif.V2.Conn.C60_name_by_ebi_partial",
    "Verif.V2.Conn.C60_remove_by_ebi_partial",
    "Verif.V2.Conn.C60_unique_ebi_partial",
    "Verif.V2.Conn.C60_ebi_by_teid",
    "Verif.V2.Conn.C60_bearers",
    "Verif.V2.Conn.C60_count",
    "Verif.V2.Conn.C60_conn_count",
    "Verif.V2.Conn.C60_empty_name",
    "Verif.V2.Conn.C60_nil_panics",
    "Verif.V2.Conn.C60_remove_race"
   ],
   "note": "for tables without nil bearers and sequential calls, all of it but: the name of a bearer named \"\" is not found by identity, nor is that bearer removed by identity. A nil bearer makes lookups panic, and RemoveBearerByEBI is not atomic (each proved by a witness)"
  },
  {
   "property": "C61",
   "status": "partial",
   "theorems": [
    "Verif.V2.Conn.C61_contents_partial",
    "Verif.V2.Conn.C61_accepts",
    "Verif.V2.Conn.C61_built_partial",
    "Verif.V2.Conn.C61_gbr_down_wrong",
    "Verif.V2.Conn.C61_pci_pvi_wrong"
   ],
   "note": "never panics, accepts exactly the readable lists; all values but three of the QoS: guaranteed bit rate downlink is that of the uplink, the pre-emption flags are always false (proved)"
  },
  {
   "property": "C62",
   "status": "partial",
   "theorems": [
    "Verif.V2.Conn.C62_by_teid",
    "Verif.V2.Conn.C62_by_imsi_partial",
    "Verif.V2.Conn.C62_imsi_first",
    "Verif.V2.Conn.C62_order_wrong",
    "Verif.V2.Conn.C62_nothing_else",
    "Verif.V2.Conn.C62_error_partial",
    "Verif.V2.Conn.C62_error_leak"
   ],
   "note": "by TEID always, by IMSI when it precedes the F-TEID; with the other order, and after errors, the tables are wrong (proved)"
  },
  {
   "property": "C63",
   "status": "partial",
   "theorems": [
    "Verif.V2.Conn.C63_requests",
    "Verif.V2.Conn.C63_echo",
    "Verif.V2.Conn.C63_create_partial",
    "Verif.V2.Conn.C63_send_failure",
    "Verif.V2.Conn.C63_create_leak"
   ],
   "note": "holds but for Create Session Requests with both a private extension and additional elements. A failed send uses no number when no other goroutine sends meanwhile and the counter is below 0x7fffff (interleavings: C30). When the send fails the created session stays registered (proved)"
  },
  {
   "property": "C64",
   "status": "partial",
   "theorems": [
    "Verif.V1.URelay.C64_only_read",
    "Verif.V1.URelay.C64_no_crash",
    "Verif.V1.URelay.C64_all_forwarded",
    "Verif.V1.URelay.C64_forward",
    "Verif.V1.URelay.C64_forward_closed",
    "Verif.V1.URelay.C64_cut",
    "Verif.V1.URelay.C64_peers",
    "Verif.V1.URelay.C64_stops",
    "Verif.V1.URelay.C64_one_table_wrong",
    "Verif.V1.URelay.C64_closed_conn_floods",
    "Verif.V1.URelay.C64_close_wrong",
    "Verif.V1.URelay.C64_not_by_default",
    "Verif.V1.URelay.C64_header_lost"
   ],
   "note": "what is sent belongs to T-PDUs read, and all of them are forwarded while peers do not change and writes succeed. Departures proved: one table for both directions, a closed connection reads as TEID 0 without end, one more T-PDU per side after Close, second Close panics, nothing is relayed while Error Indications are enabled (the default), sequence number and extension headers are lost"
  },
  {
   "property": "C65",
   "status": "partial",
   "theorems": [
    "Verif.V2.Conn.C65_v2_partial",
    "Verif.V2.Conn.C65_v2_sends",
    "Verif.V2.Conn.C65_v2_any_sender",
    "Verif.V2.Conn.C65_v2_echo_request",
    "Verif.V2.Conn.C65_v2_gives_up",
    "Verif.V1.UConn.C65_v1_partial",
    "Verif.V1.UConn.C65_v1_request",
    "Verif.V1.UConn.C65_v1_nil_nil",
    "Verif.V1.UConn.C65_v1_blocks",
    "Verif.V1.UConn.C65_v1_any_sender"
   ],
   "note": "exact conditions of every outcome; departures proved: any sender and any sequence number, Dial also takes an Echo Request and gives up on any other message, DialUPlane returns neither connection nor error when the context is done and waits for ever after a message of another type"
  },
  {
   "property": "C66",
   "status": "partial",
   "theorems": [
    "Verif.Lifecycle.C66_socket_partial",
    "Verif.Lifecycle.C66_result",
    "Verif.Lifecycle.C66_stops",
    "Verif.Lifecycle.C66_v1_at_most_one",
    "Verif.Lifecycle.C66_v2_unbounded",
    "Verif.Lifecycle.C66_close_twice",
    "Verif.Lifecycle.C66_close_without_serve",
    "Verif.Lifecycle.C66_error_leaks"
   ],
   "note": "Serve called at most once. Stopping and results for every schedule; departures proved: any number of datagrams may be handled between Close and the closing of the socket in GTPv2 (at most one in GTPv1), Close without Serve and a failed read leave the socket open, second Close panics"
  },
  {
   "property": "C67",
   "status": "partial",
   "theorems": [
    "Verif.V2.C07_short_refused",
    "Verif.V2.C07_grouped_short_wrong",
    "Verif.V2.C67_v2_header_wrong",
    "Verif.V2.C67_v2_message_wrong",
    "Verif.TLV.C67_v1_ie",
    "Verif.TLV.C67_v1_ie_stale",
    "Verif.V1.C67_v1_header",
    "Verif.V1.C67_v1_message",
    "Verif.V1.C67_v1_stale",
    "Verif.V0.C67_v0_header",
    "Verif.V0.C67_v0_message"
   ],
   "note": "holds for GTPv1, GTPv0 and plain GTPv2 elements; GTPv2 headers and messages always panic and grouped elements are always cut (proved). Buffers whose capacity equals their length. With only the S flag, a GTPv1 header leaves two octets of the buffer as they were"
  },
  {
   "property": "C68",
   "status": "partial",
   "theorems": [
    "Verif.V2.C68_first_only_partial",
    "Verif.V2.C68_piggyback_wrong"
   ],
   "note": "the first message is handled as if alone, whatever follows; a piggybacked message is never handled (proved)"
  },
  {
   "property": "C69",
   "status": "partial",
   "theorems": [
    "Verif.V1.Tunnel.C69_returns",
    "Verif.V1.Tunnel.C69_frame",
    "Verif.V1.Tunnel.C69_not_enabled",
    "Verif.V1.Tunnel.C69_no_device",
    "Verif.V1.Tunnel.C69_add_iff",
    "Verif.V1.Tunnel.C69_add",
    "Verif.V1.Tunnel.C69_add_fails",
    "Verif.V1.Tunnel.C69_override",
    "Verif.V1.Tunnel.C69_override_succeeds",
    "Verif.V1.Tunnel.C69_override_fails",
    "Verif.V1.Tunnel.C69_del_itei_iff",
    "Verif.V1.Tunnel.C69_del_itei",
    "Verif.V1.Tunnel.C69_del_ms_iff",
    "Verif.V1.Tunnel.C69_del_ms",
    "Verif.V1.Tunnel.C69_del_fails",
    "Verif.V1.Tunnel.C69_enable",
    "Verif.V1.Tunnel.C69_enable_succeeds",
    "Verif.V1.Tunnel.C69_enable_fails",
    "Verif.V1.Tunnel.C69_relay_refused",
    "Verif.V1.Tunnel.C69_relay_accepted",
    "Verif.V1.Tunnel.C69_shutdown",
    "Verif.V1.Tunnel.C69_shutdown_off",
    "Verif.V1.Tunnel.C69_distinct",
    "Verif.V1.Tunnel.C69_origin",
    "Verif.V1.Tunnel.C69_kept",
    "Verif.V1.Tunnel.C69_reserved",
    "Verif.V1.Tunnel.C69_replaced_teid_kept_wrong",
    "Verif.V1.Tunnel.C69_override_fails_wrong",
    "Verif.V1.Tunnel.C69_overlap_wrong",
    "Verif.V1.Tunnel.C69_enable_retry_wrong",
    "Verif.V1.Tunnel.C69_enable_twice_wrong"
   ],
   "note": "the kernel is assumed as in Model/Tunnel.lean. Departures proved: AddTunnelOverride that fails may have deleted the old tunnel, the TEID of a tunnel it replaced stays in use for ever, overlapping calls may delete a tunnel of another subscriber installed meanwhile, a failed EnableKernelGTP cannot be repeated with the same name, and repeated with a name in use cuts the connection off from its tunnels"
  },
  {
   "property": "C70",
   "status": "partial",
   "theorems": [
    "Verif.V2.C70_v2_piggybacking",
    "Verif.V2.C70_v2_sequence",
    "Verif.V2.C70_v2_teid",
    "Verif.V2.C70_v2_priority_partial",
    "Verif.V2.C70_v2_priority_wrong",
    "Verif.V2.C70_v2_wire",
    "Verif.V2.C70_v2_teid_wrong",
    "Verif.V1.C70_v1_sequence",
    "Verif.V1.C70_v1_npdu",
    "Verif.V1.C70_v1_teid_wrong",
    "Verif.V1.C70_v1_next_type_wrong",
    "Verif.V0.C70_v0_tid"
   ],
   "note": "proved for SetPiggybacking, SetSequenceNumber, SetNPDUNumber, SetTEID of a GTPv2 header that has one, and TID. Departures proved: SetMessagePriority keeps the upper half of its argument, so the priorities 0 to 15 all become 0; SetTEID on a GTPv2 header without TEID leaves Length, and four octets of payload are lost; SetTEID of GTPv1 sets a spare bit; SetNextExtensionHeaderType leaves Length and extension headers"
  },
  {
   "property": "C71",
   "status": "partial",
   "theorems": [
    "Verif.Locks.C71_no_deadlock_partial",
    "Verif.Locks.C71_wait_without_mutex",
    "Verif.Locks.C71_end_without_mutex",
    "Verif.Locks.C71_can_finish_partial",
    "Verif.Locks.C71_enable_logging_wrong"
   ],
   "note": "every function but EnableLogging, which takes the mutex of the logger twice: it never returns, and everything that logs afterwards is blocked for ever (proved, both packages)"
  },
  {
   "property": "C72",
   "status": "partial",
   "theorems": [
    "Verif.Locks.C72_no_race_partial",
    "Verif.Locks.C72_races_wrong",
    "Verif.Locks.C72_complete"
   ],
   "note": "the sequence number, the state of sessions, the table of a Relay, the loggers and the table of grouped types are never raced for; every other variable is, with two calls and a schedule for each (proved)"
  },
  {
   "property": "C73",
   "status": "partial",
   "theorems": [
    "Verif.Consts.C73_message_types",
    "Verif.Consts.C73_message_types_v1_partial",
    "Verif.Consts.C73_message_types_wrong",
    "Verif.Consts.C73_message_types_distinct",
    "Verif.Consts.C73_extension_headers",
    "Verif.Consts.C73_ie_types",
    "Verif.Consts.C73_ie_types_distinct",
    "Verif.Consts.C73_causes",
    "Verif.Consts.C73_codes_v2",
    "Verif.Consts.C73_renamed",
    "Verif.Consts.C73_codes_v1",
    "Verif.Consts.C73_message_names",
    "Verif.Consts.C73_message_names_v1_partial",
    "Verif.Consts.C73_message_names_wrong",
    "Verif.Consts.C73_ie_names_v0",
    "Verif.Consts.C73_ie_names_v1_partial",
    "Verif.Consts.C73_ie_names_v1_wrong",
    "Verif.Consts.C73_ie_names_v2_partial",
    "Verif.Consts.C73_ie_names_v2_wrong"
   ],
   "note": "holds but for: five GTPv1 message types of mobility management (56 to 60 in place of 48 to 52), the spelling of the name of a GTPv1 Error Indication, the names of GTPv1 elements of fixed length (all Undefined) and of GTPv2 elements 120, 121, 122 and 130 (all proved). Selection modes of GTPv0 and GTPv1 have their spare bits set in the constant. The tables of the standards are from memory, no copy was at hand; entries and identifiers follow the library, so missing entries are not noticed"
  },
  {
   "property": "C74",
   "status": "partial",
   "theorems": [
    "Verif.Datagrams.C74_own_octets",
    "Verif.Datagrams.C74_once",
    "Verif.Datagrams.C74_none_lost",
    "Verif.Datagrams.C74_no_interference",
    "Verif.Datagrams.C74_order_wrong",
    "Verif.Datagrams.C74_long_wrong"
   ],
   "note": "exactly once, own sender and own octets for every schedule. Departures proved: the order of arrival is not kept, and of a datagram of more than 1500 octets only the first 1500 are handled, as a GTPv2 message without its last elements when the cut falls between two"
  },
  {
   "property": "C75",
   "status": "partial",
   "theorems": [
    "Verif.V2.C75_bearer_contexts",
    "Verif.V2.C75_empty_wrong",
    "Verif.V2.C75_templates_partial",
    "Verif.V2.C75_params_lost"
   ],
   "note": "holds for the fourteen constructors of Bearer Contexts with at least one element given and for the twelve constructors of templates with no parameter or an odd number of them. Departures proved: a Bearer Context of nothing cannot be read, and an even number of parameters is not seen by the receiver"
  },
  {
   "property": "C76",
   "status": "partial",
   "theorems": [
    "Verif.V2.C76_addr",
    "Verif.V2.C76_identity",
    "Verif.V2.C76_qos",
    "Verif.V2.C76_plain",
    "Verif.V2.C76_tables",
    "Verif.V2.C76_flags",
    "Verif.V2.C76_bearer",
    "Verif.V2.C76_uli_old",
    "Verif.TLV.C76_v1",
    "Verif.TLV.C76_v0",
    "Verif.TLV.C76_v1_tables",
    "Verif.TLV.C76_xres_partial"
   ],
   "note": "holds but for two accessors, which do not look at the type (proved): the deprecated UserLocationInfo of GTPv2, and XRES of GTPv1 on an element with an empty payload. The accessors for raw values (ValueAsUint8 and so on) are meant for any type and not covered"
  },
  {
   "property": "C77",
   "status": "partial",
   "theorems": [
    "Verif.V2.C77_v2_partial",
    "Verif.V2.C77_v2_start",
    "Verif.V2.C77_v2_start_built",
    "Verif.V2.C77_v2_edits",
    "Verif.V2.C77_v2_replace_partial",
    "Verif.V2.C77_v2_every_field_partial",
    "Verif.V2.C77_contextResponse_silent",
    "Verif.V2.C77_contextResponse_mm",
    "Verif.V1.C77_v1_partial",
    "Verif.V1.C77_v1_start",
    "Verif.V1.C77_v1_start_built",
    "Verif.V1.C77_v1_edits_partial",
    "Verif.V1.C77_v1_every_field",
    "Verif.V1.C77_v1_stale",
    "Verif.V1.C77_v1_clear_moves",
    "Verif.V0.C77_v0_partial",
    "Verif.V0.C77_v0_start",
    "Verif.V0.C77_v0_start_built",
    "Verif.V0.C77_v0_edits_partial",
    "Verif.V0.C77_v0_every_field",
    "Verif.V0.C77_v0_stale"
   ],
   "note": "holds for messages below 64 KiB (and of 12 octets or more, GTPv2). Departures proved: three fields of Context Response are never sent and a fourth arrives elsewhere; in GTPv1 and GTPv0 clearing the first of two fields for elements of one type moves the second; messages of the types of C24, once received or serialised, cannot be sent with other elements; Create Session Request with private extension and additional IEs is left out (C16)"
  },
  {
   "property": "C78",
   "status": "partial",
   "theorems": [
    "Verif.V2.C78_generic",
    "Verif.V2.C78_generic_value",
    "Verif.V2.C78_identity",
    "Verif.V2.C78_qos",
    "Verif.V2.C78_plain",
    "Verif.V2.C78_fteid",
    "Verif.V2.C78_paa",
    "Verif.V2.C78_uli",
    "Verif.V2.C78_s103",
    "Verif.V2.C78_s1udf",
    "Verif.V2.C78_ip_short",
    "Verif.V2.C78_flags",
    "Verif.V2.C78_signature_wrong",
    "Verif.V2.C78_ip_wrong",
    "Verif.V2.C78_lists_wrong",
    "Verif.V2.C78_gre_wrong",
    "Verif.TLV.C78_v1",
    "Verif.TLV.C78_v0",
    "Verif.TLV.C78_v1_tables",
    "Verif.TLV.C78_location",
    "Verif.TLV.C78_quintuplet",
    "Verif.TLV.C78_mnc0_wrong",
    "Verif.TLV.C78_signature_wrong",
    "Verif.TLV.C78_autn_wrong"
   ],
   "note": "holds for the accessors listed. Departures proved: P-TMSI Signature returns 0 for a payload of another size, IP accepts five octets as an address, FQ-CSID and EBIs accept lists shorter than announced, GREKey of a tunnel endpoint needs an octet too many, MNC of GTPv0 does not need its third octet, AUTN of GTPv1 panics on 50 octets, XRES of an empty element is no error (C76). Yes-no accessors looking into a Bearer Context are treated on the elements inside"
  },
  {
   "property": "C79",
   "status": "partial",
   "theorems": [
    "Verif.V2.C79_trace",
    "Verif.V2.C79_uci",
    "Verif.V2.C79_guti",
    "Verif.V2.C79_ambr",
    "Verif.V2.C79_bearer_qos",
    "Verif.V2.C79_flow_qos",
    "Verif.V2.C79_throttling",
    "Verif.V2.C79_ran_nas",
    "Verif.V2.C79_paging",
    "Verif.V2.C79_fteid",
    "Verif.V2.C79_paa",
    "Verif.V2.C79_s1udf",
    "Verif.V2.C79_uli",
    "Verif.V2.C79_tft_component",
    "Verif.V2.C79_tft_filter",
    "Verif.V2.C79_tft_parameter",
    "Verif.V2.C79_s103_partial",
    "Verif.V2.C79_csid_partial",
    "Verif.V2.C79_tft_partial",
    "Verif.V2.C79_container_partial",
    "Verif.V2.C79_pco_partial",
    "Verif.V2.C79_pco_v1_partial",
    "Verif.V2.C79_ppp_partial",
    "Verif.V2.C79_pap_partial",
    "Verif.V2.C79_chap_partial",
    "Verif.V2.C79_ipcp_partial",
    "Verif.V2.C79_ppp_short",
    "Verif.V2.C79_ipcp_short",
    "Verif.V2.C79_chap_short",
    "Verif.V2.C79_container_short",
    "Verif.V2.C79_pco_short",
    "Verif.V2.C79_pco_v1_short",
    "Verif.V2.C79_csid_short",
    "Verif.V2.C79_tft_short",
    "Verif.V2.C79_csid_wrong",
    "Verif.V2.C79_tft_wrong",
    "Verif.V2.C79_container_wrong",
    "Verif.V2.C79_ppp_wrong",
    "Verif.V2.C79_chap_wrong",
    "Verif.V2.C79_ipcp_wrong",
    "Verif.V2.C79_stale_wrong"
   ],
   "note": "both halves for sixteen structures (with valid PLMNs, and addresses of the announced kind and length). For the others the half on large buffers, and for every short one what happens instead (the _short theorems, C79_s103_partial and C79_pap_partial): S103 and PAP panic on exactly one length, templates exactly when the buffer ends within a list of filters to delete; containers panic below three octets and are cut otherwise, so lists of them panic unless the buffer ends behind the header of the last one; FQ-CSID, PPP, CHAP and IPCP are cut without an error from some length on. PPP and IPCP without payload refuse a buffer of the announced length. A missing address or an invalid PLMN of a GUTI leaves old octets in the buffer"
  },
  {
   "property": "C80",
   "status": "partial",
   "theorems": [
    "Verif.V2.C80_v2_partial",
    "Verif.V2.C80_v2_new_partial",
    "Verif.V2.C80_v2_generic",
    "Verif.V2.C80_v2_no_teid_wrong",
    "Verif.V1.C80_v1_partial",
    "Verif.V1.C80_v1_new",
    "Verif.V0.C80_v0_partial",
    "Verif.V0.C80_v0_new"
   ],
   "note": "all message types of the three versions; GTPv2 Create Session Request only without private extension or without additional IEs, GTPv1 and GTPv0 types that cannot be serialised after being received or serialised (C24) only before that. Departure proved: a GTPv2 Generic message without TEID shows 4 until serialised, whatever its elements"
  },
  {
   "property": "C81",
   "status": "partial",
   "theorems": [
    "Verif.V2.C81_v2_build",
    "Verif.V2.C81_v2_received",
    "Verif.V2.C81_v2_no_teid_partial",
    "Verif.V1.C81_v1_build",
    "Verif.V1.C81_v1_received",
    "Verif.V0.C81_v0_build",
    "Verif.V0.C81_v0_received"
   ],
   "note": "holds but for messages without TEID below 12 octets, which the receiver refuses (C18); received GTPv1 and GTPv0 elements must be well-formed with a value (C19)"
  },
  {
   "property": "C82",
   "status": "partial",
   "theorems": [
    "Verif.Listen.C82_v2_again_partial",
    "Verif.Listen.C82_v1_first_partial",
    "Verif.Listen.C82_no_panic",
    "Verif.Listen.C82_stops",
    "Verif.Listen.C82_v1_never_again",
    "Verif.Listen.C82_v1_again_nil",
    "Verif.Listen.C82_v1_no_ip",
    "Verif.Listen.C82_unopened",
    "Verif.Listen.C82_v2_serve_unopened",
    "Verif.Listen.C82_v2_failed_listen",
    "Verif.Listen.C82_v2_listen_twice",
    "Verif.Listen.C82_v2_failed_listen_stop",
    "Verif.Listen.C82_v1_watcher",
    "Verif.Listen.C82_v1_race",
    "Verif.Listen.C82_lost",
    "Verif.Listen.C82_old_context"
   ],
   "note": "GTPv2 once the earlier calls have been stopped, GTPv1 until the first success; on one socket no number of calls panics but a second Close, and all calls stop together. Departures proved: a GTPv1 connection never receives again after its socket was closed, and says nil; with a local address without IP it keeps the socket it refuses to use; use without a socket panics; a second Listen that is refused takes the socket away from the running Serve, which panics at the next datagram, read error, Close or end of its context; likewise of two overlapping first calls of ListenAndServe on a given port the refused one makes the other panic; a socket replaced by another Listen is never closed; the context of a call that failed closes the socket of its successor"
  },
  {
   "property": "C83",
   "status": "partial",
   "theorems": [
    "Verif.V2.Exchange.C83_answers",
    "Verif.V2.Exchange.C83_own_partial",
    "Verif.V2.Exchange.C83_delivered_partial",
    "Verif.V2.Exchange.C83_leftover",
    "Verif.V2.Exchange.C83_duplicate",
    "Verif.V2.Exchange.C83_late",
    "Verif.V2.Exchange.C83_stolen"
   ],
   "note": "in every execution a message returned by WaitMessage answers a request that went out with the number asked for, and only one request did if no send failed and at most 2^23 numbers were drawn; answers that come once and in time are all delivered. Departures proved: after a failed send that overlapped others two requests share a number, and the waiter of one is given the answer to the other; one answer that comes twice, or after its requester gave up, makes every later exchange in that session fail although its answer is there"
  },
  {
   "property": "C84",
   "status": "partial",
   "theorems": [
    "Verif.V1.UPath.C84_origin",
    "Verif.V1.UPath.C84_written",
    "Verif.V1.UPath.C84_delivered_partial",
    "Verif.V1.UPath.C84_short",
    "Verif.V1.UPath.C84_loop"
   ],
   "note": "origin, wholeness and way hold in every execution; delivery for payloads of 3 to 1492 octets. Departures proved: 0 to 2 octets are dropped by the first relay, what is longer than 1492 octets is never offered (C84_written), and a tunnel that leads back to its relay sends a datagram round for ever"
  },
  {
   "property": "C85",
   "status": "partial",
   "theorems": [
    "Verif.NetIP.C85_accepted",
    "Verif.NetIP.C85_roundtrip",
    "Verif.NetIP.C85_v4_exact",
    "Verif.NetIP.C85_canonical",
    "Verif.V2.C85_elements_v2",
    "Verif.V2.C85_fteid",
    "Verif.V2.C85_paa_dual_partial",
    "Verif.V2.C85_csid_partial",
    "Verif.V2.C85_refused_v2_partial",
    "Verif.V2.C85_csid_wrong",
    "Verif.V2.C85_paa_dual_wrong",
    "Verif.TLV.C85_elements_v1",
    "Verif.TLV.C85_refused_v1_partial",
    "Verif.TLV.C85_ppp",
    "Verif.TLV.C85_eua_v0_wrong"
   ],
   "note": "the text functions of the Go standard library are modelled from memory. Accepted texts, carried addresses and printed texts hold for every constructor and accessor, the FQ-CSID with at least one CSID. Departures proved: GTPv0 NewEndUserAddress makes \"::\" of a text that is no address, NewPDNAddressAllocationDual makes 0.0.0.0 and \"::\", and NewFullyQualifiedCSID panics on a text that is neither an address nor hexadecimal"
  },
  {
   "property": "C86",
   "status": "partial",
   "theorems": [
    "Verif.NetIP.C86_same",
    "Verif.NetIP.C86_split",
    "Verif.C86_peer",
    "Verif.C86_gsn_partial",
    "Verif.C86_gsn_wrong"
   ],
   "note": "UDP addresses with an IP of 4 or 16 octets. Departure proved: a connection listening on an address with a zone sends Error Indications without a GSN Address"
  },
  {
   "property": "C87",
   "status": "partial",
   "theorems": [
    "Verif.Cost.V2.C87_same",
    "Verif.Cost.V2.C87_same_write",
    "Verif.Cost.V2.C87_v2_any_partial",
    "Verif.Cost.V2.C87_v2_one",
    "Verif.Cost.V2.C87_v2_linear",
    "Verif.Cost.V2.C87_v2_datagram",
    "Verif.Cost.V2.C87_v2_exact",
    "Verif.Cost.V2.C87_v2_not_linear",
    "Verif.Cost.V2.C87_v2_write",
    "Verif.Cost.V2.C87_v2_nodes",
    "Verif.Cost.TLV.C87_v01",
    "Verif.Cost.C87_ext"
   ],
   "note": "the cost counted is elements made, calls of MarshalLen and depth of recursion, on copies of the modelled parsers and of MarshalTo proved to give the same results. GTPv0, GTPv1 and extension headers are linear. GTPv2 is linear for a fixed depth of nesting. Departure proved: k grouped elements each in the one before (4k octets) take k(k+1)/2 calls of MarshalLen and k nested calls; at most 69751 and 373 in a datagram Serve reads"
  },
  {
   "property": "C88",
   "status": "partial",
   "theorems": [
    "Verif.V2.Conn.C88_exchange_partial",
    "Verif.V2.Conn.C88_subscriber_partial",
    "Verif.V2.Conn.C88_cut"
   ],
   "note": "both directions composed over all states of the two connections. Restrictions: the request does not hold both a private extension and additional elements (C13), no more than 1500 octets, IMSIs of an odd number of digits (15 in practice). For longer messages C88_cut says exactly when and how much of them is handled"
  },
  {
   "property": "C89",
   "status": "partial",
   "theorems": [
    "Verif.Cap.C89_v1",
    "Verif.Cap.C89_v0",
    "Verif.Cap.C89_v2_ie",
    "Verif.Cap.C89_message",
    "Verif.Cap.C89_untouched",
    "Verif.Cap.C89_v2_header_partial",
    "Verif.Cap.C89_v2_header_outcome",
    "Verif.Cap.C89_v2_header",
    "Verif.Cap.C89_v2_message"
   ],
   "note": "holds for elements of all versions and for GTPv1 and GTPv0 headers, extension headers, T-PDUs and messages, whatever they hold; for GTPv2 headers if the buffer is large enough. Departure proved for every GTPv2 header and message: a buffer that is too small but holds the first 8 or 12 octets is accepted if its capacity suffices, and the octets behind it are overwritten. The structures inside elements (C79) are treated with capacity = length only"
  },
  {
   "property": "C90",
   "status": "proved",
   "theorems": [
    "Verif.V2.C90_v2_new_named",
    "Verif.V2.C90_v2_new",
    "Verif.V2.C90_v2_parse",
    "Verif.V1.C90_v1_new_named",
    "Verif.V1.C90_v1_new",
    "Verif.V1.C90_v1_parse",
    "Verif.V0.C90_v0_new_named",
    "Verif.V0.C90_v0_new",
    "Verif.V0.C90_v0_parse"
   ],
   "note": "parsing is stated for datagrams with a header and elements that can be represented; an element is said to have no field of its own if, given four times over, it comes to AdditionalIEs"
  },
  {
   "property": "C91",
   "status": "partial",
   "theorems": [
    "Verif.V2.C91_v2_new",
    "Verif.V2.C91_v2_parse_partial",
    "Verif.V2.C91_v2_last_wins",
    "Verif.V1.C91_v1_new",
    "Verif.V1.C91_v1_parse_partial",
    "Verif.V0.C91_v0_new",
    "Verif.V0.C91_v0_parse_partial"
   ],
   "note": "exact for every field but AdditionalIEs of every message type. Departure proved: a field for one element keeps the last one, not the first; the last of several places of a type keeps the last of the elements left in most messages (tables seatsNew, seatsParse, seats)"
  },
  {
   "property": "C92",
   "status": "partial",
   "theorems": [
    "Verif.V2.C92_v2_partial",
    "Verif.V2.C92_boundary_wrong",
    "Verif.V2.C92_one_octet_wrong",
    "Verif.V1.C92_v1_partial",
    "Verif.V1.C92_relay_wrong",
    "Verif.V0.C92_v0_partial",
    "Verif.V0.C92_v0_boundary_wrong",
    "Verif.V0.C92_v0_tpdu_wrong"
   ],
   "note": "GTPv1 refuses every cut. Departures proved: GTPv2 and GTPv0 messages cut at the end of the header, between two elements, or one octet behind the header are read as messages that end there; GTPv0 T-PDUs are read with the part of the payload that is there; a T-PDU with a relay entry is forwarded cut, with its old Length. The endpoint part is proved for GTPv2 (nothing happens when the parser refuses) and GTPv1; there is no GTPv0 endpoint in the library"
  },
  {
   "property": "C93",
   "status": "partial",
   "theorems": [
    "Verif.V2.C93_v2_header_partial",
    "Verif.V2.C93_v2_header_octets",
    "Verif.V2.C93_v2_teid_stale",
    "Verif.V2.C93_v2_ie_partial",
    "Verif.V2.C93_v2_ie_octets",
    "Verif.V2.C93_v2_children_stale",
    "Verif.V1.C93_v1_ext_partial",
    "Verif.V1.C93_v1_header_partial",
    "Verif.V1.C93_v1_header_octets",
    "Verif.V1.C93_v1_header_stale",
    "Verif.V0.C93_v0_header",
    "Verif.TLV.C93_tlv_partial",
    "Verif.TLV.C93_tlv_unknown_wrong",
    "Verif.TLV.C93_ehtl_wrong",
    "Verif.Msg.C93_message_fresh",
    "Verif.Msg.C93_message_partial",
    "Verif.Msg.C93_message_both_wrong",
    "Verif.Msg.C93_message_stale",
    "Verif.Msg.C93_message_additional_wrong",
    "Verif.Msg.C93_generic_partial"
   ],
   "note": "exact for every type. Holds for GTPv0 headers and messages without elements. Departures proved: TEID, sequence number, N-PDU number and extension headers stay when the flag is not set, children stay in an element that is not grouped (none of these is written when serialising); the type of an extension header is not set; an element of an unknown type below 128 takes as many octets as the old payload had, and an Extension Header Type List is refused if that was too long; the elements of a message are added to those it had. What a value holds after an error is not modelled"
  },
  {
   "property": "C94",
   "status": "partial",
   "theorems": [
    "Verif.V2.Conn.C94_exchange_partial",
    "Verif.V2.Conn.C94_stranger",
    "Verif.V2.Conn.C94_life_partial"
   ],
   "note": "both nodes in any state with validation on. Restrictions: messages of no more than 1500 octets; the elements that C13 leaves out for Context Response, Create Bearer Response and Create Session Request; Echo with at least one element (C18). Create Session with several F-TEIDs of the own interface type leaves the session reachable under the earlier ones after RemoveSession (C33_old_teid_remains)"
  },
  {
   "property": "C95",
   "status": "partial",
   "theorems": [
    "Verif.V1.UConn.C95_u_ends",
    "Verif.V1.UConn.C95_u_echo",
    "Verif.V1.UConn.C95_u_echo_any",
    "Verif.V1.UConn.C95_u_error_partial",
    "Verif.V1.UConn.C95_u_respond_partial",
    "Verif.V1.UConn.C95_zone_crash",
    "Verif.V2.Conn.C95_v2_ends",
    "Verif.V2.Conn.C95_v2_echo"
   ],
   "note": "that nothing is sent in return holds for every datagram and every state; on the control plane given that the answering side has not declared element type 3 (Recovery) grouped, on the user plane given that the IP address of the answering side has 4 or 16 octets. That the receiver does not panic needs, on the user plane, that the answering side has an IP address in the text of its local address; otherwise its Error Indication makes any endpoint with the default handler panic (proved). Error Indications are proved for payloads of up to 1492 octets, and of at least 3 octets once the receiver has a relay (C37). RespondTo is proved on the user plane for messages of up to 1500 octets, elements that survive the wire, and all types but End Marker and Supported Extension Headers Notification; for the control plane see C94"
  },
  {
   "property": "C96",
   "status": "partial",
   "theorems": [
    "Verif.V2.C96_fresh",
    "Verif.V2.C96_fteid_partial",
    "Verif.V2.C96_fteid_marshal_partial",
    "Verif.V2.C96_uli_partial",
    "Verif.V2.C96_uli_marshal",
    "Verif.V2.C96_paa_partial",
    "Verif.V2.C96_paa_marshal",
    "Verif.V2.C96_paging_partial",
    "Verif.V2.C96_paging_marshal",
    "Verif.V2.C96_container_partial",
    "Verif.V2.C96_container_marshal_partial",
    "Verif.V2.C96_pco_partial",
    "Verif.V2.C96_pco_marshal_partial",
    "Verif.V2.C96_csid_partial",
    "Verif.V2.C96_csid_marshal_partial",
    "Verif.V2.C96_tft_partial",
    "Verif.V2.C96_tft_marshal_partial",
    "Verif.TLV.C96_pco_v1_partial",
    "Verif.TLV.C96_pco_v1_marshal_partial"
   ],
   "note": "exact for all 25 structures. Holds for 17 of them (C96_fresh). Left over: the locations of a ULI, the addresses of a PAA and the policy of Paging and Service Information that the new octets do not announce, which are not sent; the addresses of an F-TEID, which make Marshal fail; the contents of a container, which count for its length and are sent if the new octets are cut short; the containers of PCO (both versions) and the CSIDs of an FQ-CSID, which are sent along; the filters, identifiers and parameters of a template, which are sent as zeros or along. The theorems on what is sent assume that the old IPv4 address of an F-TEID is one (to4), and that old parameters and all containers have the right length octet. What a structure holds after an error is not modelled"
  },
  {
   "property": "C97",
   "status": "partial",
   "theorems": [
    "Verif.V2.C97_plmn",
    "Verif.V2.C97_ambr",
    "Verif.V2.C97_bearerQoS",
    "Verif.V2.C97_flowQoS",
    "Verif.V2.C97_s1udf",
    "Verif.V2.C97_s103",
    "Verif.V2.C97_fteid",
    "Verif.V2.C97_paa",
    "Verif.V2.C97_container",
    "Verif.V2.C97_pco",
    "Verif.V2.C97_pco_v1",
    "Verif.V2.C97_ppp_partial",
    "Verif.V2.C97_pap",
    "Verif.V2.C97_chap",
    "Verif.V2.C97_ipcp_partial",
    "Verif.V2.C97_rannas",
    "Verif.V2.C97_throttling_partial",
    "Verif.V2.C97_paging_wrong",
    "Verif.V2.C97_trace",
    "Verif.V2.C97_uci",
    "Verif.V2.C97_guti_wrong",
    "Verif.V2.C97_csid",
    "Verif.V2.C97_uli",
    "Verif.V2.C97_comp",
    "Verif.V2.C97_param",
    "Verif.V2.C97_filter",
    "Verif.V2.C97_tft_partial",
    "Verif.V2.C97_tft_wrong"
   ],
   "note": "exact for 26 structures and the PLMN. Departures proved: a GUTI comes out with its PLMN moved by one octet, Paging and Service Information with its first octet in place of the flags; an even number of parameters of a template is not announced any more; a PPP packet or IPCP option without payload cannot be serialised; the value of Throttling units 5 to 7 is replaced by zero. Besides spare bits, the number of filters of template operations that have none is cleared and the extension bit of PCO is set"
  },
  {
   "property": "C98",
   "status": "partial",
   "theorems": [
    "Verif.V2.Pgw.C98_safe",
    "Verif.V2.Pgw.C98_tables",
    "Verif.V2.Pgw.C98_create_partial",
    "Verif.V2.Pgw.C98_answered_iff",
    "Verif.V2.Pgw.C98_incomplete",
    "Verif.V2.Pgw.C98_delete",
    "Verif.V2.Pgw.C98_refused",
    "Verif.V2.Pgw.C98_life_partial",
    "Verif.V2.Pgw.C98_unwritten_wrong",
    "Verif.V2.Pgw.C98_window_wrong",
    "Verif.V2.Pgw.C98_halves",
    "Verif.V2.Pgw.C98_race_wrong",
    "Verif.V2.Pgw.C98_v6_wrong"
   ],
   "note": "for a P-GW on IPv4 addresses whose datagrams are handled one after the other and whose writes succeed, and element types filed as grouped as the library does at the start: exact for every sequence of datagrams. Create Session is proved if the EBIs in the Bearer Context agree and none of its F-TEIDs is of the interface type of the S-GW control plane. Departures proved: an incomplete request removes the session of its IMSI, whoever sends it; if the answer cannot be written, or before the session is registered, a message with the new TEID crashes the P-GW; two requests for one subscriber at the same time leave two sessions, of which one is not found by its IMSI; on an IPv6 address the answer has no address for the control plane, and a request with an FQ-CSID crashes the P-GW. Not modelled: its logging and metrics; kernel tunnels are in C106"
  },
  {
   "property": "C99",
   "status": "partial",
   "theorems": [
    "Verif.V2.Sgw.C99_forward_partial",
    "Verif.V2.Sgw.C99_attach_partial"
   ],
   "note": "for gateways on IPv4 addresses, a request of at most 1424 octets, element types filed as grouped as the library does at the start, successful writes, and one datagram handled after the other (a handler that waits is cut at WaitMessage); the S-GW starts from any state that any sequence of datagrams, woken and expired handlers leads to. Departure, visible in the statement: whatever bearer the MME asks for, the P-GW is asked for one with EBI 5 and a fixed quality of service"
  }
 ]
}