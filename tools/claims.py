V2='Verif.V2.'
c('C05','proved',[V2+'C05_ie_round_trip',V2+'C05_ies_round_trip',V2+'C05_new_wf'],'arbitrary grouped predicate, arbitrary depth')
c('C06','proved',[V2+'C06_parse_total_lossless',V2+'C06_accepts_iff',V2+'C06_parse_prefix'],'')
c('C07','proved',[V2+'C07_marshalTo_exact',V2+'C07_marshalLen_exact',V2+'C07_short_refused',V2+'C07_grouped_short_wrong'],'outside the claim: a buffer that is too small is refused, except that grouped elements are cut (proved)')
c('C08','proved',[V2+'C08_edit_history',V2+'C08_edit_wf',V2+'C08_find',V2+'C08_remove_gone',V2+'C08_not_grouped'],'')
U='Verif.Utils.'
c('C01','proved',[U+'C01_octets',U+'C01_even',U+'C01_odd',U+'C01_unpack_returns'],'')
c('C02','proved',[U+'C02_plmn_octets',U+'C02_plmn_round_trip',U+'C02_plmn_injective',U+'C02_plmn_panics_iff'],'outside the claim: exact condition under which other digit strings panic')
c('C03','proved',[U+'C03_uint24',U+'C03_uint24_bytes',U+'C03_uint40',U+'C03_uint40_bytes',U+'C03_eci'],'')
c('C04','proved',[U+'C04_fqdn_round_trip',U+'C04_labels',U+'C04_fqdn_decode_returns'],'')
c('C09','proved',[V2+'C09_header_round_trip',V2+'C09_new_header',V2+'C09_short_header_rejected'],'for messages of 12..65535 octets; below 12 octets see C18')
c('C10','proved',[V2+'C10_parse_total_faithful',V2+'C10_accepts',V2+'C10_accessors',V2+'C10_flags'],'')
c('C11','proved',[V2+'C11_parse_total'],'')
c('C12','proved',[V2+'C12_dispatch_faithful',V2+'C12_version_not_supported_wrong'],'outside the claim: Version Not Supported Indications are built with a TEID')
c('C13','partial',[V2+'C13_round_trip_partial',V2+'C13_round_trip_contextResponse_partial',V2+'C13_round_trip_createBearerResponse_partial',V2+'C13_round_trip_createSessionRequest_partial',V2+'C13_generic_round_trip',V2+'C13_createSessionRequest_overwrites',V2+'C13_contextResponse_loses',V2+'C13_createBearerResponse_loses',V2+'C13_createSessionRequest_iff',V2+'C13_createSessionRequest_lost',V2+'C13_createSessionRequest_zeros',V2+'C13_contextResponse_iff',V2+'C13_createBearerResponse_iff'],'41 of 44 message types for every IE list; for the other three exactly which IE lists round trip (an equivalence each, the _iff theorems). Throughout: well-formed IEs, fewer than 65536 octets, and at least 12 (only empty Echo messages have fewer, C18)')
c('C14','partial',[V2+'C14_same_filing_partial',V2+'C14_observed_partial',V2+'C14_disagreements'],'41 of 44 message types; the code disagrees with the property in the other three (proved)')
c('C15','partial',[V2+'C15_no_ie_lost_partial',V2+'C15_ignored',V2+'C15_loses',V2+'C15_keeps'],'all but Context Response, for IEs the constructor does not ignore; the complete list of ignored IEs is proved')
c('C16','partial',[V2+'C16_exact_size_partial',V2+'C16_createSessionRequest_exact',V2+'C16_createSessionRequest_wrong'],'all 44 message types; for Create Session Request with both a private extension and additional IEs size and Length are right but the body is not the IEs: what it is, is proved for all of them (C16_createSessionRequest_exact)')
c('C17','partial',[V2+'C17_serialise_twice',V2+'C17_forward_partial',V2+'C17_forwarding_breaks'],'same exception as C16')
c('C18','partial',[V2+'C18_accepted_partial',V2+'C18_echo',V2+'C18_empty_echo_rejected',V2+'C18_unparseable',V2+'C18_newGeneric_nil'],'the code rejects its own empty Echo messages (proved)')
T='Verif.TLV.'
c('C19','proved',[T+'C19_round_trip',T+'C19_new',T+'C19_wrong_size',T+'C19_unknown_type',T+'C19_no_value',T+'C19_teid_data_ii_wrong'],'both protocol versions, with the sizes of the library; fixed-size types unknown to the library lose their value, and TEID Data II has another size in TS 29.060 (proved)')
c('C20','proved',[T+'C20_total',T+'C20_lossless',T+'C20_accepts_iff',T+'C20_accepts_one_iff'],'')
V1='Verif.V1.'
c('C21','proved',[V1+'C21_round_trip',V1+'C21_setLength',V1+'C21_ext_round_trip',V1+'C21_add',V1+'C21_flags',V1+'C21_ext_too_large',V1+'C21_add_twice',V1+'C21_empty_chain'],'contents of extension headers come back padded to the four-octet boundary; the last three theorems are departures outside the hypotheses: contents above 1018 octets, two calls of AddExtensionHeaders, E flag with an empty chain')
c('C22','partial',[V1+'C22_header_partial',V1+'C22_message_partial',V1+'C22_header_faithful',V1+'C22_header_wf',V1+'C22_header_cases',V1+'C22_header_panics',V1+'C22_message_panics',V1+'C22_comprehension'],'proved for every input below 64 KiB; for longer ones it panics only with a Length of 65528 or more, and does so whenever E, S and PN are clear (both proved)')
c('C23','partial',[V1+'C23_round_trip_partial',V1+'C23_generic',V1+'C23_sehn_loses_seq'],'all 12 types and generic messages; End Marker and Supported Extension Headers Notification only with sequence number 0 (the library builds them without the S flag, loss proved)')
c('C24','partial',[V1+'C24_serialise_twice_partial',V1+'C24_tpdu_twice',V1+'C24_forward_partial',V1+'C24_second_fails',V1+'C24_forward_fails',V1+'C24_forward_panics',V1+'C24_stale_types','Verif.V0.C24_v0_twice_partial','Verif.V0.C24_v0_second_fails'],'holds for Echo, End Marker, T-PDU and generic messages; for the nine other types the code returns an error or panics (proved)')
c('C25','partial',[V1+'C25_partial',V1+'C25_seq_partial',V1+'C25_ext',V1+'C25_large_panics'],'payloads up to 65527 octets (65523 with sequence number); 65528..65535 octets panic (proved)')
V0='Verif.V0.'
c('C26','partial',[V0+'C26_partial',V0+'C26_new',V0+'C26_sndcp_lost',V0+'C26_large_panics',V0+'C26_faithful',V0+'C26_flags'],'the SNDCP N-PDU number is lost, payloads of 65516..65535 octets panic (both proved)')
c('C27','partial',[V0+'C27_round_trip',V0+'C27_generic',V0+'C27_tpdu_partial',V0+'C27_total_partial',V0+'C27_large_panics',V0+'C27_decapsulate_faithful',V0+'C27_decapsulate_partial',V0+'C27_decapsulate_total_partial'],'round trip for all 8 types, generic messages and T-PDU; no panic below 64 KiB, panic above (proved)')
G='Verif.Gtp.'
c('C28','proved',[G+'C28_dispatch',G+'C28_short',G+'C28_total',G+'C28_own_v0',G+'C28_own_v1',G+'C28_own_v2'],'')
c('C52','proved',[V1+'C52_v1_no_loss',V0+'C52_v0_no_loss',V1+'C52_v1_third_gateway'],'')
S=V2+'Send.'
A='Verif.Alloc.'
K=V2+'Conn.'
c('C29','proved',[S+'C29_distinct',S+'C29_wire',S+'C29_datagrams_distinct'],'')
c('C30','partial',[S+'C30_sequential_partial',S+'C30_collision'],'holds when calls do not overlap; overlapping calls collide after a failed send (proved)')
c('C31','proved',[S+'C31_respond',S+'C31_octets',S+'C31_only_sequence',K+'C31_echo'],'')
c('C32','proved',[A+'C32_unique',A+'C32_no_double',A+'C32_stays_taken',A+'C32_terminates'],'gtpv2 NewSenderFTEID and gtpv1 NewFTEID')
c('C33','partial',[K+'C33_registry_partial',K+'C33_imsi_history',K+'C33_teid_sound',K+'C33_count',K+'C33_remove_other_by_imsi',K+'C33_old_teid_remains',K+'C33_remove_other_by_teid',K+'C33_imsi_change',K+'C33_remove_panics',K+'C33_subscriber'],'holds while a session is removed from where it was registered; the four ways in which RemoveSession hits another or leaves an old entry are proved')
c('C34','partial',[K+'C34_panics_iff',K+'C34_no_crash_partial',K+'C34_reserved_crashes'],'the exact condition of a panic is proved: a message for a TEID reserved by NewSenderFTEID and not yet registered')
c('C35','partial',[K+'C35_reaches_partial',K+'C35_registered',K+'C35_version_ignored'],'everything but the version check, which the code never performs (proved)')
Q=V2+'Queue.'
c('C36','partial',[Q+'C36_accounting',Q+'C36_match',Q+'C36_order',Q+'C36_no_loss_partial',Q+'C36_capacity',Q+'C36_loses'],'order, match and no double delivery hold always; a waiter asking for another number than that of the first message in the queue loses the message for everybody (proved)')
W=V1+'UConn.'
c('C37','partial',[W+'C37_table',W+'C37_relay_partial',W+'C37_others',W+'C37_short_dropped',W+'C37_long_truncated'],'G-PDUs of 11 to 1500 octets; shorter ones are dropped, longer ones truncated (both proved)')
c('C38','partial',[W+'C38_indication_partial',W+'C38_delivery_partial',W+'C38_end_to_end',W+'C38_switch',W+'C38_calls_partial',W+'C37_short_dropped',V1+'URead.C38_exactly_once',V1+'URead.C38_read'],'all but G-PDUs of 8 to 10 octets while a relay entry exists, which are dropped (proved)')
c('C39','partial',[W+'C39_panics_iff',W+'C39_no_crash_partial',W+'C39_error_indication_crashes',W+'C39_tiny_crashes'],'the exact condition of a panic is proved: Error Indication without its IEs, a datagram below two octets while relaying, a relay entry to a connection that is not open')
c('C40','proved',[V1+'Dscp.C40_own_value',V1+'Dscp.C40_restored',V1+'Dscp.C40_once',V1+'Dscp.C40_restore_silent_wrong'],'the value is restored unless the system call that restores it fails; then no error is reported (proved)')
c('C53','proved',[W+'C53_echo'],'')

F = 'Verif.FieldTypes.'
c('C51', 'partial', [F+'C51_v2_new_partial', F+'C51_v2_parse_partial', F+'C51_v2_wrong', F+'C51_v1_new', F+'C51_v1_parse',
  F+'C51_v0_new', F+'C51_v0_parse'],
  'Full for GTPv1 and GTPv0. GTPv2: for all fields but three that the code fills with another type (C51_v2_wrong shows all three).')
c('C54', 'partial', [F+'C54_v2_partial', F+'C54_v2_never', F+'C54_v1', F+'C54_v0'],
  'Full for GTPv1 and GTPv0. GTPv2: all fields but UEMMContext of ContextResponse, proved to stay empty for every input.')

c('C41', 'partial', [V2+'C41_fteid_partial', V2+'C41_gre_wrong', V2+'C48_addr'], 'interface types below 64, every TEID, every choice of addresses; before and after the wire; only GREKey of an element without any address is refused (proved)')
c('C42', 'partial', [V2+'C42_ambr', V2+'C42_bearer_qos_partial', V2+'C42_bearer_qos_pci_wrong', V2+'C42_arp', V2+'C42_flow_qos_partial', V2+'C42_flow_qos_mbr_wrong'],
  'all values but the PCI/PVI flag accessors of Bearer QoS and MBRForUplink of Flow QoS, which the code reads from the wrong place (both proved)')
c('C43', 'proved', [V2+'C43_uli', V2+'C43_newECGI', V2+'C48_uli', V2+'C43_old_getter_partial', V2+'C43_old_constructor_partial', V2+'C43_lazy_partial', V2+'C43_old_round_trip_partial', V2+'C43_old_eci_wrong', V2+'C43_old_getter_wrong'],
  'the three deprecated functions (two constructors with flat arguments, getter with one PLMN) agree for locations of one network and cell identifiers below 2^20 and depart from the property otherwise, proved as witnesses')
c('C44', 'partial', [V2+'C44_v2_msisdn_mei', V2+'C44_v2_imsi_partial', V2+'C44_v2_imsi_even_wrong', T+'C44_imsi_partial', T+'C44_imsi_even_wrong', T+'C44_msisdn_partial', T+'C44_msisdn_odd_wrong', T+'C44_imeisv'],
  'GTPv2 MSISDN and MEI, IMEISV for every digit string; IMSI only for odd lengths, GTPv1 MSISDN only for even lengths - the code returns other digits for the rest (proved)')
c('C45', 'proved', [V2+'C45_indication', V2+'C45_complete', V2+'C45_bit_sequence', V2+'C45_octets', V2+'C48_indication'], 'the table of assignments and accessors is extracted from the source; 65 flags have accessors, the 7 spare bits have none')
c('C46', 'partial', [V2+'C46_tft_partial', V2+'C46_params_lost', V2+'C46_in_bearer_context', V2+'C46_components_partial', V2+'C46_ipv6_wrong', V2+'C46_built_partial', V2+'C46_long_filter_wrong'],
  'templates with no parameters or an odd number of them; an even number of parameters is lost and the IPv6 mask loses an octet (both proved)')
c('C47', 'proved', [V2+'C47_pco', V2+'C47_ppp', V2+'C47_ppp_contents', V2+'C47_pap', V2+'C47_chap', V2+'C47_ipcp', V2+'C47_ipcp_addr', V2+'C47_truncated_accepted', V2+'C47_ppp_empty', V2+'C47_empty_fails'],
  'container lists round trip; also the PPP, PAP, CHAP and IPCP contents; departures for empty contents and truncated input are proved as witnesses')
C48 = [V2+'C48_addr', V2+'C48_qos', V2+'C48_uli', V2+'C48_identity', T+'C48_identity', V2+'C48_indication', V2+'C48_tft_partial', V2+'C48_tft_prefix_panics', V2+'C48_tft_prefix_panics_iff', V2+'C48_pco_partial', V2+'C48_plain', V2+'C48_plmn', V2+'C48_guti_partial', V2+'C48_time', T+'C48_v1_plain', T+'C48_v1_structured', T+'C48_autn_partial']
C50 = [V2+'C50_paa_v4', V2+'C50_paa_v6', V2+'C50_paa_dual', V2+'C50_s103', V2+'C50_s1u_partial', V2+'C50_s1u_received', V2+'C50_s1u_teid_wrong', V2+'C50_ip', V2+'C50_ran_nas_partial', V2+'C50_ran_nas_empty', V2+'C50_paging_partial', V2+'C50_paging_odd_partial', V2+'C50_paging_wrong',
  V2+'C50_plmn', V2+'C50_global_cn', V2+'C50_trace', V2+'C50_uci_partial', V2+'C50_uci_cmi_wrong', V2+'C50_guti_partial', V2+'C50_guti_plmn_wrong', V2+'C50_guti_bad_plmn',
  V2+'C50_csid_partial', V2+'C50_csid_wrong', V2+'C50_epc_timer_octet', V2+'C50_epc_timer_partial', V2+'C50_epc_timer_wrong', V2+'C50_throttling_partial', V2+'C50_throttling_wrong',
  V2+'C50_time_zone', V2+'C50_time_zone_limit', V2+'C50_timestamp_partial', V2+'C50_timestamp_before_1970', V2+'C50_delay_value_partial', V2+'C50_delay_value_wrong', V2+'C50_new_delay_value', V2+'C50_new_delay_multiple', V2+'C50_timer_raw']
c('C48', 'partial', C48, 'all typed accessors of GTPv2, GTPv1 and GTPv0; the prefix accessors of the TFT, the GUTI structure and the GTPv1 AUTN accessor panic (proved, with the exact condition)')
c('C50', 'partial', C50, 'every structured GTPv2 IE; where the code returns something else (TEID of S1-U data forwarding, paging flags, CMI of user CSG information, PLMN of the GUTI structure, inexpressible timers, delay value, times before 1970) the departure is proved')

c('C55', 'partial', [V2+'C55_uint8', V2+'C55_uint16', V2+'C55_uint32', V2+'C55_string', V2+'C55_name', V2+'C55_name_long', V2+'C55_others'],
  'every plain IE and value; names only with labels of at most 255 octets (longer ones are lost, proved)')
c('C56', 'partial', [V2+'C56_cause_partial', V2+'C56_cause_flags_wrong', V2+'C56_bearer_flags', V2+'C56_never_reported', V2+'C56_mbms_flags', V2+'C56_node_features'],
  'cause value, offending IE and the flags read from the right bit; the CS/BCE accessors are swapped, two others read the wrong bit, four flags are never reported (all proved)')
c('C57', 'partial', [V2+'C57_partial', V2+'C57_causeFlags_wrong'],
  'all accessors but CauseFlags, which returns the cause value on a Bearer Context (proved)')

c('C49', 'partial', [V2+'C49_partial', V2+'C49_remove', V2+'C49_built', V2+'C49_damages', V2+'C49_wrong'],
  'removing always, adding for the elements before the edited one, and for all of them when it is the last one or the first child does not fit into the rest of the buffer; otherwise Add writes over the following elements (proved, C49_damages)')

c('C58', 'partial', [T+'C58_types', T+'C58_uint8', T+'C58_uint16', T+'C58_uint32', T+'C58_bool', T+'C58_raw', T+'C58_teid', T+'C58_flow_label_ii', T+'C58_others', T+'C58_flag_names', T+'C58_flag_all', T+'C58_flags', T+'C58_flags_ii', T+'C58_flag_get'],
  'every plain IE and value; only the empty value of a private extension cannot be read back (part of C58_others)')
c('C59', 'partial', [T+'C59_apn_v1', T+'C59_apn_v0_partial', T+'C59_apn_v0_never', T+'C59_uli', T+'C59_uli_rai', T+'C59_rai_v1_partial', T+'C59_rai_v1_wrong', T+'C59_rai_v1_panics', T+'C59_rai_v0_partial', T+'C59_rai_v0_wrong',
  T+'C59_gsn_v1', T+'C59_address_v0', T+'C59_eua', T+'C59_eua_kinds', T+'C59_eua_ppp_partial', T+'C59_eua_ppp_wrong', T+'C59_time_zone', T+'C59_timestamp_partial', T+'C59_timestamp_before_1970',
  T+'C59_triplet', T+'C59_quintuplet_partial', T+'C59_autn_wrong', T+'C59_xres_any_type', T+'C59_qos_partial', T+'C59_qos_wrong', T+'C59_pco'],
  'all of them; departures proved: GTPv0 APN accessor, three-digit MNC in the GTPv1 RAI, MCC/MNC of the GTPv0 RAI, PPP type number, AUTN, GTPv0 delay/peak/mean classes, times before 1970')

c('C60', 'partial', [K+x for x in ['C60_by_name', 'C60_default', 'C60_table_kept', 'C60_by_ebi', 'C60_name_by_ebi_partial', 'C60_remove_by_ebi_partial', 'C60_unique_ebi_partial', 'C60_ebi_by_teid', 'C60_bearers', 'C60_count', 'C60_conn_count', 'C60_empty_name', 'C60_nil_panics', 'C60_remove_race']],
  'for tables without nil bearers and sequential calls, all of it but: the name of a bearer named "" is not found by identity, nor is that bearer removed by identity. A nil bearer makes lookups panic, and RemoveBearerByEBI is not atomic (each proved by a witness)')
c('C61', 'partial', [K+x for x in ['C61_contents_partial', 'C61_accepts', 'C61_built_partial', 'C61_gbr_down_wrong', 'C61_pci_pvi_wrong']],
  'never panics, accepts exactly the readable lists; all values but three of the QoS: guaranteed bit rate downlink is that of the uplink, the pre-emption flags are always false (proved)')
c('C62', 'partial', [K+x for x in ['C62_by_teid', 'C62_by_imsi_partial', 'C62_imsi_first', 'C62_order_wrong', 'C62_nothing_else', 'C62_error_partial', 'C62_error_leak']],
  'by TEID always, by IMSI when it precedes the F-TEID; with the other order, and after errors, the tables are wrong (proved)')
c('C63', 'partial', [K+x for x in ['C63_requests', 'C63_echo', 'C63_create_partial', 'C63_send_failure', 'C63_create_leak']],
  'holds but for Create Session Requests with both a private extension and additional elements. A failed send uses no number when no other goroutine sends meanwhile and the counter is below 0x7fffff (interleavings: C30). When the send fails the created session stays registered (proved)')

R = 'Verif.V1.URelay.'
c('C64', 'partial', [R+x for x in ['C64_only_read', 'C64_no_crash', 'C64_all_forwarded', 'C64_forward', 'C64_forward_closed', 'C64_cut', 'C64_peers', 'C64_stops', 'C64_one_table_wrong', 'C64_closed_conn_floods', 'C64_close_wrong', 'C64_not_by_default', 'C64_header_lost']],
  'what is sent belongs to T-PDUs read, and all of them are forwarded while peers do not change and writes succeed. Departures proved: one table for both directions, a closed connection reads as TEID 0 without end, one more T-PDU per side after Close, second Close panics, nothing is relayed while Error Indications are enabled (the default), sequence number and extension headers are lost')
D = 'Verif.V1.UConn.'
c('C65', 'partial', [K+x for x in ['C65_v2_partial', 'C65_v2_sends', 'C65_v2_any_sender', 'C65_v2_echo_request', 'C65_v2_gives_up']] + [D+x for x in ['C65_v1_partial', 'C65_v1_request', 'C65_v1_nil_nil', 'C65_v1_blocks', 'C65_v1_any_sender']],
  'exact conditions of every outcome; departures proved: any sender and any sequence number, Dial also takes an Echo Request and gives up on any other message, DialUPlane returns neither connection nor error when the context is done and waits for ever after a message of another type')
L = 'Verif.Lifecycle.'
c('C66', 'partial', [L+x for x in ['C66_socket_partial', 'C66_result', 'C66_stops', 'C66_v1_at_most_one', 'C66_v2_unbounded', 'C66_close_twice', 'C66_close_without_serve', 'C66_error_leaks']],
  'Serve called at most once. Stopping and results for every schedule; departures proved: any number of datagrams may be handled between Close and the closing of the socket in GTPv2 (at most one in GTPv1), Close without Serve and a failed read leave the socket open, second Close panics')
c('C67', 'partial', [V2+'C07_short_refused',V2+'C07_grouped_short_wrong',V2+'C67_v2_header_wrong',V2+'C67_v2_message_wrong',T+'C67_v1_ie',T+'C67_v1_ie_stale',V1+'C67_v1_header',V1+'C67_v1_message',V1+'C67_v1_stale',V0+'C67_v0_header',V0+'C67_v0_message'],
  'holds for GTPv1, GTPv0 and plain GTPv2 elements; GTPv2 headers and messages always panic and grouped elements are always cut (proved). Buffers whose capacity equals their length. With only the S flag, a GTPv1 header leaves two octets of the buffer as they were')
c('C68', 'partial', [V2+'C68_first_only_partial',V2+'C68_piggyback_wrong'],
  'the first message is handled as if alone, whatever follows; a piggybacked message is never handled (proved)')
N = 'Verif.V1.Tunnel.'
c('C69', 'partial', [N+x for x in ['C69_returns', 'C69_frame', 'C69_not_enabled', 'C69_no_device', 'C69_add_iff', 'C69_add', 'C69_add_fails', 'C69_override', 'C69_override_succeeds', 'C69_override_fails', 'C69_del_itei_iff', 'C69_del_itei', 'C69_del_ms_iff', 'C69_del_ms', 'C69_del_fails', 'C69_enable', 'C69_enable_succeeds', 'C69_enable_fails', 'C69_relay_refused', 'C69_relay_accepted', 'C69_shutdown', 'C69_shutdown_off', 'C69_distinct', 'C69_origin', 'C69_kept', 'C69_reserved', 'C69_replaced_teid_kept_wrong', 'C69_override_fails_wrong', 'C69_overlap_wrong', 'C69_enable_retry_wrong', 'C69_enable_twice_wrong']],
  'the kernel is assumed as in Model/Tunnel.lean. Departures proved: AddTunnelOverride that fails may have deleted the old tunnel, the TEID of a tunnel it replaced stays in use for ever, overlapping calls may delete a tunnel of another subscriber installed meanwhile, a failed EnableKernelGTP cannot be repeated with the same name, and repeated with a name in use cuts the connection off from its tunnels')
c('C70', 'partial', ['Verif.V2.'+x for x in ['C70_v2_piggybacking', 'C70_v2_sequence', 'C70_v2_teid', 'C70_v2_priority_partial', 'C70_v2_priority_wrong', 'C70_v2_wire', 'C70_v2_teid_wrong']] + ['Verif.V1.'+x for x in ['C70_v1_sequence', 'C70_v1_npdu', 'C70_v1_teid_wrong', 'C70_v1_next_type_wrong']] + ['Verif.V0.C70_v0_tid'],
  'proved for SetPiggybacking, SetSequenceNumber, SetNPDUNumber, SetTEID of a GTPv2 header that has one, and TID. Departures proved: SetMessagePriority keeps the upper half of its argument, so the priorities 0 to 15 all become 0; SetTEID on a GTPv2 header without TEID leaves Length, and four octets of payload are lost; SetTEID of GTPv1 sets a spare bit; SetNextExtensionHeaderType leaves Length and extension headers')
O = 'Verif.Locks.'
c('C71', 'partial', [O+x for x in ['C71_no_deadlock_partial', 'C71_wait_without_mutex', 'C71_end_without_mutex', 'C71_can_finish_partial', 'C71_enable_logging_wrong']],
  'every function but EnableLogging, which takes the mutex of the logger twice: it never returns, and everything that logs afterwards is blocked for ever (proved, both packages)')
c('C72', 'partial', [O+x for x in ['C72_no_race_partial', 'C72_races_wrong', 'C72_complete']],
  'the sequence number, the state of sessions, the table of a Relay, the loggers and the table of grouped types are never raced for; every other variable is, with two calls and a schedule for each (proved)')
Q = 'Verif.Consts.'
c('C73', 'partial', [Q+x for x in ['C73_message_types', 'C73_message_types_v1_partial', 'C73_message_types_wrong', 'C73_message_types_distinct', 'C73_extension_headers', 'C73_ie_types', 'C73_ie_types_distinct', 'C73_causes', 'C73_codes_v2', 'C73_renamed', 'C73_codes_v1', 'C73_message_names', 'C73_message_names_v1_partial', 'C73_message_names_wrong', 'C73_ie_names_v0', 'C73_ie_names_v1_partial', 'C73_ie_names_v1_wrong', 'C73_ie_names_v2_partial', 'C73_ie_names_v2_wrong']],
  'holds but for: five GTPv1 message types of mobility management (56 to 60 in place of 48 to 52), the spelling of the name of a GTPv1 Error Indication, the names of GTPv1 elements of fixed length (all Undefined) and of GTPv2 elements 120, 121, 122 and 130 (all proved). Selection modes of GTPv0 and GTPv1 have their spare bits set in the constant. The tables of the standards are from memory, no copy was at hand; entries and identifiers follow the library, so missing entries are not noticed')
G = 'Verif.Datagrams.'
c('C74', 'partial', [G+x for x in ['C74_own_octets', 'C74_once', 'C74_none_lost', 'C74_no_interference', 'C74_order_wrong', 'C74_long_wrong']],
  'exactly once, own sender and own octets for every schedule. Departures proved: the order of arrival is not kept, and of a datagram of more than 1500 octets only the first 1500 are handled, as a GTPv2 message without its last elements when the cut falls between two')
c('C75', 'partial', [V2+x for x in ['C75_bearer_contexts', 'C75_empty_wrong', 'C75_templates_partial', 'C75_params_lost']],
  'holds for the fourteen constructors of Bearer Contexts with at least one element given and for the twelve constructors of templates with no parameter or an odd number of them. Departures proved: a Bearer Context of nothing cannot be read, and an even number of parameters is not seen by the receiver')
c('C76', 'partial', [V2+x for x in ['C76_addr', 'C76_identity', 'C76_qos', 'C76_plain', 'C76_tables', 'C76_flags', 'C76_bearer', 'C76_uli_old']] + [T+x for x in ['C76_v1', 'C76_v0', 'C76_v1_tables', 'C76_xres_partial']],
  'holds but for two accessors, which do not look at the type (proved): the deprecated UserLocationInfo of GTPv2, and XRES of GTPv1 on an element with an empty payload. The accessors for raw values (ValueAsUint8 and so on) are meant for any type and not covered')
c('C77', 'partial', [V2+x for x in ['C77_v2_partial', 'C77_v2_start', 'C77_v2_start_built', 'C77_v2_edits', 'C77_v2_replace_partial', 'C77_v2_every_field_partial', 'C77_contextResponse_silent', 'C77_contextResponse_mm']] + [V1+x for x in ['C77_v1_partial', 'C77_v1_start', 'C77_v1_start_built', 'C77_v1_edits_partial', 'C77_v1_every_field', 'C77_v1_stale', 'C77_v1_clear_moves']] + [V0+x for x in ['C77_v0_partial', 'C77_v0_start', 'C77_v0_start_built', 'C77_v0_edits_partial', 'C77_v0_every_field', 'C77_v0_stale']],
  'holds for messages below 64 KiB (and of 12 octets or more, GTPv2). Departures proved: three fields of Context Response are never sent and a fourth arrives elsewhere; in GTPv1 and GTPv0 clearing the first of two fields for elements of one type moves the second; messages of the types of C24, once received or serialised, cannot be sent with other elements; Create Session Request with private extension and additional IEs is left out (C16)')
c('C78', 'partial', [V2+x for x in ['C78_generic', 'C78_generic_value', 'C78_identity', 'C78_qos', 'C78_plain', 'C78_fteid', 'C78_paa', 'C78_uli', 'C78_s103', 'C78_s1udf', 'C78_ip_short', 'C78_flags', 'C78_signature_wrong', 'C78_ip_wrong', 'C78_lists_wrong', 'C78_gre_wrong']] + [T+x for x in ['C78_v1', 'C78_v0', 'C78_v1_tables', 'C78_location', 'C78_quintuplet', 'C78_mnc0_wrong', 'C78_signature_wrong', 'C78_autn_wrong']],
  'holds for the accessors listed. Departures proved: P-TMSI Signature returns 0 for a payload of another size, IP accepts five octets as an address, FQ-CSID and EBIs accept lists shorter than announced, GREKey of a tunnel endpoint needs an octet too many, MNC of GTPv0 does not need its third octet, AUTN of GTPv1 panics on 50 octets, XRES of an empty element is no error (C76). Yes-no accessors looking into a Bearer Context are treated on the elements inside')
c('C79', 'partial', [V2+x for x in ['C79_trace', 'C79_uci', 'C79_guti', 'C79_ambr', 'C79_bearer_qos', 'C79_flow_qos', 'C79_throttling', 'C79_ran_nas', 'C79_paging', 'C79_fteid', 'C79_paa', 'C79_s1udf', 'C79_uli', 'C79_tft_component', 'C79_tft_filter', 'C79_tft_parameter', 'C79_s103_partial', 'C79_csid_partial', 'C79_tft_partial', 'C79_container_partial', 'C79_pco_partial', 'C79_pco_v1_partial', 'C79_ppp_partial', 'C79_pap_partial', 'C79_chap_partial', 'C79_ipcp_partial', 'C79_ppp_short', 'C79_ipcp_short', 'C79_chap_short', 'C79_container_short', 'C79_pco_short', 'C79_pco_v1_short', 'C79_csid_short', 'C79_tft_short', 'C79_csid_wrong', 'C79_tft_wrong', 'C79_container_wrong', 'C79_ppp_wrong', 'C79_chap_wrong', 'C79_ipcp_wrong', 'C79_stale_wrong']],
  'both halves for sixteen structures (with valid PLMNs, and addresses of the announced kind and length). For the others the half on large buffers, and for every short one what happens instead (the _short theorems, C79_s103_partial and C79_pap_partial): S103 and PAP panic on exactly one length, templates exactly when the buffer ends within a list of filters to delete; containers panic below three octets and are cut otherwise, so lists of them panic unless the buffer ends behind the header of the last one; FQ-CSID, PPP, CHAP and IPCP are cut without an error from some length on. PPP and IPCP without payload refuse a buffer of the announced length. A missing address or an invalid PLMN of a GUTI leaves old octets in the buffer')
c('C80', 'partial', [V2+'C80_v2_partial', V2+'C80_v2_new_partial', V2+'C80_v2_generic', V2+'C80_v2_no_teid_wrong', V1+'C80_v1_partial', V1+'C80_v1_new', V0+'C80_v0_partial', V0+'C80_v0_new'],
  'all message types of the three versions; GTPv2 Create Session Request only without private extension or without additional IEs, GTPv1 and GTPv0 types that cannot be serialised after being received or serialised (C24) only before that. Departure proved: a GTPv2 Generic message without TEID shows 4 until serialised, whatever its elements')
c('C81', 'partial', [V2+'C81_v2_build', V2+'C81_v2_received', V2+'C81_v2_no_teid_partial', V1+'C81_v1_build', V1+'C81_v1_received', V0+'C81_v0_build', V0+'C81_v0_received'],
  'holds but for messages without TEID below 12 octets, which the receiver refuses (C18); received GTPv1 and GTPv0 elements must be well-formed with a value (C19)')
c('C82', 'partial', ['Verif.Listen.'+x for x in ['C82_v2_again_partial', 'C82_v1_first_partial', 'C82_no_panic', 'C82_stops', 'C82_v1_never_again', 'C82_v1_again_nil', 'C82_v1_no_ip', 'C82_unopened', 'C82_v2_serve_unopened', 'C82_v2_failed_listen', 'C82_v2_listen_twice', 'C82_v2_failed_listen_stop', 'C82_v1_watcher', 'C82_v1_race', 'C82_lost', 'C82_old_context']],
  'GTPv2 once the earlier calls have been stopped, GTPv1 until the first success; on one socket no number of calls panics but a second Close, and all calls stop together. Departures proved: a GTPv1 connection never receives again after its socket was closed, and says nil; with a local address without IP it keeps the socket it refuses to use; use without a socket panics; a second Listen that is refused takes the socket away from the running Serve, which panics at the next datagram, read error, Close or end of its context; likewise of two overlapping first calls of ListenAndServe on a given port the refused one makes the other panic; a socket replaced by another Listen is never closed; the context of a call that failed closes the socket of its successor')
c('C83', 'partial', [V2+'Exchange.'+x for x in ['C83_answers', 'C83_own_partial', 'C83_delivered_partial', 'C83_leftover', 'C83_duplicate', 'C83_late', 'C83_stolen']],
  'in every execution a message returned by WaitMessage answers a request that went out with the number asked for, and only one request did if no send failed and at most 2^23 numbers were drawn; answers that come once and in time are all delivered. Departures proved: after a failed send that overlapped others two requests share a number, and the waiter of one is given the answer to the other; one answer that comes twice, or after its requester gave up, makes every later exchange in that session fail although its answer is there')
c('C84', 'partial', [V1+'UPath.'+x for x in ['C84_origin', 'C84_written', 'C84_delivered_partial', 'C84_short', 'C84_loop']],
  'origin, wholeness and way hold in every execution; delivery for payloads of 3 to 1492 octets. Departures proved: 0 to 2 octets are dropped by the first relay, what is longer than 1492 octets is never offered (C84_written), and a tunnel that leads back to its relay sends a datagram round for ever')
NI = 'Verif.NetIP.'
c('C85', 'partial', [NI+x for x in ['C85_accepted', 'C85_roundtrip', 'C85_v4_exact', 'C85_canonical']] + [V2+x for x in ['C85_elements_v2', 'C85_fteid', 'C85_paa_dual_partial', 'C85_csid_partial', 'C85_refused_v2_partial', 'C85_csid_wrong', 'C85_paa_dual_wrong']] + [T+x for x in ['C85_elements_v1', 'C85_refused_v1_partial', 'C85_ppp', 'C85_eua_v0_wrong']],
  'the text functions of the Go standard library are modelled from memory. Accepted texts, carried addresses and printed texts hold for every constructor and accessor, the FQ-CSID with at least one CSID. Departures proved: GTPv0 NewEndUserAddress makes "::" of a text that is no address, NewPDNAddressAllocationDual makes 0.0.0.0 and "::", and NewFullyQualifiedCSID panics on a text that is neither an address nor hexadecimal')
c('C86', 'partial', [NI+'C86_same', NI+'C86_split', 'Verif.C86_peer', 'Verif.C86_gsn_partial', 'Verif.C86_gsn_wrong'],
  'UDP addresses with an IP of 4 or 16 octets. Departure proved: a connection listening on an address with a zone sends Error Indications without a GSN Address')
KV='Verif.Cost.V2.'
c('C87', 'partial', [KV+'C87_same', KV+'C87_same_write', KV+'C87_v2_any_partial', KV+'C87_v2_one', KV+'C87_v2_linear', KV+'C87_v2_datagram', KV+'C87_v2_exact',
  KV+'C87_v2_not_linear', KV+'C87_v2_write', KV+'C87_v2_nodes', 'Verif.Cost.TLV.C87_v01', 'Verif.Cost.C87_ext'],
  'the cost counted is elements made, calls of MarshalLen and depth of recursion, on copies of the modelled parsers and of MarshalTo proved to give the same results. GTPv0, GTPv1 and extension headers are linear. GTPv2 is linear for a fixed depth of nesting. Departure proved: k grouped elements each in the one before (4k octets) take k(k+1)/2 calls of MarshalLen and k nested calls; at most 69751 and 373 in a datagram Serve reads')
c('C88', 'partial', ['Verif.V2.Conn.C88_exchange_partial', 'Verif.V2.Conn.C88_subscriber_partial', 'Verif.V2.Conn.C88_cut'],
  'both directions composed over all states of the two connections. Restrictions: the request does not hold both a private extension and additional elements (C13), no more than 1500 octets, IMSIs of an odd number of digits (15 in practice). For longer messages C88_cut says exactly when and how much of them is handled')
c('C89', 'partial', ['Verif.Cap.'+x for x in ['C89_v1', 'C89_v0', 'C89_v2_ie', 'C89_message', 'C89_untouched', 'C89_v2_header_partial', 'C89_v2_header_outcome', 'C89_v2_header', 'C89_v2_message']],
  'holds for elements of all versions and for GTPv1 and GTPv0 headers, extension headers, T-PDUs and messages, whatever they hold; for GTPv2 headers if the buffer is large enough. Departure proved for every GTPv2 header and message: a buffer that is too small but holds the first 8 or 12 octets is accepted if its capacity suffices, and the octets behind it are overwritten. The structures inside elements (C79) are treated with capacity = length only')
c('C90', 'proved', [V2+x for x in ['C90_v2_new_named', 'C90_v2_new', 'C90_v2_parse']] + [V1+x for x in ['C90_v1_new_named', 'C90_v1_new', 'C90_v1_parse']] + [V0+x for x in ['C90_v0_new_named', 'C90_v0_new', 'C90_v0_parse']],
  'parsing is stated for datagrams with a header and elements that can be represented; an element is said to have no field of its own if, given four times over, it comes to AdditionalIEs')
c('C91', 'partial', [V2+x for x in ['C91_v2_new', 'C91_v2_parse_partial', 'C91_v2_last_wins']] + [V1+x for x in ['C91_v1_new', 'C91_v1_parse_partial']] + [V0+x for x in ['C91_v0_new', 'C91_v0_parse_partial']],
  'exact for every field but AdditionalIEs of every message type. Departure proved: a field for one element keeps the last one, not the first; the last of several places of a type keeps the last of the elements left in most messages (tables seatsNew, seatsParse, seats)')
c('C92', 'partial', [V2+x for x in ['C92_v2_partial', 'C92_boundary_wrong', 'C92_one_octet_wrong']] + [V1+x for x in ['C92_v1_partial', 'C92_relay_wrong']] + [V0+x for x in ['C92_v0_partial', 'C92_v0_boundary_wrong', 'C92_v0_tpdu_wrong']],
  'GTPv1 refuses every cut. Departures proved: GTPv2 and GTPv0 messages cut at the end of the header, between two elements, or one octet behind the header are read as messages that end there; GTPv0 T-PDUs are read with the part of the payload that is there; a T-PDU with a relay entry is forwarded cut, with its old Length. The endpoint part is proved for GTPv2 (nothing happens when the parser refuses) and GTPv1; there is no GTPv0 endpoint in the library')
c('C93', 'partial', [V2+x for x in ['C93_v2_header_partial', 'C93_v2_header_octets', 'C93_v2_teid_stale', 'C93_v2_ie_partial', 'C93_v2_ie_octets', 'C93_v2_children_stale']] + [V1+x for x in ['C93_v1_ext_partial', 'C93_v1_header_partial', 'C93_v1_header_octets', 'C93_v1_header_stale']] + [V0+'C93_v0_header'] + ['Verif.TLV.'+x for x in ['C93_tlv_partial', 'C93_tlv_unknown_wrong', 'C93_ehtl_wrong']] + ['Verif.Msg.'+x for x in ['C93_message_fresh', 'C93_message_partial', 'C93_message_both_wrong', 'C93_message_stale', 'C93_message_additional_wrong', 'C93_generic_partial']],
  'exact for every type. Holds for GTPv0 headers and messages without elements. Departures proved: TEID, sequence number, N-PDU number and extension headers stay when the flag is not set, children stay in an element that is not grouped (none of these is written when serialising); the type of an extension header is not set; an element of an unknown type below 128 takes as many octets as the old payload had, and an Extension Header Type List is refused if that was too long; the elements of a message are added to those it had. What a value holds after an error is not modelled')
c('C94', 'partial', ['Verif.V2.Conn.'+x for x in ['C94_exchange_partial', 'C94_stranger', 'C94_life_partial']],
  'both nodes in any state with validation on. Restrictions: messages of no more than 1500 octets; the elements that C13 leaves out for Context Response, Create Bearer Response and Create Session Request; Echo with at least one element (C18). Create Session with several F-TEIDs of the own interface type leaves the session reachable under the earlier ones after RemoveSession (C33_old_teid_remains)')
c('C95', 'partial', [V1+'UConn.'+x for x in ['C95_u_ends', 'C95_u_echo', 'C95_u_echo_any', 'C95_u_error_partial', 'C95_u_respond_partial', 'C95_zone_crash']] + ['Verif.V2.Conn.'+x for x in ['C95_v2_ends', 'C95_v2_echo']],
  'that nothing is sent in return holds for every datagram and every state; on the control plane given that the answering side has not declared element type 3 (Recovery) grouped, on the user plane given that the IP address of the answering side has 4 or 16 octets. That the receiver does not panic needs, on the user plane, that the answering side has an IP address in the text of its local address; otherwise its Error Indication makes any endpoint with the default handler panic (proved). Error Indications are proved for payloads of up to 1492 octets, and of at least 3 octets once the receiver has a relay (C37). RespondTo is proved on the user plane for messages of up to 1500 octets, elements that survive the wire, and all types but End Marker and Supported Extension Headers Notification; for the control plane see C94')
c('C96', 'partial', [V2+x for x in ['C96_fresh', 'C96_fteid_partial', 'C96_fteid_marshal_partial', 'C96_uli_partial', 'C96_uli_marshal', 'C96_paa_partial', 'C96_paa_marshal', 'C96_paging_partial', 'C96_paging_marshal', 'C96_container_partial', 'C96_container_marshal_partial', 'C96_pco_partial', 'C96_pco_marshal_partial', 'C96_csid_partial', 'C96_csid_marshal_partial', 'C96_tft_partial', 'C96_tft_marshal_partial']] + ['Verif.TLV.'+x for x in ['C96_pco_v1_partial', 'C96_pco_v1_marshal_partial']],
  'exact for all 25 structures. Holds for 17 of them (C96_fresh). Left over: the locations of a ULI, the addresses of a PAA and the policy of Paging and Service Information that the new octets do not announce, which are not sent; the addresses of an F-TEID, which make Marshal fail; the contents of a container, which count for its length and are sent if the new octets are cut short; the containers of PCO (both versions) and the CSIDs of an FQ-CSID, which are sent along; the filters, identifiers and parameters of a template, which are sent as zeros or along. The theorems on what is sent assume that the old IPv4 address of an F-TEID is one (to4), and that old parameters and all containers have the right length octet. What a structure holds after an error is not modelled')
c('C97', 'partial', [V2+x for x in ['C97_plmn', 'C97_ambr', 'C97_bearerQoS', 'C97_flowQoS', 'C97_s1udf', 'C97_s103', 'C97_fteid', 'C97_paa', 'C97_container', 'C97_pco', 'C97_pco_v1', 'C97_ppp_partial', 'C97_pap', 'C97_chap', 'C97_ipcp_partial', 'C97_rannas', 'C97_throttling_partial', 'C97_paging_wrong', 'C97_trace', 'C97_uci', 'C97_guti_wrong', 'C97_csid', 'C97_uli', 'C97_comp', 'C97_param', 'C97_filter', 'C97_tft_partial', 'C97_tft_wrong']],
  'exact for 26 structures and the PLMN. Departures proved: a GUTI comes out with its PLMN moved by one octet, Paging and Service Information with its first octet in place of the flags; an even number of parameters of a template is not announced any more; a PPP packet or IPCP option without payload cannot be serialised; the value of Throttling units 5 to 7 is replaced by zero. Besides spare bits, the number of filters of template operations that have none is cleared and the extension bit of PCO is set')
c('C98', 'partial', ['Verif.V2.Pgw.'+x for x in ['C98_safe', 'C98_tables', 'C98_create_partial', 'C98_answered_iff', 'C98_incomplete', 'C98_delete', 'C98_refused', 'C98_life_partial', 'C98_unwritten_wrong', 'C98_window_wrong', 'C98_halves', 'C98_race_wrong', 'C98_v6_wrong']],
  'for a P-GW on IPv4 addresses whose datagrams are handled one after the other and whose writes succeed, and element types filed as grouped as the library does at the start: exact for every sequence of datagrams. Create Session is proved if the EBIs in the Bearer Context agree and none of its F-TEIDs is of the interface type of the S-GW control plane. Departures proved: an incomplete request removes the session of its IMSI, whoever sends it; if the answer cannot be written, or before the session is registered, a message with the new TEID crashes the P-GW; two requests for one subscriber at the same time leave two sessions, of which one is not found by its IMSI; on an IPv6 address the answer has no address for the control plane, and a request with an FQ-CSID crashes the P-GW. Not modelled: its logging and metrics; kernel tunnels are in C106')
c('C99', 'partial', ['Verif.V2.Sgw.'+x for x in ['C99_forward_partial', 'C99_attach_partial']],
  'for gateways on IPv4 addresses, a request of at most 1424 octets, element types filed as grouped as the library does at the start, successful writes, and one datagram handled after the other (a handler that waits is cut at WaitMessage); the S-GW starts from any state that any sequence of datagrams, woken and expired handlers leads to. Departure, visible in the statement: whatever bearer the MME asks for, the P-GW is asked for one with EBI 5 and a fixed quality of service')
c('C100', 'partial', ['Verif.V2.Sgw.'+x for x in ['C100_modify_partial', 'C100_detach_partial', 'C100_life_partial', 'C100_timeout_partial', 'C100_refused_partial',
  'C100_modify_wrong', 'C100_intruder_wrong', 'C100_delete_wrong']],
  'with the limits of C99, user data relayed by the program itself and not by the kernel, an eNodeB on IPv4 whose F-TEID has an interface type other than 1, 10 and 11, both sockets for user data open, and an empty queue of the session before the detach. Departures, proved as they are: the EBI in the answer to Modify Bearer is 0; after a time-out the session on S5 stays; the cause of a refusal never reaches the MME; Modify Bearer crashes the S-GW if the P-GW gave no F-TEID for user data; a stranger ends the S11 session of a subscriber with an incomplete request; a detach without a session on S5 is not answered')
c('C101', 'proved', ['Verif.V2.'+x for x in ['C101_plain', 'C101_identity', 'C101_addresses', 'C101_bearers', 'C101_uses', 'C101_others']],
  'every modelled constructor; the type numbers of the standard are from memory (C73)')
c('C102', 'partial', ['Verif.V2.Mme.'+x for x in ['C102_answers', 'C102_once', 'C102_attach_partial', 'C102_no_address', 'C102_timeout', 'C102_refused',
  'C102_location_wrong', 'C102_nowhere_wrong', 'C102_token_wrong', 'C102_crash_wrong', 'C102_enb_wrong', 'C102_two_wrong', 'C102_stuck_wrong']],
  'answers: for every history until a crash. The request: for IPv4 addresses, an IMSI with an odd number of digits, an access point name of at most 100 octets, element types filed as grouped as the library does at the start and a successful write. The goroutine of a call is cut where it waits; the data races on the shared fields of the MME are not modelled. Departures proved: tracking area and cell of the call are ignored; a call without a location, and a Create Session Response with TEID 0 from anyone, crash the MME; an answer wakes whichever call waits, so that one answer can make two calls fail; all calls share one place for the address of the eNB, so that the S-GW is told the TEID of one eNB with the address of another; after a time-out the session stays, and the goroutine of a failed call can go on and never end')
c('C103', 'partial', ['Verif.V2.Mme.C103_attach_partial'],
  'with the limits of C99, C100 and C102: IPv4, an IMSI with an odd number of digits, nothing is lost, and the events of this attach follow one another; each of the three starts from any state that any of its own events can lead to')
c('C104', 'partial', ['Verif.V2.Sgw.'+x for x in ['C104_delete_partial', 'C104_timeout_partial', 'C104_unknown', 'C104_malformed', 'C104_crash_wrong', 'C104_mme_wrong']],
  'with the limits of C99; requests and answers of at most 1496 octets, and no older message in the queue of the session. Departures proved: of several bearers in a request only the first is passed on; the bearer stays in the S11 session, and user data is relayed as before; after a time-out the bearer is deleted although the P-GW is told of a failure; once the bearer is deleted, the Delete Session Request of the MME crashes the S-GW, for every such request and state; the MME of the example ignores the request, so that with it every exchange times out')
c('C105', 'partial', ['Verif.V2.'+x for x in ['C105_addr', 'C105_identity', 'C105_qos', 'C105_plain', 'C105_tables']] + ['Verif.TLV.'+x for x in ['C105_v1', 'C105_v0', 'C105_v1_tables', 'C105_xres', 'C105_autn_partial']],
  'all 158 of them but MustAUTN of GTPv1, which panics on exactly the quintuplets of 50 octets (proved). On a nil element all of them panic. That every accessor returns the zero value together with an error was checked in the text of the functions')
c('C106', 'partial', ['Verif.V2.Pgw.'+x for x in ['C106_safe', 'C106_attach_partial', 'C106_undisturbed', 'C106_detach_wrong', 'C106_unset_wrong', 'C106_taken_wrong']],
  'for a P-GW on IPv4 addresses and IPv4 subscribers, datagrams handled one after the other, successful writes, free TEIDs drawn, and with the limits of C98; the kernel is assumed as in Model/Tunnel.lean and Model/PgwKernel.lean. Departures proved: a detach leaves tunnel, route, rule and TEID behind; the request is accepted before the tunnel is made, and if that fails nobody is told; a request of another subscriber for the same address takes its packets over while the first session stays active; a subscriber who attaches again makes the handler return an error. Not modelled: what the P-GW removes when it stops')
c('C107', 'partial', ['Verif.Msg.C107_fields'] + ['Verif.V2.'+x for x in ['C107_new', 'C107_grouped', 'C107_session', 'C107_sent_partial', 'C107_sent_wrong', 'C107_generic_wrong']] + ['Verif.V1.C107_new', 'Verif.V1.C107_sent', 'Verif.V0.C107_new', 'Verif.V0.C107_sent'],
  'GTPv1, GTPv0, all constructors of messages and grouped elements, Add and CreateSession: no exception. GTPv2 fields: every field for one element and AdditionalIEs but in Echo Request and Create Session Response. Departures proved: nil in any other list field (BearerContexts and so on), or in AdditionalIEs of those two, makes MarshalLen, Marshal and MarshalTo panic, whatever else the message holds; NewGeneric and AddIE of GTPv2 panic on nil. Not treated: nil in ChildIEs of an element, nil filters or containers in structures')
c('C108', 'partial', ['Verif.V2.Declare.'+x for x in ['C108_before', 'C108_add', 'C108_set', 'C108_grows']] + ['Verif.V2.'+x for x in ['C108_read', 'C108_reads', 'C108_read_iff', 'C108_reads_iff', 'C108_others', 'C108_written', 'C108_message', 'C108_built_wrong']],
  'The last sentence fails, proved: an element built with data (New and the constructors that use it) whose type is grouped, by the library or by a declaration, is written as four octets that announce the data, and every receiver refuses them. Calls are one after the other; SetIsGroupedFun(nil) is not treated')
c('C109', 'partial', ['Verif.V2.'+x for x in ['C109_now', 'C109_iff', 'C109_numbers', 'C109_element', 'C109_reused_wrong']] + ['Verif.V1.'+x for x in ['C109_now', 'C109_iff', 'C109_numbers']] + ['Verif.V0.C109_now', 'Verif.V0.C109_iff', 'Verif.TLV.C109_element'],
  'Holds for the numbers (flags, types, lengths, TEID, sequence numbers, instances) and for where each element is filed. Departure, with its exact extent: payloads of headers, elements and extension headers are parts of the buffer, so the message is what it was exactly if the buffer still holds these octets. The connections of the library copy each datagram before they parse it (C74), so handlers are not concerned')
c('C110', 'partial', ['Verif.V2.Sgw.'+x for x in ['C110_address_s11', 'C110_address_s5', 'C110_address_wake', 'C110_address_expire', 'C110_undisturbed', 'C110_attach_partial', 'C110_modify_partial', 'C110_answer_partial', 'C110_through_partial', 'C110_fails_wrong', 'C110_detach_wrong', 'C110_close_wrong']],
  'IPv4, nothing lost, one datagram after the other, as C99, C100 and C106; the kernel is assumed (Model/Tunnel.lean, PgwKernel.lean, SgwKernel.lean). Departures: the MME is not told when a tunnel cannot be made, and the other one stays (C110_fails_wrong); a detach leaves both tunnels, which forward on (C110_detach_wrong); close never removes the second route and always has an error, since addRoutes notes the first one twice (C110_close_wrong)')
c('C111', 'partial', ['Verif.V2.'+x for x in ['C111_now', 'C111_copied_partial', 'C111_kept_iff', 'C111_new_wrong', 'C111_address_wrong', 'C111_wrong', 'C111_group_partial', 'C111_group_iff', 'C111_group_wrong', 'C111_nested']] + ['Verif.TLV.'+x for x in ['C111_now', 'C111_copied_partial', 'C111_kept_wrong', 'C111_wrong', 'C111_nested']],
  'Holds for the constructors that make a payload and copy (F-TEID, PDN address allocation, S1-U and S103 forwarding, RAN/NAS cause, private extension, indication, PCO, TFT, end user address, triplet, quintuplet). Departures: New of all versions, NewIPAddressNetIP, NewGSNAddressByIP, NewQoSProfile and NewExtensionHeaderTypeList keep the slice, and the element follows it; a grouped element keeps its payload, but its children follow their slices, and with them what is sent. Groups in groups are not covered')
c('C112', 'partial', ['Verif.V2.'+x for x in ['C112_value', 'C112_now', 'C112_partial', 'C112_written', 'C112_written_wrong', 'C112_follows_wrong', 'C112_wrong', 'C112_ipv6_value', 'C112_ipv6_written', 'C112_ipv6_partial']] + ['Verif.TLV.'+x for x in ['C112_value', 'C112_now', 'C112_partial', 'C112_written', 'C112_written_wrong', 'C112_follows_wrong', 'C112_wrong']],
  'Departure: all these accessors return a part of the payload itself, but IPv6 for an address of four octets, which is copied. Proved: the caller gets the right octets; what it writes there is in the element, exactly there, and everything else stays; what it keeps is the part of the element as it is when looked at')
