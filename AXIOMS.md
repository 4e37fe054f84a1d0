# Axioms of the property theorems

Written by tools/axioms.py from `#print axioms`; 946 theorems.

## none (26)

* `Verif.TLV.C109_element`
* `Verif.V2.C15_ignored`
* `Verif.V1.C24_stale_types`
* `Verif.V2.Send.C31_only_sequence`
* `Verif.TLV.C58_types`
* `Verif.TLV.C58_flag_all`
* `Verif.V2.Conn.C60_remove_race`
* `Verif.TLV.C67_v1_ie`
* `Verif.TLV.C67_v1_ie_stale`
* `Verif.V0.C67_v0_header`
* `Verif.V2.C70_v2_sequence`
* `Verif.Consts.C73_message_types_distinct`
* `Verif.Consts.C73_ie_types`
* `Verif.Consts.C73_ie_types_distinct`
* `Verif.Consts.C73_renamed`
* `Verif.Consts.C73_ie_names_v0`
* `Verif.Consts.C73_ie_names_v1_partial`
* `Verif.Consts.C73_ie_names_v1_wrong`
* `Verif.Consts.C73_ie_names_v2_wrong`
* `Verif.V2.C79_container_wrong`
* `Verif.V2.C79_ppp_wrong`
* `Verif.V2.C79_chap_wrong`
* `Verif.V2.C79_ipcp_wrong`
* `Verif.Msg.C93_message_fresh`
* `Verif.Msg.C93_message_partial`
* `Verif.Msg.C93_generic_partial`

## propext (53)

* `Verif.Msg.C107_fields`
* `Verif.V0.C107_new`
* `Verif.TLV.C112_wrong`
* `Verif.TLV.C19_no_value`
* `Verif.V1.C21_flags`
* `Verif.V1.C22_comprehension`
* `Verif.V2.Conn.C33_remove_other_by_imsi`
* `Verif.V2.Conn.C33_old_teid_remains`
* `Verif.V2.Conn.C33_remove_other_by_teid`
* `Verif.V2.Conn.C33_imsi_change`
* `Verif.V2.C45_complete`
* `Verif.V2.C47_ipcp_addr`
* `Verif.V2.C47_ppp_empty`
* `Verif.V2.C47_empty_fails`
* `Verif.V2.C57_causeFlags_wrong`
* `Verif.TLV.C58_flag_names`
* `Verif.TLV.C59_eua_ppp_wrong`
* `Verif.TLV.C59_timestamp_before_1970`
* `Verif.TLV.C59_xres_any_type`
* `Verif.V2.Conn.C60_default`
* `Verif.V2.Conn.C60_empty_name`
* `Verif.Lifecycle.C66_result`
* `Verif.V1.Tunnel.C69_not_enabled`
* `Verif.V1.Tunnel.C69_add_fails`
* `Verif.V1.Tunnel.C69_relay_refused`
* `Verif.V1.Tunnel.C69_shutdown`
* `Verif.V1.Tunnel.C69_shutdown_off`
* `Verif.V1.Tunnel.C69_override_fails_wrong`
* `Verif.V1.Tunnel.C69_overlap_wrong`
* `Verif.Locks.C72_races_wrong`
* `Verif.Consts.C73_message_types`
* `Verif.Consts.C73_message_types_v1_partial`
* `Verif.Consts.C73_extension_headers`
* `Verif.Consts.C73_causes`
* `Verif.Consts.C73_codes_v2`
* `Verif.Consts.C73_codes_v1`
* `Verif.Consts.C73_message_names`
* `Verif.Consts.C73_message_names_v1_partial`
* `Verif.Consts.C73_message_names_wrong`
* `Verif.Consts.C73_ie_names_v2_partial`
* `Verif.Datagrams.C74_order_wrong`
* `Verif.V2.C76_tables`
* `Verif.TLV.C76_xres_partial`
* `Verif.TLV.C78_autn_wrong`
* `Verif.Listen.C82_unopened`
* `Verif.Listen.C82_v2_serve_unopened`
* `Verif.Listen.C82_v1_watcher`
* `Verif.V2.C93_v2_ie_partial`
* `Verif.V2.C93_v2_children_stale`
* `Verif.V0.C93_v0_header`
* `Verif.TLV.C93_tlv_partial`
* `Verif.Msg.C93_message_stale`
* `Verif.Msg.C93_message_additional_wrong`

## propext, Quot.sound (379)

* `Verif.Utils.C01_octets`
* `Verif.Utils.C01_even`
* `Verif.Utils.C01_odd`
* `Verif.Utils.C01_unpack_returns`
* `Verif.Utils.C02_plmn_octets`
* `Verif.Utils.C02_plmn_round_trip`
* `Verif.Utils.C02_plmn_injective`
* `Verif.Utils.C03_uint24`
* `Verif.Utils.C03_uint24_bytes`
* `Verif.Utils.C03_uint40`
* `Verif.Utils.C03_uint40_bytes`
* `Verif.Utils.C03_eci`
* `Verif.Utils.C04_labels`
* `Verif.Utils.C04_fqdn_decode_returns`
* `Verif.V2.C05_ies_round_trip`
* `Verif.V2.C05_new_wf`
* `Verif.V2.C07_marshalLen_exact`
* `Verif.V2.C08_not_grouped`
* `Verif.V2.C09_new_header`
* `Verif.V2.C09_short_header_rejected`
* `Verif.V2.C10_accessors`
* `Verif.V2.Sgw.C100_modify_wrong`
* `Verif.V2.Sgw.C100_intruder_wrong`
* `Verif.V2.Sgw.C100_delete_wrong`
* `Verif.V2.Mme.C102_no_address`
* `Verif.V2.Mme.C102_timeout`
* `Verif.V2.Mme.C102_location_wrong`
* `Verif.V2.Mme.C102_nowhere_wrong`
* `Verif.V2.Mme.C102_token_wrong`
* `Verif.V2.Mme.C102_two_wrong`
* `Verif.V2.Mme.C102_stuck_wrong`
* `Verif.V2.C105_addr`
* `Verif.V2.C105_identity`
* `Verif.TLV.C105_v1`
* `Verif.TLV.C105_v0`
* `Verif.TLV.C105_v1_tables`
* `Verif.TLV.C105_xres`
* `Verif.V2.C107_new`
* `Verif.V2.C107_grouped`
* `Verif.V2.C107_session`
* `Verif.V1.C107_new`
* `Verif.V2.Declare.C108_before`
* `Verif.V2.Declare.C108_add`
* `Verif.V2.Declare.C108_set`
* `Verif.V2.Declare.C108_grows`
* `Verif.V2.C109_numbers`
* `Verif.V1.C109_numbers`
* `Verif.V2.Sgw.C110_address_s11`
* `Verif.V2.Sgw.C110_address_s5`
* `Verif.V2.Sgw.C110_address_wake`
* `Verif.V2.Sgw.C110_address_expire`
* `Verif.V2.C111_copied_partial`
* `Verif.V2.C111_kept_iff`
* `Verif.V2.C111_new_wrong`
* `Verif.V2.C111_wrong`
* `Verif.V2.C111_group_wrong`
* `Verif.V2.C111_nested`
* `Verif.TLV.C111_copied_partial`
* `Verif.TLV.C111_wrong`
* `Verif.TLV.C111_nested`
* `Verif.V2.C112_wrong`
* `Verif.V2.C112_ipv6_value`
* `Verif.V2.C112_ipv6_partial`
* `Verif.TLV.C112_value`
* `Verif.V2.C12_version_not_supported_wrong`
* `Verif.V2.C13_createSessionRequest_overwrites`
* `Verif.V2.C13_contextResponse_loses`
* `Verif.V2.C13_createBearerResponse_loses`
* `Verif.V2.C14_same_filing_partial`
* `Verif.V2.C14_disagreements`
* `Verif.V2.C15_loses`
* `Verif.V2.C15_keeps`
* `Verif.V2.C16_createSessionRequest_wrong`
* `Verif.V2.C17_serialise_twice`
* `Verif.V2.C18_empty_echo_rejected`
* `Verif.V2.C18_unparseable`
* `Verif.V2.C18_newGeneric_nil`
* `Verif.TLV.C19_wrong_size`
* `Verif.TLV.C19_teid_data_ii_wrong`
* `Verif.V1.C21_ext_too_large`
* `Verif.V1.C21_add_twice`
* `Verif.V1.C21_empty_chain`
* `Verif.V1.C22_header_panics`
* `Verif.V1.C22_message_panics`
* `Verif.V1.C24_serialise_twice_partial`
* `Verif.V1.C24_tpdu_twice`
* `Verif.V1.C24_forward_panics`
* `Verif.V0.C24_v0_twice_partial`
* `Verif.V0.C26_partial`
* `Verif.V0.C26_new`
* `Verif.V0.C26_sndcp_lost`
* `Verif.V0.C26_faithful`
* `Verif.V0.C27_tpdu_partial`
* `Verif.V0.C27_decapsulate_faithful`
* `Verif.V0.C27_decapsulate_partial`
* `Verif.Gtp.C28_dispatch`
* `Verif.Gtp.C28_short`
* `Verif.V2.Send.C29_distinct`
* `Verif.V2.Send.C29_wire`
* `Verif.V2.Send.C29_datagrams_distinct`
* `Verif.V2.Send.C30_sequential_partial`
* `Verif.V2.Send.C30_collision`
* `Verif.V2.Send.C31_respond`
* `Verif.V2.Conn.C33_imsi_history`
* `Verif.V2.Conn.C33_count`
* `Verif.V2.Conn.C33_remove_panics`
* `Verif.V2.Conn.C35_version_ignored`
* `Verif.V2.Queue.C36_loses`
* `Verif.V1.UConn.C37_table`
* `Verif.V1.URead.C38_exactly_once`
* `Verif.V1.URead.C38_read`
* `Verif.V1.UConn.C39_error_indication_crashes`
* `Verif.V1.UConn.C39_tiny_crashes`
* `Verif.V1.Dscp.C40_own_value`
* `Verif.V1.Dscp.C40_restored`
* `Verif.V1.Dscp.C40_restore_silent_wrong`
* `Verif.V2.C48_addr`
* `Verif.V2.C42_bearer_qos_pci_wrong`
* `Verif.V2.C42_flow_qos_mbr_wrong`
* `Verif.V2.C48_uli`
* `Verif.V2.C43_old_getter_partial`
* `Verif.V2.C43_old_getter_wrong`
* `Verif.V2.C44_v2_imsi_even_wrong`
* `Verif.TLV.C44_imsi_even_wrong`
* `Verif.TLV.C44_msisdn_odd_wrong`
* `Verif.V2.C48_indication`
* `Verif.V2.C46_in_bearer_context`
* `Verif.V2.C46_components_partial`
* `Verif.V2.C46_ipv6_wrong`
* `Verif.V2.C46_long_filter_wrong`
* `Verif.V2.C47_ppp`
* `Verif.V2.C47_pap`
* `Verif.V2.C47_chap`
* `Verif.V2.C47_ipcp`
* `Verif.V2.C47_truncated_accepted`
* `Verif.V2.C48_identity`
* `Verif.TLV.C48_identity`
* `Verif.V2.C48_tft_prefix_panics`
* `Verif.V2.C48_tft_prefix_panics_iff`
* `Verif.V2.C48_plmn`
* `Verif.V2.C48_guti_partial`
* `Verif.V2.C48_time`
* `Verif.TLV.C48_v1_plain`
* `Verif.TLV.C48_v1_structured`
* `Verif.TLV.C48_autn_partial`
* `Verif.V2.C49_wrong`
* `Verif.V2.C50_s1u_received`
* `Verif.V2.C50_s1u_teid_wrong`
* `Verif.V2.C50_ran_nas_empty`
* `Verif.V2.C50_paging_odd_partial`
* `Verif.V2.C50_paging_wrong`
* `Verif.V2.C50_uci_cmi_wrong`
* `Verif.V2.C50_guti_plmn_wrong`
* `Verif.V2.C50_guti_bad_plmn`
* `Verif.V2.C50_csid_wrong`
* `Verif.V2.C50_epc_timer_partial`
* `Verif.V2.C50_epc_timer_wrong`
* `Verif.V2.C50_throttling_wrong`
* `Verif.V2.C50_time_zone_limit`
* `Verif.V2.C50_timestamp_before_1970`
* `Verif.V2.C50_delay_value_wrong`
* `Verif.FieldTypes.C51_v2_new_partial`
* `Verif.FieldTypes.C51_v2_parse_partial`
* `Verif.FieldTypes.C51_v2_wrong`
* `Verif.FieldTypes.C51_v1_new`
* `Verif.FieldTypes.C51_v1_parse`
* `Verif.FieldTypes.C51_v0_new`
* `Verif.FieldTypes.C51_v0_parse`
* `Verif.V1.C52_v1_third_gateway`
* `Verif.FieldTypes.C54_v2_partial`
* `Verif.FieldTypes.C54_v2_never`
* `Verif.FieldTypes.C54_v1`
* `Verif.FieldTypes.C54_v0`
* `Verif.V2.C55_name_long`
* `Verif.V2.C56_cause_flags_wrong`
* `Verif.V2.C56_node_features`
* `Verif.TLV.C59_apn_v0_never`
* `Verif.TLV.C59_rai_v1_panics`
* `Verif.TLV.C59_rai_v0_wrong`
* `Verif.TLV.C59_autn_wrong`
* `Verif.TLV.C59_qos_wrong`
* `Verif.V2.Conn.C60_by_name`
* `Verif.V2.Conn.C60_table_kept`
* `Verif.V2.Conn.C60_by_ebi`
* `Verif.V2.Conn.C60_name_by_ebi_partial`
* `Verif.V2.Conn.C60_remove_by_ebi_partial`
* `Verif.V2.Conn.C60_unique_ebi_partial`
* `Verif.V2.Conn.C60_ebi_by_teid`
* `Verif.V2.Conn.C60_bearers`
* `Verif.V2.Conn.C60_count`
* `Verif.V2.Conn.C60_conn_count`
* `Verif.V2.Conn.C60_nil_panics`
* `Verif.V2.Conn.C61_contents_partial`
* `Verif.V2.Conn.C61_gbr_down_wrong`
* `Verif.V2.Conn.C61_pci_pvi_wrong`
* `Verif.V2.Conn.C62_by_teid`
* `Verif.V2.Conn.C62_order_wrong`
* `Verif.V2.Conn.C62_error_leak`
* `Verif.V2.Conn.C63_send_failure`
* `Verif.V2.Conn.C63_create_leak`
* `Verif.V1.URelay.C64_stops`
* `Verif.V1.URelay.C64_one_table_wrong`
* `Verif.V1.URelay.C64_closed_conn_floods`
* `Verif.V1.URelay.C64_close_wrong`
* `Verif.V1.URelay.C64_not_by_default`
* `Verif.V1.URelay.C64_header_lost`
* `Verif.V2.Conn.C65_v2_any_sender`
* `Verif.V2.Conn.C65_v2_echo_request`
* `Verif.V2.Conn.C65_v2_gives_up`
* `Verif.V1.UConn.C65_v1_nil_nil`
* `Verif.V1.UConn.C65_v1_blocks`
* `Verif.V1.UConn.C65_v1_any_sender`
* `Verif.Lifecycle.C66_socket_partial`
* `Verif.Lifecycle.C66_stops`
* `Verif.Lifecycle.C66_v1_at_most_one`
* `Verif.Lifecycle.C66_v2_unbounded`
* `Verif.Lifecycle.C66_close_without_serve`
* `Verif.Lifecycle.C66_error_leaks`
* `Verif.V2.C67_v2_header_wrong`
* `Verif.V1.C67_v1_header`
* `Verif.V1.C67_v1_stale`
* `Verif.V2.C68_piggyback_wrong`
* `Verif.V1.Tunnel.C69_returns`
* `Verif.V1.Tunnel.C69_frame`
* `Verif.V1.Tunnel.C69_no_device`
* `Verif.V1.Tunnel.C69_add_iff`
* `Verif.V1.Tunnel.C69_add`
* `Verif.V1.Tunnel.C69_override`
* `Verif.V1.Tunnel.C69_override_succeeds`
* `Verif.V1.Tunnel.C69_override_fails`
* `Verif.V1.Tunnel.C69_del_itei_iff`
* `Verif.V1.Tunnel.C69_del_itei`
* `Verif.V1.Tunnel.C69_del_ms_iff`
* `Verif.V1.Tunnel.C69_del_ms`
* `Verif.V1.Tunnel.C69_del_fails`
* `Verif.V1.Tunnel.C69_enable`
* `Verif.V1.Tunnel.C69_enable_succeeds`
* `Verif.V1.Tunnel.C69_enable_fails`
* `Verif.V1.Tunnel.C69_relay_accepted`
* `Verif.V1.Tunnel.C69_distinct`
* `Verif.V1.Tunnel.C69_reserved`
* `Verif.V1.Tunnel.C69_replaced_teid_kept_wrong`
* `Verif.V1.Tunnel.C69_enable_retry_wrong`
* `Verif.V1.Tunnel.C69_enable_twice_wrong`
* `Verif.V2.C70_v2_piggybacking`
* `Verif.V2.C70_v2_teid`
* `Verif.V2.C70_v2_priority_partial`
* `Verif.V2.C70_v2_priority_wrong`
* `Verif.V1.C70_v1_next_type_wrong`
* `Verif.V0.C70_v0_tid`
* `Verif.Locks.C71_wait_without_mutex`
* `Verif.Locks.C71_end_without_mutex`
* `Verif.Locks.C71_enable_logging_wrong`
* `Verif.Locks.C72_no_race_partial`
* `Verif.Locks.C72_complete`
* `Verif.Consts.C73_message_types_wrong`
* `Verif.Datagrams.C74_long_wrong`
* `Verif.V2.C76_addr`
* `Verif.V2.C76_identity`
* `Verif.V2.C76_qos`
* `Verif.V2.C76_plain`
* `Verif.V2.C76_flags`
* `Verif.V2.C76_uli_old`
* `Verif.TLV.C76_v1`
* `Verif.TLV.C76_v0`
* `Verif.TLV.C76_v1_tables`
* `Verif.V2.C77_v2_every_field_partial`
* `Verif.V2.C77_contextResponse_silent`
* `Verif.V2.C77_contextResponse_mm`
* `Verif.V1.C77_v1_start_built`
* `Verif.V1.C77_v1_every_field`
* `Verif.V1.C77_v1_stale`
* `Verif.V1.C77_v1_clear_moves`
* `Verif.V0.C77_v0_start_built`
* `Verif.V0.C77_v0_edits_partial`
* `Verif.V0.C77_v0_every_field`
* `Verif.V0.C77_v0_stale`
* `Verif.V2.C78_generic_value`
* `Verif.V2.C78_flags`
* `Verif.V2.C78_signature_wrong`
* `Verif.V2.C78_ip_wrong`
* `Verif.V2.C78_lists_wrong`
* `Verif.V2.C78_gre_wrong`
* `Verif.TLV.C78_v1_tables`
* `Verif.TLV.C78_quintuplet`
* `Verif.TLV.C78_mnc0_wrong`
* `Verif.TLV.C78_signature_wrong`
* `Verif.V2.C79_trace`
* `Verif.V2.C79_uci`
* `Verif.V2.C79_guti`
* `Verif.V2.C79_ambr`
* `Verif.V2.C79_bearer_qos`
* `Verif.V2.C79_flow_qos`
* `Verif.V2.C79_throttling`
* `Verif.V2.C79_ran_nas`
* `Verif.V2.C79_paging`
* `Verif.V2.C79_fteid`
* `Verif.V2.C79_paa`
* `Verif.V2.C79_tft_component`
* `Verif.V2.C79_csid_partial`
* `Verif.V2.C79_container_partial`
* `Verif.V2.C79_pco_partial`
* `Verif.V2.C79_pco_v1_partial`
* `Verif.V2.C79_ppp_short`
* `Verif.V2.C79_ipcp_short`
* `Verif.V2.C79_chap_short`
* `Verif.V2.C79_container_short`
* `Verif.V2.C79_csid_short`
* `Verif.V2.C79_csid_wrong`
* `Verif.V2.C79_tft_wrong`
* `Verif.V2.C79_stale_wrong`
* `Verif.V2.C80_v2_no_teid_wrong`
* `Verif.V2.C81_v2_build`
* `Verif.V1.C81_v1_build`
* `Verif.V0.C81_v0_build`
* `Verif.Listen.C82_v2_again_partial`
* `Verif.Listen.C82_v1_first_partial`
* `Verif.Listen.C82_stops`
* `Verif.Listen.C82_v1_never_again`
* `Verif.Listen.C82_v1_again_nil`
* `Verif.Listen.C82_v1_no_ip`
* `Verif.Listen.C82_v2_failed_listen`
* `Verif.Listen.C82_v2_listen_twice`
* `Verif.Listen.C82_v2_failed_listen_stop`
* `Verif.Listen.C82_v1_race`
* `Verif.Listen.C82_lost`
* `Verif.Listen.C82_old_context`
* `Verif.V2.Exchange.C83_delivered_partial`
* `Verif.V2.Exchange.C83_leftover`
* `Verif.V2.Exchange.C83_duplicate`
* `Verif.V2.Exchange.C83_late`
* `Verif.V2.Exchange.C83_stolen`
* `Verif.Cost.V2.C87_same`
* `Verif.Cost.V2.C87_same_write`
* `Verif.Cost.V2.C87_v2_exact`
* `Verif.Cost.V2.C87_v2_not_linear`
* `Verif.Cost.V2.C87_v2_write`
* `Verif.Cost.V2.C87_v2_nodes`
* `Verif.Cost.C87_ext`
* `Verif.Cap.C89_untouched`
* `Verif.V2.C93_v2_header_partial`
* `Verif.V2.C93_v2_header_octets`
* `Verif.V2.C93_v2_teid_stale`
* `Verif.V2.C93_v2_ie_octets`
* `Verif.V1.C93_v1_ext_partial`
* `Verif.V1.C93_v1_header_partial`
* `Verif.V1.C93_v1_header_octets`
* `Verif.V1.C93_v1_header_stale`
* `Verif.TLV.C93_tlv_unknown_wrong`
* `Verif.TLV.C93_ehtl_wrong`
* `Verif.Msg.C93_message_both_wrong`
* `Verif.V2.Conn.C94_stranger`
* `Verif.V2.C96_fresh`
* `Verif.V2.C96_fteid_partial`
* `Verif.V2.C96_uli_partial`
* `Verif.V2.C96_uli_marshal`
* `Verif.V2.C96_paa_partial`
* `Verif.V2.C96_paa_marshal`
* `Verif.V2.C96_paging_partial`
* `Verif.V2.C96_paging_marshal`
* `Verif.V2.C96_container_partial`
* `Verif.V2.C96_container_marshal_partial`
* `Verif.V2.C96_pco_partial`
* `Verif.V2.C96_pco_marshal_partial`
* `Verif.V2.C96_csid_partial`
* `Verif.V2.C96_csid_marshal_partial`
* `Verif.TLV.C96_pco_v1_partial`
* `Verif.TLV.C96_pco_v1_marshal_partial`
* `Verif.V2.C97_plmn`
* `Verif.V2.C97_fteid`
* `Verif.V2.C97_paa`
* `Verif.V2.C97_rannas`
* `Verif.V2.C97_throttling_partial`
* `Verif.V2.C97_paging_wrong`
* `Verif.V2.C97_guti_wrong`
* `Verif.V2.C97_comp`
* `Verif.V2.C97_param`
* `Verif.V2.C97_tft_wrong`
* `Verif.V2.Pgw.C98_halves`

## propext, Classical.choice, Quot.sound (488)

* `Verif.Utils.C02_plmn_panics_iff`
* `Verif.Utils.C04_fqdn_round_trip`
* `Verif.V2.C05_ie_round_trip`
* `Verif.V2.C06_parse_total_lossless`
* `Verif.V2.C06_accepts_iff`
* `Verif.V2.C06_parse_prefix`
* `Verif.V2.C07_marshalTo_exact`
* `Verif.V2.C07_short_refused`
* `Verif.V2.C07_grouped_short_wrong`
* `Verif.V2.C08_edit_history`
* `Verif.V2.C08_edit_wf`
* `Verif.V2.C08_find`
* `Verif.V2.C08_remove_gone`
* `Verif.V2.C09_header_round_trip`
* `Verif.V2.C10_parse_total_faithful`
* `Verif.V2.C10_accepts`
* `Verif.V2.C10_flags`
* `Verif.V2.Sgw.C100_modify_partial`
* `Verif.V2.Sgw.C100_detach_partial`
* `Verif.V2.Sgw.C100_life_partial`
* `Verif.V2.Sgw.C100_timeout_partial`
* `Verif.V2.Sgw.C100_refused_partial`
* `Verif.V2.C101_plain`
* `Verif.V2.C101_identity`
* `Verif.V2.C101_addresses`
* `Verif.V2.C101_bearers`
* `Verif.V2.C101_uses`
* `Verif.V2.C101_others`
* `Verif.V2.Mme.C102_answers`
* `Verif.V2.Mme.C102_once`
* `Verif.V2.Mme.C102_attach_partial`
* `Verif.V2.Mme.C102_refused`
* `Verif.V2.Mme.C102_crash_wrong`
* `Verif.V2.Mme.C102_enb_wrong`
* `Verif.V2.Mme.C103_attach_partial`
* `Verif.V2.Sgw.C104_delete_partial`
* `Verif.V2.Sgw.C104_timeout_partial`
* `Verif.V2.Sgw.C104_unknown`
* `Verif.V2.Sgw.C104_malformed`
* `Verif.V2.Sgw.C104_crash_wrong`
* `Verif.V2.Sgw.C104_mme_wrong`
* `Verif.V2.C105_qos`
* `Verif.V2.C105_plain`
* `Verif.V2.C105_tables`
* `Verif.TLV.C105_autn_partial`
* `Verif.V2.Pgw.C106_safe`
* `Verif.V2.Pgw.C106_attach_partial`
* `Verif.V2.Pgw.C106_undisturbed`
* `Verif.V2.Pgw.C106_detach_wrong`
* `Verif.V2.Pgw.C106_unset_wrong`
* `Verif.V2.Pgw.C106_taken_wrong`
* `Verif.V2.C107_sent_partial`
* `Verif.V2.C107_sent_wrong`
* `Verif.V2.C107_generic_wrong`
* `Verif.V1.C107_sent`
* `Verif.V0.C107_sent`
* `Verif.V2.C108_read`
* `Verif.V2.C108_reads`
* `Verif.V2.C108_read_iff`
* `Verif.V2.C108_reads_iff`
* `Verif.V2.C108_others`
* `Verif.V2.C108_written`
* `Verif.V2.C108_message`
* `Verif.V2.C108_built_wrong`
* `Verif.V2.C109_now`
* `Verif.V2.C109_iff`
* `Verif.V2.C109_element`
* `Verif.V2.C109_reused_wrong`
* `Verif.V1.C109_now`
* `Verif.V1.C109_iff`
* `Verif.V0.C109_now`
* `Verif.V0.C109_iff`
* `Verif.V2.C11_parse_total`
* `Verif.V2.Sgw.C110_undisturbed`
* `Verif.V2.Sgw.C110_attach_partial`
* `Verif.V2.Sgw.C110_modify_partial`
* `Verif.V2.Sgw.C110_answer_partial`
* `Verif.V2.Sgw.C110_through_partial`
* `Verif.V2.Sgw.C110_fails_wrong`
* `Verif.V2.Sgw.C110_detach_wrong`
* `Verif.V2.Sgw.C110_close_wrong`
* `Verif.V2.C111_now`
* `Verif.V2.C111_address_wrong`
* `Verif.V2.C111_group_partial`
* `Verif.V2.C111_group_iff`
* `Verif.TLV.C111_now`
* `Verif.TLV.C111_kept_wrong`
* `Verif.V2.C112_value`
* `Verif.V2.C112_now`
* `Verif.V2.C112_partial`
* `Verif.V2.C112_written`
* `Verif.V2.C112_written_wrong`
* `Verif.V2.C112_follows_wrong`
* `Verif.V2.C112_ipv6_written`
* `Verif.TLV.C112_now`
* `Verif.TLV.C112_partial`
* `Verif.TLV.C112_written`
* `Verif.TLV.C112_written_wrong`
* `Verif.TLV.C112_follows_wrong`
* `Verif.V2.C12_dispatch_faithful`
* `Verif.V2.C13_round_trip_partial`
* `Verif.V2.C13_round_trip_contextResponse_partial`
* `Verif.V2.C13_round_trip_createBearerResponse_partial`
* `Verif.V2.C13_round_trip_createSessionRequest_partial`
* `Verif.V2.C13_generic_round_trip`
* `Verif.V2.C13_createSessionRequest_iff`
* `Verif.V2.C13_createSessionRequest_lost`
* `Verif.V2.C13_createSessionRequest_zeros`
* `Verif.V2.C13_contextResponse_iff`
* `Verif.V2.C13_createBearerResponse_iff`
* `Verif.V2.C14_observed_partial`
* `Verif.V2.C15_no_ie_lost_partial`
* `Verif.V2.C16_exact_size_partial`
* `Verif.V2.C16_createSessionRequest_exact`
* `Verif.V2.C17_forward_partial`
* `Verif.V2.C17_forwarding_breaks`
* `Verif.V2.C18_accepted_partial`
* `Verif.V2.C18_echo`
* `Verif.TLV.C19_round_trip`
* `Verif.TLV.C19_new`
* `Verif.TLV.C19_unknown_type`
* `Verif.TLV.C20_total`
* `Verif.TLV.C20_lossless`
* `Verif.TLV.C20_accepts_iff`
* `Verif.TLV.C20_accepts_one_iff`
* `Verif.V1.C21_round_trip`
* `Verif.V1.C21_setLength`
* `Verif.V1.C21_ext_round_trip`
* `Verif.V1.C21_add`
* `Verif.V1.C22_header_partial`
* `Verif.V1.C22_message_partial`
* `Verif.V1.C22_header_faithful`
* `Verif.V1.C22_header_wf`
* `Verif.V1.C22_header_cases`
* `Verif.V1.C23_round_trip_partial`
* `Verif.V1.C23_generic`
* `Verif.V1.C23_sehn_loses_seq`
* `Verif.V1.C24_forward_partial`
* `Verif.V1.C24_second_fails`
* `Verif.V1.C24_forward_fails`
* `Verif.V0.C24_v0_second_fails`
* `Verif.V1.C25_partial`
* `Verif.V1.C25_seq_partial`
* `Verif.V1.C25_ext`
* `Verif.V1.C25_large_panics`
* `Verif.V0.C26_large_panics`
* `Verif.V0.C26_flags`
* `Verif.V0.C27_round_trip`
* `Verif.V0.C27_generic`
* `Verif.V0.C27_total_partial`
* `Verif.V0.C27_large_panics`
* `Verif.V0.C27_decapsulate_total_partial`
* `Verif.Gtp.C28_total`
* `Verif.Gtp.C28_own_v0`
* `Verif.Gtp.C28_own_v1`
* `Verif.Gtp.C28_own_v2`
* `Verif.V2.Send.C31_octets`
* `Verif.V2.Conn.C31_echo`
* `Verif.Alloc.C32_unique`
* `Verif.Alloc.C32_no_double`
* `Verif.Alloc.C32_stays_taken`
* `Verif.Alloc.C32_terminates`
* `Verif.V2.Conn.C33_registry_partial`
* `Verif.V2.Conn.C33_teid_sound`
* `Verif.V2.Conn.C33_subscriber`
* `Verif.V2.Conn.C34_panics_iff`
* `Verif.V2.Conn.C34_no_crash_partial`
* `Verif.V2.Conn.C34_reserved_crashes`
* `Verif.V2.Conn.C35_reaches_partial`
* `Verif.V2.Conn.C35_registered`
* `Verif.V2.Queue.C36_accounting`
* `Verif.V2.Queue.C36_match`
* `Verif.V2.Queue.C36_order`
* `Verif.V2.Queue.C36_no_loss_partial`
* `Verif.V2.Queue.C36_capacity`
* `Verif.V1.UConn.C37_relay_partial`
* `Verif.V1.UConn.C37_others`
* `Verif.V1.UConn.C37_short_dropped`
* `Verif.V1.UConn.C37_long_truncated`
* `Verif.V1.UConn.C38_indication_partial`
* `Verif.V1.UConn.C38_delivery_partial`
* `Verif.V1.UConn.C38_end_to_end`
* `Verif.V1.UConn.C38_switch`
* `Verif.V1.UConn.C38_calls_partial`
* `Verif.V1.UConn.C39_panics_iff`
* `Verif.V1.UConn.C39_no_crash_partial`
* `Verif.V1.Dscp.C40_once`
* `Verif.V2.C41_fteid_partial`
* `Verif.V2.C41_gre_wrong`
* `Verif.V2.C42_ambr`
* `Verif.V2.C42_bearer_qos_partial`
* `Verif.V2.C42_arp`
* `Verif.V2.C42_flow_qos_partial`
* `Verif.V2.C43_uli`
* `Verif.V2.C43_newECGI`
* `Verif.V2.C43_old_constructor_partial`
* `Verif.V2.C43_lazy_partial`
* `Verif.V2.C43_old_round_trip_partial`
* `Verif.V2.C43_old_eci_wrong`
* `Verif.V2.C44_v2_msisdn_mei`
* `Verif.V2.C44_v2_imsi_partial`
* `Verif.TLV.C44_imsi_partial`
* `Verif.TLV.C44_msisdn_partial`
* `Verif.TLV.C44_imeisv`
* `Verif.V2.C45_indication`
* `Verif.V2.C45_bit_sequence`
* `Verif.V2.C45_octets`
* `Verif.V2.C46_tft_partial`
* `Verif.V2.C46_params_lost`
* `Verif.V2.C46_built_partial`
* `Verif.V2.C47_pco`
* `Verif.V2.C47_ppp_contents`
* `Verif.V2.C48_qos`
* `Verif.V2.C48_tft_partial`
* `Verif.V2.C48_pco_partial`
* `Verif.V2.C48_plain`
* `Verif.V2.C49_partial`
* `Verif.V2.C49_remove`
* `Verif.V2.C49_built`
* `Verif.V2.C49_damages`
* `Verif.V2.C50_paa_v4`
* `Verif.V2.C50_paa_v6`
* `Verif.V2.C50_paa_dual`
* `Verif.V2.C50_s103`
* `Verif.V2.C50_s1u_partial`
* `Verif.V2.C50_ip`
* `Verif.V2.C50_ran_nas_partial`
* `Verif.V2.C50_paging_partial`
* `Verif.V2.C50_plmn`
* `Verif.V2.C50_global_cn`
* `Verif.V2.C50_trace`
* `Verif.V2.C50_uci_partial`
* `Verif.V2.C50_guti_partial`
* `Verif.V2.C50_csid_partial`
* `Verif.V2.C50_epc_timer_octet`
* `Verif.V2.C50_throttling_partial`
* `Verif.V2.C50_time_zone`
* `Verif.V2.C50_timestamp_partial`
* `Verif.V2.C50_delay_value_partial`
* `Verif.V2.C50_new_delay_value`
* `Verif.V2.C50_new_delay_multiple`
* `Verif.V2.C50_timer_raw`
* `Verif.V1.C52_v1_no_loss`
* `Verif.V0.C52_v0_no_loss`
* `Verif.V1.UConn.C53_echo`
* `Verif.V2.C55_uint8`
* `Verif.V2.C55_uint16`
* `Verif.V2.C55_uint32`
* `Verif.V2.C55_string`
* `Verif.V2.C55_name`
* `Verif.V2.C55_others`
* `Verif.V2.C56_cause_partial`
* `Verif.V2.C56_bearer_flags`
* `Verif.V2.C56_never_reported`
* `Verif.V2.C56_mbms_flags`
* `Verif.V2.C57_partial`
* `Verif.TLV.C58_uint8`
* `Verif.TLV.C58_uint16`
* `Verif.TLV.C58_uint32`
* `Verif.TLV.C58_bool`
* `Verif.TLV.C58_raw`
* `Verif.TLV.C58_teid`
* `Verif.TLV.C58_flow_label_ii`
* `Verif.TLV.C58_others`
* `Verif.TLV.C58_flags`
* `Verif.TLV.C58_flags_ii`
* `Verif.TLV.C58_flag_get`
* `Verif.TLV.C59_apn_v1`
* `Verif.TLV.C59_apn_v0_partial`
* `Verif.TLV.C59_uli`
* `Verif.TLV.C59_uli_rai`
* `Verif.TLV.C59_rai_v1_partial`
* `Verif.TLV.C59_rai_v1_wrong`
* `Verif.TLV.C59_rai_v0_partial`
* `Verif.TLV.C59_gsn_v1`
* `Verif.TLV.C59_address_v0`
* `Verif.TLV.C59_eua`
* `Verif.TLV.C59_eua_kinds`
* `Verif.TLV.C59_eua_ppp_partial`
* `Verif.TLV.C59_time_zone`
* `Verif.TLV.C59_timestamp_partial`
* `Verif.TLV.C59_triplet`
* `Verif.TLV.C59_quintuplet_partial`
* `Verif.TLV.C59_qos_partial`
* `Verif.TLV.C59_pco`
* `Verif.V2.Conn.C61_accepts`
* `Verif.V2.Conn.C61_built_partial`
* `Verif.V2.Conn.C62_by_imsi_partial`
* `Verif.V2.Conn.C62_imsi_first`
* `Verif.V2.Conn.C62_nothing_else`
* `Verif.V2.Conn.C62_error_partial`
* `Verif.V2.Conn.C63_requests`
* `Verif.V2.Conn.C63_echo`
* `Verif.V2.Conn.C63_create_partial`
* `Verif.V1.URelay.C64_only_read`
* `Verif.V1.URelay.C64_no_crash`
* `Verif.V1.URelay.C64_all_forwarded`
* `Verif.V1.URelay.C64_forward`
* `Verif.V1.URelay.C64_forward_closed`
* `Verif.V1.URelay.C64_cut`
* `Verif.V1.URelay.C64_peers`
* `Verif.V2.Conn.C65_v2_partial`
* `Verif.V2.Conn.C65_v2_sends`
* `Verif.V1.UConn.C65_v1_partial`
* `Verif.V1.UConn.C65_v1_request`
* `Verif.Lifecycle.C66_close_twice`
* `Verif.V2.C67_v2_message_wrong`
* `Verif.V1.C67_v1_message`
* `Verif.V0.C67_v0_message`
* `Verif.V2.C68_first_only_partial`
* `Verif.V1.Tunnel.C69_origin`
* `Verif.V1.Tunnel.C69_kept`
* `Verif.V2.C70_v2_wire`
* `Verif.V2.C70_v2_teid_wrong`
* `Verif.V1.C70_v1_sequence`
* `Verif.V1.C70_v1_npdu`
* `Verif.V1.C70_v1_teid_wrong`
* `Verif.Locks.C71_no_deadlock_partial`
* `Verif.Locks.C71_can_finish_partial`
* `Verif.Datagrams.C74_own_octets`
* `Verif.Datagrams.C74_once`
* `Verif.Datagrams.C74_none_lost`
* `Verif.Datagrams.C74_no_interference`
* `Verif.V2.C75_bearer_contexts`
* `Verif.V2.C75_empty_wrong`
* `Verif.V2.C75_templates_partial`
* `Verif.V2.C75_params_lost`
* `Verif.V2.C76_bearer`
* `Verif.V2.C77_v2_partial`
* `Verif.V2.C77_v2_start`
* `Verif.V2.C77_v2_start_built`
* `Verif.V2.C77_v2_edits`
* `Verif.V2.C77_v2_replace_partial`
* `Verif.V1.C77_v1_partial`
* `Verif.V1.C77_v1_start`
* `Verif.V1.C77_v1_edits_partial`
* `Verif.V0.C77_v0_partial`
* `Verif.V0.C77_v0_start`
* `Verif.V2.C78_generic`
* `Verif.V2.C78_identity`
* `Verif.V2.C78_qos`
* `Verif.V2.C78_plain`
* `Verif.V2.C78_fteid`
* `Verif.V2.C78_paa`
* `Verif.V2.C78_uli`
* `Verif.V2.C78_s103`
* `Verif.V2.C78_s1udf`
* `Verif.V2.C78_ip_short`
* `Verif.TLV.C78_v1`
* `Verif.TLV.C78_v0`
* `Verif.TLV.C78_location`
* `Verif.V2.C79_s1udf`
* `Verif.V2.C79_uli`
* `Verif.V2.C79_tft_filter`
* `Verif.V2.C79_tft_parameter`
* `Verif.V2.C79_s103_partial`
* `Verif.V2.C79_tft_partial`
* `Verif.V2.C79_ppp_partial`
* `Verif.V2.C79_pap_partial`
* `Verif.V2.C79_chap_partial`
* `Verif.V2.C79_ipcp_partial`
* `Verif.V2.C79_pco_short`
* `Verif.V2.C79_pco_v1_short`
* `Verif.V2.C79_tft_short`
* `Verif.V2.C80_v2_partial`
* `Verif.V2.C80_v2_new_partial`
* `Verif.V2.C80_v2_generic`
* `Verif.V1.C80_v1_partial`
* `Verif.V1.C80_v1_new`
* `Verif.V0.C80_v0_partial`
* `Verif.V0.C80_v0_new`
* `Verif.V2.C81_v2_received`
* `Verif.V2.C81_v2_no_teid_partial`
* `Verif.V1.C81_v1_received`
* `Verif.V0.C81_v0_received`
* `Verif.Listen.C82_no_panic`
* `Verif.V2.Exchange.C83_answers`
* `Verif.V2.Exchange.C83_own_partial`
* `Verif.V1.UPath.C84_origin`
* `Verif.V1.UPath.C84_written`
* `Verif.V1.UPath.C84_delivered_partial`
* `Verif.V1.UPath.C84_short`
* `Verif.V1.UPath.C84_loop`
* `Verif.NetIP.C85_accepted`
* `Verif.NetIP.C85_roundtrip`
* `Verif.NetIP.C85_v4_exact`
* `Verif.NetIP.C85_canonical`
* `Verif.V2.C85_elements_v2`
* `Verif.V2.C85_fteid`
* `Verif.V2.C85_paa_dual_partial`
* `Verif.V2.C85_csid_partial`
* `Verif.V2.C85_refused_v2_partial`
* `Verif.V2.C85_csid_wrong`
* `Verif.V2.C85_paa_dual_wrong`
* `Verif.TLV.C85_elements_v1`
* `Verif.TLV.C85_refused_v1_partial`
* `Verif.TLV.C85_ppp`
* `Verif.TLV.C85_eua_v0_wrong`
* `Verif.NetIP.C86_same`
* `Verif.NetIP.C86_split`
* `Verif.C86_peer`
* `Verif.C86_gsn_partial`
* `Verif.C86_gsn_wrong`
* `Verif.Cost.V2.C87_v2_any_partial`
* `Verif.Cost.V2.C87_v2_one`
* `Verif.Cost.V2.C87_v2_linear`
* `Verif.Cost.V2.C87_v2_datagram`
* `Verif.Cost.TLV.C87_v01`
* `Verif.V2.Conn.C88_exchange_partial`
* `Verif.V2.Conn.C88_subscriber_partial`
* `Verif.V2.Conn.C88_cut`
* `Verif.Cap.C89_v1`
* `Verif.Cap.C89_v0`
* `Verif.Cap.C89_v2_ie`
* `Verif.Cap.C89_message`
* `Verif.Cap.C89_v2_header_partial`
* `Verif.Cap.C89_v2_header_outcome`
* `Verif.Cap.C89_v2_header`
* `Verif.Cap.C89_v2_message`
* `Verif.V2.C90_v2_new_named`
* `Verif.V2.C90_v2_new`
* `Verif.V2.C90_v2_parse`
* `Verif.V1.C90_v1_new_named`
* `Verif.V1.C90_v1_new`
* `Verif.V1.C90_v1_parse`
* `Verif.V0.C90_v0_new_named`
* `Verif.V0.C90_v0_new`
* `Verif.V0.C90_v0_parse`
* `Verif.V2.C91_v2_new`
* `Verif.V2.C91_v2_parse_partial`
* `Verif.V2.C91_v2_last_wins`
* `Verif.V1.C91_v1_new`
* `Verif.V1.C91_v1_parse_partial`
* `Verif.V0.C91_v0_new`
* `Verif.V0.C91_v0_parse_partial`
* `Verif.V2.C92_v2_partial`
* `Verif.V2.C92_boundary_wrong`
* `Verif.V2.C92_one_octet_wrong`
* `Verif.V1.C92_v1_partial`
* `Verif.V1.C92_relay_wrong`
* `Verif.V0.C92_v0_partial`
* `Verif.V0.C92_v0_boundary_wrong`
* `Verif.V0.C92_v0_tpdu_wrong`
* `Verif.V2.Conn.C94_exchange_partial`
* `Verif.V2.Conn.C94_life_partial`
* `Verif.V1.UConn.C95_u_ends`
* `Verif.V1.UConn.C95_u_echo`
* `Verif.V1.UConn.C95_u_echo_any`
* `Verif.V1.UConn.C95_u_error_partial`
* `Verif.V1.UConn.C95_u_respond_partial`
* `Verif.V1.UConn.C95_zone_crash`
* `Verif.V2.Conn.C95_v2_ends`
* `Verif.V2.Conn.C95_v2_echo`
* `Verif.V2.C96_fteid_marshal_partial`
* `Verif.V2.C96_tft_partial`
* `Verif.V2.C96_tft_marshal_partial`
* `Verif.V2.C97_ambr`
* `Verif.V2.C97_bearerQoS`
* `Verif.V2.C97_flowQoS`
* `Verif.V2.C97_s1udf`
* `Verif.V2.C97_s103`
* `Verif.V2.C97_container`
* `Verif.V2.C97_pco`
* `Verif.V2.C97_pco_v1`
* `Verif.V2.C97_ppp_partial`
* `Verif.V2.C97_pap`
* `Verif.V2.C97_chap`
* `Verif.V2.C97_ipcp_partial`
* `Verif.V2.C97_trace`
* `Verif.V2.C97_uci`
* `Verif.V2.C97_csid`
* `Verif.V2.C97_uli`
* `Verif.V2.C97_filter`
* `Verif.V2.C97_tft_partial`
* `Verif.V2.Pgw.C98_safe`
* `Verif.V2.Pgw.C98_tables`
* `Verif.V2.Pgw.C98_create_partial`
* `Verif.V2.Pgw.C98_answered_iff`
* `Verif.V2.Pgw.C98_incomplete`
* `Verif.V2.Pgw.C98_delete`
* `Verif.V2.Pgw.C98_refused`
* `Verif.V2.Pgw.C98_life_partial`
* `Verif.V2.Pgw.C98_unwritten_wrong`
* `Verif.V2.Pgw.C98_window_wrong`
* `Verif.V2.Pgw.C98_race_wrong`
* `Verif.V2.Pgw.C98_v6_wrong`
* `Verif.V2.Sgw.C99_forward_partial`
* `Verif.V2.Sgw.C99_attach_partial`
