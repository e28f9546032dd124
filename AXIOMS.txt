'Egts.C01_crc16' depends on axioms: [propext, Classical.choice, Quot.sound]
'Egts.C01_C02_determined' depends on axioms: [propext, Classical.choice, Quot.sound]
'Egts.C01_frames' depends on axioms: [propext, Classical.choice, Quot.sound]
'Egts.C02_crc8' depends on axioms: [propext, Classical.choice, Quot.sound]
'Egts.C02_frames' depends on axioms: [propext, Classical.choice, Quot.sound]
'Egts.C03_false' depends on axioms: [propext, Classical.choice, Quot.sound]
'Egts.C03_odd_partial' depends on axioms: [propext, Classical.choice, Quot.sound]
'Egts.C03_burst_partial' depends on axioms: [propext, Classical.choice, Quot.sound]
'Egts.C03_checksum_partial' depends on axioms: [propext, Classical.choice, Quot.sound]
'Egts.C04_false' depends on axioms: [propext, Classical.choice, Quot.sound]
'Egts.C04_header_partial' depends on axioms: [propext, Classical.choice, Quot.sound]
'Egts.C05_false' depends on axioms: [propext, Classical.choice, Quot.sound]
'Egts.C05_truncated_partial' depends on axioms: [propext, Classical.choice, Quot.sound]
'Egts.C05_prefix_codes' depends on axioms: [propext, Classical.choice, Quot.sound]
'Egts.C06_long_body_panics' depends on axioms: [propext, Classical.choice, Quot.sound]
'Egts.C06_false' depends on axioms: [propext, Classical.choice, Quot.sound]
'Egts.C06_application_exact' depends on axioms: [propext, Classical.choice, Quot.sound]
'Egts.C06_application_roundtrip_partial' depends on axioms: [propext, Classical.choice, Quot.sound]
'Egts.C07_response_exact' depends on axioms: [propext, Classical.choice, Quot.sound]
'Egts.C07_response_roundtrip_partial' depends on axioms: [propext, Classical.choice, Quot.sound]
'Egts.C08_encrypted_exact' depends on axioms: [propext, Classical.choice, Quot.sound]
'Egts.C08_encrypted_roundtrip_partial' depends on axioms: [propext, Classical.choice, Quot.sound]
'Egts.C08_no_key_encode' depends on axioms: [propext, Classical.choice, Quot.sound]
'Egts.C08_no_key_decode' depends on axioms: [propext, Classical.choice, Quot.sound]
'Egts.C09_layout' depends on axioms: [propext, Classical.choice, Quot.sound]
'Egts.C09_receiver_framing' depends on axioms: [propext, Classical.choice, Quot.sound]
'Egts.C10_repeatable' depends on axioms: [propext, Classical.choice, Quot.sound]
'Egts.C10_receiver' depends on axioms: [propext, Classical.choice, Quot.sound]
'Egts.C11_false' depends on axioms: [propext, Classical.choice, Quot.sound]
'Egts.C11_panics_iff' depends on axioms: [propext, Classical.choice, Quot.sound]
'Egts.C11_no_panic_partial' depends on axioms: [propext, Classical.choice, Quot.sound]
'Egts.C11_overflow' depends on axioms: [propext, Classical.choice, Quot.sound]
'Egts.C12_stages' depends on axioms: [propext, Classical.choice, Quot.sound]
'Egts.C12_codes' depends on axioms: [propext, Classical.choice, Quot.sound]
'Egts.C12_success_package' depends on axioms: [propext, Classical.choice, Quot.sound]
'Egts.C12_identifier' depends on axioms: [propext, Classical.choice, Quot.sound]
'Egts.C13_false' depends on axioms: [propext, Classical.choice, Quot.sound]
'Egts.C13_reuse_partial' depends on axioms: [propext, Classical.choice, Quot.sound]
'Egts.C14_false' depends on axioms: [propext, Classical.choice, Quot.sound]
'Egts.C14_header_partial' depends on axioms: [propext, Classical.choice, Quot.sound]
'Egts.C15_exact' depends on axioms: [propext, Classical.choice, Quot.sound]
'Egts.C15_false' depends on axioms: [propext, Classical.choice, Quot.sound]
'Egts.C15_length_partial' depends on axioms: [propext, Classical.choice, Quot.sound]
'Egts.C16_service_sets_exact' depends on axioms: [propext, Classical.choice, Quot.sound]
'Egts.C16_service_sets_partial' depends on axioms: [propext, Classical.choice, Quot.sound]
'Egts.C17_false' depends on axioms: [propext, Classical.choice, Quot.sound]
'Egts.C17_record_sets_exact' depends on axioms: [propext, Classical.choice, Quot.sound]
'Egts.C17_record_sets_partial' depends on axioms: [propext, Classical.choice, Quot.sound]
'Egts.C18_any_subrecords' depends on axioms: [propext, Classical.choice, Quot.sound]
'Egts.C18_any_records' depends on axioms: [propext, Classical.choice, Quot.sound]
'Egts.C18_record_sets_compose' depends on axioms: [propext, Classical.choice, Quot.sound]
'Egts.C18_service_sets_compose' depends on axioms: [propext, Classical.choice, Quot.sound]
'Egts.C19_inserted_anywhere' depends on axioms: [propext, Classical.choice, Quot.sound]
'Egts.C19_unknown_skipped' depends on axioms: [propext, Classical.choice, Quot.sound]
'Egts.C19_unknown_inserted' depends on axioms: [propext, Classical.choice, Quot.sound]
'Egts.C20_response_nesting' depends on axioms: [propext, Classical.choice, Quot.sound]
'Egts.C20_record_set_nesting' depends on axioms: [propext, Classical.choice, Quot.sound]
'Egts.C20_service_set_nesting' depends on axioms: [propext, Classical.choice, Quot.sound]
'Egts.C20_iterations' depends on axioms: [propext, Classical.choice, Quot.sound]
'Egts.C20_bound_never_hit' depends on axioms: [propext, Classical.choice, Quot.sound]
'Egts.C20_terminates' depends on axioms: [propext, Classical.choice, Quot.sound]
'Egts.C21_ack_fits' depends on axioms: [propext, Classical.choice, Quot.sound]
'Egts.C21_record_count' depends on axioms: [propext, Classical.choice, Quot.sound]
'Egts.C22_own_frames_partial' depends on axioms: [propext, Classical.choice, Quot.sound]
'Egts.C22_false' depends on axioms: [propext, Classical.choice, Quot.sound]
'Egts.C22_false_position' depends on axioms: [propext, Classical.choice, Quot.sound]
'Egts.C22_subrecords_exact' depends on axioms: [propext, Classical.choice, Quot.sound]
'Egts.C22_records_exact' depends on axioms: [propext, Classical.choice, Quot.sound]
'Egts.C22_frames_exact_partial' depends on axioms: [propext, Classical.choice, Quot.sound]
'Egts.C22_encrypted_exact_partial' depends on axioms: [propext, Classical.choice, Quot.sound]
'Egts.C23_false' depends on axioms: [propext, Classical.choice, Quot.sound]
'Egts.C23_type_inference_partial' depends on axioms: [propext, Classical.choice, Quot.sound]
'Egts.C24_record_response' depends on axioms: [propext, Classical.choice, Quot.sound]
'Egts.C24_result_code' does not depend on any axioms
'Egts.C24_state_data' depends on axioms: [propext]
'Egts.C25_abs_counter' depends on axioms: [propext, Quot.sound]
'Egts.C25_abs_analog' depends on axioms: [propext, Quot.sound]
'Egts.C25_in_range' depends on axioms: [propext]
'Egts.C26_liquid_level' depends on axioms: [propext, Quot.sound]
'Egts.C26_sensor_number_8' depends on axioms: [propext]
'Egts.C27_ext_pos' depends on axioms: [propext, Quot.sound]
'Egts.C27_ext_pos_fresh' depends on axioms: [propext, Quot.sound]
'Egts.C28_false' depends on axioms: [propext]
'Egts.C28_ad_sensors_partial' depends on axioms: [propext, Quot.sound]
'Egts.C28_ad_sensors_exact' depends on axioms: [propext, Quot.sound]
'Egts.C28_analog_flags_mirrored' depends on axioms: [propext, Quot.sound]
'Egts.C28_mirror_necessary' depends on axioms: [propext, Quot.sound]
'Egts.C29_false' depends on axioms: [propext]
'Egts.C29_counters_exact' depends on axioms: [propext, Quot.sound]
'Egts.C29_counters_partial' depends on axioms: [propext, Quot.sound]
'Egts.C30_term_identity' depends on axioms: [propext, Quot.sound]
'Egts.C31_auth_info' depends on axioms: [propext, Quot.sound]
'Egts.C31_module_data' depends on axioms: [propext, Quot.sound]
'Egts.C31_dispatcher_identity' depends on axioms: [propext, Quot.sound]
'Egts.C32_false' depends on axioms: [propext, Classical.choice, Quot.sound]
'Egts.C32_pos_data_exact' depends on axioms: [propext, Classical.choice, Quot.sound]
'Egts.C32_pos_data_partial' depends on axioms: [propext, Classical.choice, Quot.sound]
'Egts.C32_speed_limit' depends on axioms: [propext, Classical.choice, Quot.sound]
'Egts.C33_latitude_drift' depends on axioms: [propext, Classical.choice, Quot.sound]
'Egts.C33_longitude_drift' depends on axioms: [propext, Classical.choice, Quot.sound]
'Egts.C33_drift_occurs' depends on axioms: [propext, Classical.choice, Quot.sound]
'Egts.C34_latitude_accuracy' depends on axioms: [propext, Classical.choice, Quot.sound]
'Egts.C34_longitude_accuracy' depends on axioms: [propext, Classical.choice, Quot.sound]
'Egts.C35_false' depends on axioms: [propext, Classical.choice, Quot.sound]
'Egts.C35_course_partial' depends on axioms: [propext, Classical.choice, Quot.sound]
'Egts.C35_direction_exact' depends on axioms: [propext, Classical.choice, Quot.sound]
'Egts.C35_direction_field_ambiguous' depends on axioms: [propext, Classical.choice, Quot.sound]
'Egts.C36_false' depends on axioms: [propext, Classical.choice, Quot.sound]
'Egts.C36_altitude_exact' depends on axioms: [propext, Classical.choice, Quot.sound]
'Egts.C36_altitude_partial' depends on axioms: [propext, Classical.choice, Quot.sound]
'Egts.C37_subrecord_length' depends on axioms: [propext, Classical.choice, Quot.sound]
'Egts.C37_record_set_length' depends on axioms: [propext, Classical.choice, Quot.sound]
'Egts.C37_service_set_length' depends on axioms: [propext, Classical.choice, Quot.sound]
'Egts.C37_response_length' depends on axioms: [propext, Classical.choice, Quot.sound]
'Egts.C38_anywhere_partial' depends on axioms: [propext, Classical.choice, Quot.sound]
'Egts.C38_false' depends on axioms: [propext, Classical.choice, Quot.sound]
'Egts.C38_subrecord_flags_partial' depends on axioms: [propext, Classical.choice, Quot.sound]
'Egts.C38_record_flags' depends on axioms: [propext, Classical.choice, Quot.sound]
'Egts.C38_package_flags' depends on axioms: [propext, Classical.choice, Quot.sound]
'Egts.C38_flag_byte' depends on axioms: [propext, Quot.sound]
'Egts.C39_exact' depends on axioms: [propext, Classical.choice, Quot.sound]
'Egts.C39_false' depends on axioms: [propext]
'Egts.C39_record_response_partial' depends on axioms: [propext, Classical.choice, Quot.sound]
'Egts.C39_result_code_partial' depends on axioms: [propext]
'Egts.C39_state_data_partial' depends on axioms: [propext, Quot.sound]
'Egts.C39_abs_analog_partial' depends on axioms: [propext, Quot.sound]
'Egts.C39_pos_partial' depends on axioms: [propext, Classical.choice, Quot.sound]
'Egts.C39_auth_partial' depends on axioms: [propext, Quot.sound]
'Egts.C39_module_partial' depends on axioms: [propext, Quot.sound]
'Egts.C40_ext_pos' depends on axioms: [propext, Quot.sound]
'Egts.C40_ad_sensors' depends on axioms: [propext, Quot.sound]
'Egts.C40_counters_partial' depends on axioms: [propext, Quot.sound]
'Egts.C40_term_identity' depends on axioms: [propext, Quot.sound]
'Egts.C40_pos' depends on axioms: [propext, Classical.choice, Quot.sound]
'Egts.C40_service_record' depends on axioms: [propext, Quot.sound]
'Egts.C41_segmentation' depends on axioms: [propext, Classical.choice, Quot.sound]
'Egts.C41_any_split' depends on axioms: [propext, Classical.choice, Quot.sound]
'Egts.C42_pipelined' depends on axioms: [propext, Classical.choice, Quot.sound]
'Egts.C42_each_frame' depends on axioms: [propext, Classical.choice, Quot.sound]
'Egts.C42_until_panic' depends on axioms: [propext, Classical.choice, Quot.sound]
'Egts.C42_library_frames' depends on axioms: [propext, Classical.choice, Quot.sound]
'Egts.C43_not_egts' depends on axioms: [propext, Classical.choice, Quot.sound]
'Egts.C43_cut_frame' depends on axioms: [propext, Classical.choice, Quot.sound]
'Egts.C43_short_tail' depends on axioms: [propext, Classical.choice, Quot.sound]
'Egts.C43_every_stream' depends on axioms: [propext, Classical.choice, Quot.sound]
'Egts.C44_acknowledged' depends on axioms: [propext, Classical.choice, Quot.sound]
'Egts.C45_rejected' depends on axioms: [propext, Classical.choice, Quot.sound]
'Egts.C45_survives' depends on axioms: [propext, Classical.choice, Quot.sound]
'Egts.C46_response_silent' depends on axioms: [propext, Classical.choice, Quot.sound]
'Egts.C46_record_response_silent' depends on axioms: [propext, Classical.choice, Quot.sound]
'Egts.C46_no_ping_pong' depends on axioms: [propext, Classical.choice, Quot.sound]
'Egts.C47_false' depends on axioms: [propext, Classical.choice, Quot.sound]
'Egts.C47_false_after_response' depends on axioms: [propext, Classical.choice, Quot.sound]
'Egts.C47_all_saved_partial' depends on axioms: [propext, Classical.choice, Quot.sound]
'Egts.C47_one_per_record' depends on axioms: [propext, Classical.choice, Quot.sound]
'Egts.C48_saved' depends on axioms: [propext, Classical.choice, Quot.sound]
'Egts.C48_nothing_else' depends on axioms: [propext, Classical.choice, Quot.sound]
'Egts.C49_all_saved' depends on axioms: [propext, Classical.choice, Quot.sound]
'Egts.C49_attribution' depends on axioms: [propext, Classical.choice, Quot.sound]
'Egts.C49_fresh' depends on axioms: [propext, Classical.choice, Quot.sound]
'Egts.C50_stored_ids' depends on axioms: [propext, Classical.choice, Quot.sound]
'Egts.C50_false' depends on axioms: [propext, Classical.choice, Quot.sound]
'Egts.C50_both_counters_partial' depends on axioms: [propext, Classical.choice, Quot.sound]
'Egts.C50_one_counter' depends on axioms: [propext, Quot.sound]
'Egts.C51_false' depends on axioms: [propext, Classical.choice, Quot.sound]
'Egts.C51_sent' depends on axioms: [propext, Classical.choice, Quot.sound]
'Egts.C51_content_partial' depends on axioms: [propext, Classical.choice, Quot.sound]
'Egts.C52_false' depends on axioms: [propext, Classical.choice, Quot.sound]
'Egts.C52_offered_before_ack_partial' depends on axioms: [propext, Classical.choice, Quot.sound]
'Egts.C53_all_accept' depends on axioms: [propext, Classical.choice, Quot.sound]
'Egts.C53_first_failure' depends on axioms: [propext, Quot.sound]
'Egts.C53_nil_iff' depends on axioms: [propext, Classical.choice, Quot.sound]
'Egts.C54_succeeds_iff' depends on axioms: [propext, Classical.choice, Quot.sound]
'Egts.C54_errors' depends on axioms: [propext, Quot.sound]
'Egts.C54_adds_each_once' depends on axioms: [propext, Classical.choice, Quot.sound]
'Egts.C54_any_order' depends on axioms: [propext, Classical.choice, Quot.sound]
'Egts.C54_never_empty' depends on axioms: [propext, Classical.choice, Quot.sound]
'Egts.C54_after_failure' depends on axioms: [propext, Quot.sound]
'Egts.C55_isolated' depends on axioms: [propext, Classical.choice, Quot.sound]
'Egts.C55_complete' depends on axioms: [propext, Classical.choice, Quot.sound]
'Egts.C55_never_held_up' depends on axioms: [propext, Classical.choice, Quot.sound]
'Egts.C55_storages_serial' depends on axioms: [propext, Classical.choice, Quot.sound]
'Egts.C55_crash_has_a_cause' depends on axioms: [propext, Classical.choice, Quot.sound]
'Egts.C56_crash_iff' depends on axioms: [propext, Classical.choice, Quot.sound]
'Egts.C56_false_short' depends on axioms: [propext, Classical.choice, Quot.sound]
'Egts.C56_false' depends on axioms: [propext, Classical.choice, Quot.sound]
'Egts.C56_honest_partial' depends on axioms: [propext, Classical.choice, Quot.sound]
'Egts.C56_process_dies' depends on axioms: [propext, Classical.choice, Quot.sound]
'Egts.C57_same_effects' depends on axioms: [propext, Classical.choice, Quot.sound]
'Egts.C57_false' depends on axioms: [propext, Classical.choice, Quot.sound]
'Egts.C57_false_in_packet' depends on axioms: [propext, Classical.choice, Quot.sound]
'Egts.C57_after_eof_partial' depends on axioms: [propext, Classical.choice, Quot.sound]
'Egts.C57_timeout_otherwise_unused' depends on axioms: [propext, Classical.choice, Quot.sound]
'Egts.C58_false' depends on axioms: [propext, Classical.choice, Quot.sound]
'Egts.C58_false_spins' depends on axioms: [propext, Quot.sound]
'Egts.C58_no_new_connections_partial' depends on axioms: [propext, Classical.choice, Quot.sound]
'Egts.C58_stop_result' depends on axioms: [propext]
'Egts.C58_every_connection_handled' depends on axioms: [propext, Classical.choice, Quot.sound]
'Egts.C59_end_to_end_partial' depends on axioms: [propext, Classical.choice, Quot.sound]
'Egts.C59_false_time' depends on axioms: [propext, Classical.choice, Quot.sound]
'Egts.C59_false_exit_code' depends on axioms: [propext, Classical.choice, Quot.sound]
'Egts.C59_false_no_timeout' depends on axioms: [propext, Classical.choice, Quot.sound]
'Egts.C59_false_long_timeout' depends on axioms: [propext, Classical.choice, Quot.sound]
'Egts.C59_false_panic' depends on axioms: [propext, Classical.choice, Quot.sound]
'Egts.C59_false_negative' depends on axioms: [propext, Classical.choice, Quot.sound]
'Egts.C60_incremental' depends on axioms: [propext, Classical.choice, Quot.sound]
'Egts.C60_immediate' depends on axioms: [propext, Classical.choice, Quot.sound]
'Egts.C61_pos_decode_exact' depends on axioms: [propext, Classical.choice, Quot.sound]
'Egts.C62_writes_framed' depends on axioms: [propext, Classical.choice, Quot.sound]
'Egts.C62_stream_can_be_cut' depends on axioms: [propext, Classical.choice, Quot.sound]
'Egts.C62_ack_length' depends on axioms: [propext, Classical.choice, Quot.sound]
'Egts.C63_success_is_earned' depends on axioms: [propext, Classical.choice, Quot.sound]
'Egts.C63_nothing_sent_otherwise' depends on axioms: [propext, Classical.choice, Quot.sound]
'Egts.C64_response' depends on axioms: [propext, Classical.choice, Quot.sound]
'Egts.C64_result_code' does not depend on any axioms
'Egts.C64_state_data' depends on axioms: [propext]
'Egts.C64_abs_counter' depends on axioms: [propext, Quot.sound]
'Egts.C64_abs_analog' depends on axioms: [propext, Quot.sound]
'Egts.C64_liquid_level' depends on axioms: [propext, Quot.sound]
'Egts.C64_ext_pos' depends on axioms: [propext, Quot.sound]
'Egts.C64_ad_sensors_decode' depends on axioms: [propext, Quot.sound]
'Egts.C64_ad_sensors_encode_partial' depends on axioms: [propext, Quot.sound]
'Egts.C64_counters_encode' depends on axioms: [propext, Quot.sound]
'Egts.C64_counters_decode_partial' depends on axioms: [propext, Quot.sound]
'Egts.C64_term_identity' depends on axioms: [propext, Quot.sound]
'Egts.C64_auth_info' depends on axioms: [propext, Quot.sound]
'Egts.C64_module_data' depends on axioms: [propext, Quot.sound]
'Egts.C64_dispatcher_identity' depends on axioms: [propext, Quot.sound]
'Egts.C64_pos_data_encode' depends on axioms: [propext, Classical.choice, Quot.sound]
'Egts.C64_pos_data_decode_partial' depends on axioms: [propext, Classical.choice, Quot.sound]
'Egts.C65_subrecord' depends on axioms: [propext, Classical.choice, Quot.sound]
'Egts.C65_subrecord_decode' depends on axioms: [propext, Classical.choice, Quot.sound]
'Egts.C65_record' depends on axioms: [propext, Classical.choice, Quot.sound]
'Egts.C65_record_decode' depends on axioms: [propext, Classical.choice, Quot.sound]
'Egts.C65_concatenation' depends on axioms: [propext, Classical.choice, Quot.sound]
'Egts.C65_concatenation_records' depends on axioms: [propext, Classical.choice, Quot.sound]
'Egts.C65_response' depends on axioms: [propext, Classical.choice, Quot.sound]
'Egts.C65_response_decode' depends on axioms: [propext, Classical.choice, Quot.sound]
'Egts.C66_lossless' depends on axioms: [propext, Classical.choice, Quot.sound]
'Egts.C66_injective' depends on axioms: [propext, Classical.choice, Quot.sound]
'Egts.C66_saved_lossless' depends on axioms: [propext, Classical.choice, Quot.sound]
'Egts.C66_connection_lossless' depends on axioms: [propext, Classical.choice, Quot.sound]
'Egts.C67_plausible' depends on axioms: [propext, Classical.choice, Quot.sound]
'Egts.C67_plausible_connection' depends on axioms: [propext, Classical.choice, Quot.sound]
'Egts.C67_degrees' depends on axioms: [propext, Classical.choice, Quot.sound]
'Egts.C68_false' depends on axioms: [propext, Classical.choice, Quot.sound]
'Egts.C68_magnitudes' depends on axioms: [propext, Classical.choice, Quot.sound]
'Egts.C68_northeast_partial' depends on axioms: [propext, Classical.choice, Quot.sound]
'Egts.C69_one_delivery' depends on axioms: [propext, Classical.choice, Quot.sound]
'Egts.C69_record' depends on axioms: [propext, Classical.choice, Quot.sound]
'Egts.C69_every_attempt' depends on axioms: [propext, Classical.choice, Quot.sound]
'Egts.C69_all_delivered' depends on axioms: [propext, Classical.choice, Quot.sound]
'Egts.C69_reads_back' depends on axioms: [propext, Classical.choice, Quot.sound]
'Egts.C70_starts_iff' depends on axioms: [propext, Classical.choice, Quot.sound]
'Egts.C70_nil_config' depends on axioms: [propext, Classical.choice, Quot.sound]
'Egts.C70_same_connection' depends on axioms: [propext, Classical.choice, Quot.sound]
'Egts.C70_false' depends on axioms: [propext, Classical.choice, Quot.sound]
'Egts.C70_false_unreachable' depends on axioms: [propext, Classical.choice, Quot.sound]
'Egts.C71_printed_partial' depends on axioms: [propext, Classical.choice, Quot.sound]
'Egts.C71_false' depends on axioms: [propext, Classical.choice, Quot.sound]
'Egts.C72_accepts_iff' depends on axioms: [propext, Classical.choice, Quot.sound]
'Egts.C72_settings' depends on axioms: [propext, Classical.choice, Quot.sound]
'Egts.C72_storages' depends on axioms: [propext, Classical.choice, Quot.sound]
'Egts.C72_listens' depends on axioms: [propext, Classical.choice, Quot.sound]
'Egts.C72_ttl_partial' depends on axioms: [propext, Classical.choice, Quot.sound]
'Egts.C72_false' depends on axioms: [propext, Classical.choice, Quot.sound]
'Egts.C72_false_readme' depends on axioms: [propext, Classical.choice, Quot.sound]
'Egts.C72_level' depends on axioms: [propext]
'Egts.C73_target_partial' depends on axioms: [propext, Classical.choice, Quot.sound]
'Egts.C73_false_postgres' depends on axioms: [propext, Classical.choice, Quot.sound]
'Egts.C73_false_rabbitmq' depends on axioms: [propext, Classical.choice, Quot.sound]
'Egts.C74_config_to_storages' depends on axioms: [propext, Classical.choice, Quot.sound]
'Egts.C74_not_silent' depends on axioms: [propext, Classical.choice, Quot.sound]
'Egts.C75_roundtrip' depends on axioms: [propext, Classical.choice, Quot.sound]
'Egts.C75_decoded_roundtrip' depends on axioms: [propext, Classical.choice, Quot.sound]
'Egts.C75_required' depends on axioms: [propext, Classical.choice, Quot.sound]
'Egts.C76_decode_iff' depends on axioms: [propext, Classical.choice, Quot.sound]
'Egts.C76_unambiguous' depends on axioms: [propext, Classical.choice, Quot.sound]
'Egts.C76_encode_format' depends on axioms: [propext, Classical.choice, Quot.sound]
'Egts.C76_encode_order' depends on axioms: [propext, Classical.choice, Quot.sound]
'Egts.C76_published_description' depends on axioms: [propext, Classical.choice, Quot.sound]
'Egts.C77_false' depends on axioms: [propext, Classical.choice, Quot.sound]
'Egts.C77_only_the_bytes_partial' depends on axioms: [propext, Classical.choice, Quot.sound]
'Egts.C77_honest' depends on axioms: [propext, Classical.choice, Quot.sound]
'Egts.C78_following_bytes' depends on axioms: [propext, Classical.choice, Quot.sound]
'Egts.C78_first_of_many' depends on axioms: [propext, Classical.choice, Quot.sound]
'Egts.C79_false' depends on axioms: [propext, Classical.choice, Quot.sound]
'Egts.C79_no_panic_partial' depends on axioms: [propext, Classical.choice, Quot.sound]
'Egts.C79_decoded' depends on axioms: [propext, Classical.choice, Quot.sound]
'Egts.C80_false_strings' depends on axioms: [propext, Classical.choice, Quot.sound]
'Egts.C80_false_error' depends on axioms: [propext, Classical.choice, Quot.sound]
'Egts.C80_read_back_partial' depends on axioms: [propext, Classical.choice, Quot.sound]
'Egts.C80_lossless_iff' depends on axioms: [propext, Classical.choice, Quot.sound]
'Egts.C80_same_text' depends on axioms: [propext, Classical.choice, Quot.sound]
'Egts.C80_error_iff' depends on axioms: [propext, Classical.choice, Quot.sound]
'Egts.C80_decoded_partial' depends on axioms: [propext, Classical.choice, Quot.sound]
'Egts.C81_record_response' depends on axioms: [propext, Classical.choice, Quot.sound]
'Egts.C81_result_code' depends on axioms: [propext, Quot.sound]
'Egts.C81_state_data' depends on axioms: [propext, Quot.sound]
'Egts.C81_abs_counter' depends on axioms: [propext, Classical.choice, Quot.sound]
'Egts.C81_abs_analog' depends on axioms: [propext, Classical.choice, Quot.sound]
'Egts.C81_dispatcher' depends on axioms: [propext, Classical.choice, Quot.sound]
'Egts.C81_liquid_level' depends on axioms: [propext, Classical.choice, Quot.sound]
'Egts.C81_ext_pos' depends on axioms: [propext, Classical.choice, Quot.sound]
'Egts.C81_ad_sensors' depends on axioms: [propext, Classical.choice, Quot.sound]
'Egts.C81_counters' depends on axioms: [propext, Classical.choice, Quot.sound]
'Egts.C81_term_identity' depends on axioms: [propext, Classical.choice, Quot.sound]
'Egts.C81_auth' depends on axioms: [propext, Classical.choice, Quot.sound]
'Egts.C81_module' depends on axioms: [propext, Classical.choice, Quot.sound]
'Egts.C81_subrecords' depends on axioms: [propext, Classical.choice, Quot.sound]
'Egts.C81_records' depends on axioms: [propext, Classical.choice, Quot.sound]
'Egts.C81_unambiguous' depends on axioms: [propext, Classical.choice, Quot.sound]
'Egts.C81_response' depends on axioms: [propext, Classical.choice, Quot.sound]
'Egts.C81_package' depends on axioms: [propext, Classical.choice, Quot.sound]
'Egts.C82_connection' depends on axioms: [propext, Classical.choice, Quot.sound]
'Egts.C82_totals' depends on axioms: [propext, Classical.choice, Quot.sound]
'Egts.C82_delivered' depends on axioms: [propext, Classical.choice, Quot.sound]
'Egts.C82_eventually' depends on axioms: [propext, Classical.choice, Quot.sound]
'Egts.C83_encodes' depends on axioms: [propext, Classical.choice, Quot.sound]
'Egts.C83_false' depends on axioms: [propext, Classical.choice, Quot.sound]
'Egts.C83_relay_exact' depends on axioms: [propext, Classical.choice, Quot.sound]
'Egts.C83_relay_partial' depends on axioms: [propext, Classical.choice, Quot.sound]
'Egts.C84_options' depends on axioms: [propext, Classical.choice, Quot.sound]
'Egts.C84_refused' depends on axioms: [propext, Classical.choice, Quot.sound]
'Egts.C84_decimal_numbers' depends on axioms: [propext, Quot.sound]
'Egts.C84_numbers_unique' depends on axioms: [propext, Classical.choice, Quot.sound]
'Egts.C84_false_octal' depends on axioms: [propext, Classical.choice, Quot.sound]
'Egts.C84_end_to_end_partial' depends on axioms: [propext, Classical.choice, Quot.sound]
'Egts.C84_decimal_texts' depends on axioms: [propext, Classical.choice, Quot.sound]
'Egts.C84_not_decimal' depends on axioms: [propext, Classical.choice, Quot.sound]
'Egts.C84_decimal_unique' depends on axioms: [propext, Classical.choice, Quot.sound]
'Egts.C84_times' depends on axioms: [propext, Classical.choice, Quot.sound]
'Egts.C84_times_exact' depends on axioms: [propext, Classical.choice, Quot.sound]
'Egts.C84_false_times' depends on axioms: [propext, Classical.choice, Quot.sound]
'Egts.C84_typed_partial' depends on axioms: [propext, Classical.choice, Quot.sound]
'Egts.C85_file' depends on axioms: [propext, Classical.choice, Quot.sound]
'Egts.C85_no_file' depends on axioms: [propext, Classical.choice, Quot.sound]
'Egts.C85_refused' depends on axioms: [propext, Classical.choice, Quot.sound]
'Egts.C86_sends_partial' depends on axioms: [propext, Quot.sound]
'Egts.C86_false' depends on axioms: [propext, Quot.sound]
'Egts.C86_answered' depends on axioms: [propext, Classical.choice, Quot.sound]
'Egts.C87_starts_iff' depends on axioms: [propext, Classical.choice, Quot.sound]
'Egts.C87_serves' depends on axioms: [propext, Classical.choice, Quot.sound]
'Egts.C87_delivered' depends on axioms: [propext, Classical.choice, Quot.sound]
'Egts.C87_eventually' depends on axioms: [propext, Classical.choice, Quot.sound]
'Egts.C87_printed' depends on axioms: [propext, Classical.choice, Quot.sound]
'Egts.C87_printed_eventually' depends on axioms: [propext, Classical.choice, Quot.sound]
'Egts.C88_isolated' depends on axioms: [propext, Classical.choice, Quot.sound]
'Egts.C88_complete' depends on axioms: [propext, Classical.choice, Quot.sound]
'Egts.C88_never_held_up' depends on axioms: [propext, Classical.choice, Quot.sound]
'Egts.C88_crash_has_a_cause' depends on axioms: [propext, Classical.choice, Quot.sound]
'Egts.C88_storages_serial' depends on axioms: [propext, Classical.choice, Quot.sound]
'Egts.C88_attempts' depends on axioms: [propext, Classical.choice, Quot.sound]
'Egts.C88_each_storage' depends on axioms: [propext, Classical.choice, Quot.sound]
'Egts.C88_contains_atomic' depends on axioms: [propext, Classical.choice, Quot.sound]
'Egts.C88_calls' depends on axioms: [propext, Classical.choice, Quot.sound]
'Egts.C88_delivered' depends on axioms: [propext, Classical.choice, Quot.sound]
'Egts.C88_eventually' depends on axioms: [propext, Classical.choice, Quot.sound]
'Egts.C89_records' depends on axioms: [propext, Classical.choice, Quot.sound]
'Egts.C89_subrecords' depends on axioms: [propext, Classical.choice, Quot.sound]
'Egts.C89_success' depends on axioms: [propext, Classical.choice, Quot.sound]
'Egts.C89_package' depends on axioms: [propext, Classical.choice, Quot.sound]
'Egts.C90_three_bits_partial' depends on axioms: [propext, Classical.choice, Quot.sound]
'Egts.C90_false' depends on axioms: [propext, Classical.choice, Quot.sound]
'Egts.C90_false_long' depends on axioms: [propext, Classical.choice, Quot.sound]
'Egts.C91_numbers' depends on axioms: [propext, Classical.choice, Quot.sound]
'Egts.C91_false' depends on axioms: [propext, Classical.choice, Quot.sound]
'Egts.C91_distinct_partial' depends on axioms: [propext, Classical.choice, Quot.sound]
'Egts.C92_in_order' depends on axioms: [propext, Classical.choice, Quot.sound]
'Egts.C92_genuine' depends on axioms: [propext, Classical.choice, Quot.sound]
'Egts.C93_delivered_before_acknowledged' depends on axioms: [propext, Classical.choice, Quot.sound]
'Egts.C93_device' depends on axioms: [propext, Classical.choice, Quot.sound]
'Egts.C94_finite_work' depends on axioms: [propext, Classical.choice, Quot.sound]
'Egts.C94_done' depends on axioms: [propext, Classical.choice, Quot.sound]
'Egts.C94_arrives' depends on axioms: [propext, Classical.choice, Quot.sound]
'Egts.C95_false' depends on axioms: [propext, Classical.choice, Quot.sound]
'Egts.C95_bound_partial' depends on axioms: [propext, Classical.choice, Quot.sound]
'Egts.C95_total_partial' depends on axioms: [propext, Classical.choice, Quot.sound]
'Egts.C95_linear_partial' depends on axioms: [propext, Classical.choice, Quot.sound]
'Egts.C96_got' depends on axioms: [propext, Classical.choice, Quot.sound]
'Egts.C96_exact' depends on axioms: [propext, Classical.choice, Quot.sound]
'Egts.C96_served_partial' depends on axioms: [propext, Classical.choice, Quot.sound]
'Egts.C96_others' depends on axioms: [propext, Classical.choice, Quot.sound]
'Egts.C96_false' depends on axioms: [propext, Classical.choice, Quot.sound]
'Egts.C96_false_for_positions' depends on axioms: [propext, Classical.choice, Quot.sound]
'Egts.C97_acknowledged' depends on axioms: [propext, Classical.choice, Quot.sound]
'Egts.C97_nothing_lost' depends on axioms: [propext, Classical.choice, Quot.sound]
'Egts.C97_own_identifier' depends on axioms: [propext, Quot.sound]
'Egts.C97_progress' depends on axioms: [propext, Classical.choice, Quot.sound]
'Egts.C98_reader' depends on axioms: [propext, Quot.sound]
'Egts.C98_reads_only' depends on axioms: [propext, Quot.sound]
'Egts.C98_unambiguous' depends on axioms: [propext, Quot.sound]
'Egts.C98_comments' depends on axioms: [propext]
'Egts.C98_receiver' depends on axioms: [propext, Classical.choice, Quot.sound]
'Egts.C98_listens' depends on axioms: [propext, Classical.choice, Quot.sound]
'Egts.C98_shipped_says' depends on axioms: [propext, Quot.sound]
'Egts.C98_shipped_settings' depends on axioms: [propext, Quot.sound]
'Egts.C98_shipped_runs' depends on axioms: [propext, Classical.choice, Quot.sound]
'Egts.C98_shipped_chance' depends on axioms: [propext, Classical.choice, Quot.sound]
'Egts.C99_every_time' depends on axioms: [propext, Classical.choice, Quot.sound]
'Egts.C99_false' depends on axioms: [propext, Classical.choice, Quot.sound]
'Egts.C99_recognisable_partial' depends on axioms: [propext, Classical.choice, Quot.sound]
'Egts.C99_copies' depends on axioms: [propext, Classical.choice, Quot.sound]
'Egts.C99_identity_lost' depends on axioms: [propext, Classical.choice, Quot.sound]
'Egts.C100_false' depends on axioms: [propext, Classical.choice, Quot.sound]
'Egts.C100_credentials_ignored' depends on axioms: [propext, Classical.choice, Quot.sound]
'Egts.C100_no_influence' depends on axioms: [propext, Classical.choice, Quot.sound]
'Egts.C100_claimed_partial' depends on axioms: [propext, Classical.choice, Quot.sound]
'Egts.C101_image' depends on axioms: [propext, Classical.choice, Quot.sound]
'Egts.C101_false_custom' depends on axioms: [propext, Classical.choice, Quot.sound]
'Egts.C101_compose' depends on axioms: [propext, Classical.choice, Quot.sound]
'Egts.C101_false_compose' depends on axioms: [propext, Classical.choice, Quot.sound]
'Egts.C101_false_published' depends on axioms: [propext, Classical.choice, Quot.sound]
'Egts.C101_compose_partial' depends on axioms: [propext, Classical.choice, Quot.sound]
'Egts.C102_same_as_alone_partial' depends on axioms: [propext, Classical.choice, Quot.sound]
'Egts.C102_package_afterwards_partial' depends on axioms: [propext, Classical.choice, Quot.sound]
'Egts.C102_differs_in_header_length' depends on axioms: [propext, Classical.choice, Quot.sound]
'Egts.C102_returns' depends on axioms: [propext, Classical.choice, Quot.sound]
'Egts.C102_false' depends on axioms: [propext, Classical.choice, Quot.sound]
'Egts.C102_false_lasting' depends on axioms: [propext, Classical.choice, Quot.sound]
'Egts.C102_lost_update' depends on axioms: [propext, Classical.choice, Quot.sound]
'Egts.C102_false_lengths' depends on axioms: [propext, Classical.choice, Quot.sound]
'Egts.C103_header_ignored' depends on axioms: [propext, Classical.choice, Quot.sound]
'Egts.C103_any_header' depends on axioms: [propext, Quot.sound]
'Egts.C103_receiver' depends on axioms: [propext, Classical.choice, Quot.sound]
'Egts.C103_false' depends on axioms: [propext, Classical.choice, Quot.sound]
'Egts.C103_refused_partial' depends on axioms: [propext, Classical.choice, Quot.sound]
'Egts.C103_answers_unrouted' depends on axioms: [propext, Classical.choice, Quot.sound]
'Egts.C104_contained_partial' depends on axioms: [propext, Classical.choice, Quot.sound]
'Egts.C104_noise_partial' depends on axioms: [propext, Classical.choice, Quot.sound]
'Egts.C104_false_lengths' depends on axioms: [propext, Classical.choice, Quot.sound]
'Egts.C104_false_identity' depends on axioms: [propext, Classical.choice, Quot.sound]
'Egts.C105_lost' depends on axioms: [propext, Classical.choice, Quot.sound]
'Egts.C105_accepts' depends on axioms: [propext, Classical.choice, Quot.sound]
'Egts.C105_liquid' depends on axioms: [propext, Quot.sound]
'Egts.C105_kept_partial' depends on axioms: [propext, Classical.choice, Quot.sound]
'Egts.C105_position' depends on axioms: [propext, Classical.choice, Quot.sound]
'Egts.C105_false' depends on axioms: [propext, Classical.choice, Quot.sound]
'Egts.C106_record' depends on axioms: [propext, Classical.choice, Quot.sound]
'Egts.C106_record_read' depends on axioms: [propext, Classical.choice, Quot.sound]
'Egts.C106_position_partial' depends on axioms: [propext, Classical.choice, Quot.sound]
'Egts.C106_late' depends on axioms: [propext, Classical.choice, Quot.sound]
'Egts.C106_false' depends on axioms: [propext, Classical.choice, Quot.sound]
'Egts.C106_false_agree' depends on axioms: [propext, Classical.choice, Quot.sound]
'Egts.C107_same_results' depends on axioms: [propext, Classical.choice, Quot.sound]
'Egts.C107_same_response' depends on axioms: [propext, Classical.choice, Quot.sound]
'Egts.C107_false' depends on axioms: [propext, Classical.choice, Quot.sound]
'Egts.C107_position' depends on axioms: [propext, Classical.choice, Quot.sound]
'Egts.C107_mixture' depends on axioms: [propext, Classical.choice, Quot.sound]
'Egts.C107_next_partial' depends on axioms: [propext, Classical.choice, Quot.sound]
'Egts.C107_analogue' depends on axioms: [propext]
'Egts.C107_false_next' depends on axioms: [propext]
'Egts.C107_state' does not depend on any axioms
'Egts.C107_result' does not depend on any axioms
'Egts.C107_network' depends on axioms: [propext]
'Egts.C107_precision' depends on axioms: [propext, Classical.choice, Quot.sound]
'Egts.C107_counters' depends on axioms: [propext, Classical.choice, Quot.sound]
'Egts.C107_sensors' depends on axioms: [propext, Classical.choice, Quot.sound]
'Egts.C107_liquid' depends on axioms: [propext, Classical.choice, Quot.sound]
'Egts.C107_short' depends on axioms: [propext]
'Egts.C107_login' depends on axioms: [propext]
'Egts.C107_module' depends on axioms: [propext, Classical.choice, Quot.sound]
'Egts.C107_terminal' depends on axioms: [propext, Classical.choice, Quot.sound]
'Egts.C108_partial' depends on axioms: [propext, Classical.choice, Quot.sound]
'Egts.C108_no_positions' depends on axioms: [propext, Classical.choice, Quot.sound]
'Egts.C108_records_partial' depends on axioms: [propext, Classical.choice, Quot.sound]
'Egts.C108_decode' depends on axioms: [propext, Classical.choice, Quot.sound]
'Egts.C108_south' depends on axioms: [propext, Classical.choice, Quot.sound]
'Egts.C108_west' depends on axioms: [propext, Classical.choice, Quot.sound]
'Egts.C108_false' depends on axioms: [propext, Classical.choice, Quot.sound]
'Egts.C108_early' depends on axioms: [propext, Classical.choice, Quot.sound]
'Egts.C108_unset' depends on axioms: [propext, Classical.choice, Quot.sound]
'Egts.C108_needed' depends on axioms: [propext, Classical.choice, Quot.sound]
'Egts.C109_package' depends on axioms: [propext, Classical.choice, Quot.sound]
'Egts.C109_bytes' depends on axioms: [propext, Quot.sound]
'Egts.C109_record' depends on axioms: [propext, Classical.choice, Quot.sound]
'Egts.C109_stored' depends on axioms: [propext, Classical.choice, Quot.sound]
'Egts.C109_exponent' depends on axioms: [propext, Classical.choice, Quot.sound]
'Egts.C109_indented' depends on axioms: [propext, Classical.choice, Quot.sound]
'Egts.C109_printed' depends on axioms: [propext, Classical.choice, Quot.sound]
'Egts.C110_bound_partial' depends on axioms: [propext, Classical.choice, Quot.sound]
'Egts.C110_long_partial' depends on axioms: [propext, Classical.choice, Quot.sound]
'Egts.C110_answer' depends on axioms: [propext, Classical.choice, Quot.sound]
'Egts.C110_false' depends on axioms: [propext, Classical.choice, Quot.sound]
'Egts.C111_false' depends on axioms: [propext, Classical.choice, Quot.sound]
'Egts.C111_subrecords' depends on axioms: [propext, Classical.choice, Quot.sound]
'Egts.C111_records' depends on axioms: [propext, Classical.choice, Quot.sound]
'Egts.C111_package' depends on axioms: [propext, Classical.choice, Quot.sound]
'Egts.C111_decoder' depends on axioms: [propext, Classical.choice, Quot.sound]
'Egts.C111_stream' depends on axioms: [propext, Classical.choice, Quot.sound]
'Egts.C112_finite' depends on axioms: [propext, Classical.choice, Quot.sound]
'Egts.C112_read' depends on axioms: [propext, Classical.choice, Quot.sound]
'Egts.C112_position' depends on axioms: [propext, Classical.choice, Quot.sound]
'Egts.C112_not_finite' depends on axioms: [propext, Classical.choice, Quot.sound]
'Egts.C112_place' depends on axioms: [propext, Classical.choice, Quot.sound]
'Egts.C112_false' depends on axioms: [propext, Classical.choice, Quot.sound]
'Egts.C112_texts' depends on axioms: [propext, Classical.choice, Quot.sound]
'Egts.C112_decimal' depends on axioms: [propext, Classical.choice, Quot.sound]
'Egts.C113_latitude' depends on axioms: [propext, Classical.choice, Quot.sound]
'Egts.C113_longitude' depends on axioms: [propext, Classical.choice, Quot.sound]
'Egts.C113_stops' depends on axioms: [propext, Classical.choice, Quot.sound]
'Egts.C113_run' depends on axioms: [propext, Classical.choice, Quot.sound]
'Egts.C113_passed' depends on axioms: [propext, Classical.choice, Quot.sound]
'Egts.C113_drift' depends on axioms: [propext, Classical.choice, Quot.sound]
'Egts.C113_settles' depends on axioms: [propext, Classical.choice, Quot.sound]
'Egts.C113_false' depends on axioms: [propext, Classical.choice, Quot.sound]
'Egts.C114_string' depends on axioms: [propext, Classical.choice, Quot.sound]
'Egts.C114_distinct' depends on axioms: [propext, Classical.choice, Quot.sound]
'Egts.C114_number' depends on axioms: [propext, Classical.choice, Quot.sound]
'Egts.C114_name' depends on axioms: [propext, Classical.choice, Quot.sound]
'Egts.C114_quoted' depends on axioms: [propext, Classical.choice, Quot.sound]
'Egts.C114_false' depends on axioms: [propext, Classical.choice, Quot.sound]
'Egts.C114_panic' depends on axioms: [propext, Classical.choice, Quot.sound]
'Egts.C114_null' depends on axioms: [propext, Classical.choice, Quot.sound]
'Egts.C115_packet_partial' depends on axioms: [propext, Classical.choice, Quot.sound]
'Egts.C115_connection_partial' depends on axioms: [propext, Classical.choice, Quot.sound]
'Egts.C115_answers' depends on axioms: [propext, Classical.choice, Quot.sound]
'Egts.C115_reconnect' depends on axioms: [propext, Classical.choice, Quot.sound]
'Egts.C115_order' depends on axioms: [propext, Classical.choice, Quot.sound]
'Egts.C115_own_identity' depends on axioms: [propext, Classical.choice, Quot.sound]
'Egts.C115_false' depends on axioms: [propext, Classical.choice, Quot.sound]
'Egts.C116_closed' depends on axioms: [propext, Classical.choice, Quot.sound]
'Egts.C116_failing' depends on axioms: [propext, Classical.choice, Quot.sound]
'Egts.C116_panics_iff' depends on axioms: [propext]
'Egts.C116_false' depends on axioms: [propext, Classical.choice, Quot.sound]
'Egts.C116_false_panic' depends on axioms: [propext, Classical.choice, Quot.sound]
'Egts.C117_unknown' depends on axioms: [propext, Classical.choice, Quot.sound]
'Egts.C117_accel_refused' depends on axioms: [propext, Classical.choice, Quot.sound]
'Egts.C117_false' depends on axioms: [propext, Classical.choice, Quot.sound]
