{
 "claims": [
  {
   "property": "C01",
   "status": "proved",
   "theorems": [
    "Egts.C01_crc16",
    "Egts.C01_C02_determined",
    "Egts.C01_frames"
   ],
   "note": ""
  },
  {
   "property": "C02",
   "status": "proved",
   "theorems": [
    "Egts.C02_crc8",
    "Egts.C02_frames"
   ],
   "note": ""
  },
  {
   "property": "C03",
   "status": "partial",
   "theorems": [
    "Egts.C03_false",
    "Egts.C03_odd_partial",
    "Egts.C03_burst_partial",
    "Egts.C03_checksum_partial"
   ],
   "note": "False of the code for frames that declare a wrong header length, which Decode never checks (C03_false). Proved for all frames whose declared lengths are right."
  },
  {
   "property": "C04",
   "status": "partial",
   "theorems": [
    "Egts.C04_false",
    "Egts.C04_header_partial"
   ],
   "note": "False of the code for frames that declare a wrong header length (C04_false). Proved for all frames whose declared lengths are right."
  },
  {
   "property": "C05",
   "status": "partial",
   "theorems": [
    "Egts.C05_false",
    "Egts.C05_truncated_partial",
    "Egts.C05_prefix_codes"
   ],
   "note": "False of the code when the last byte is zero (C05_false). Proved: any frame lacking two or more bytes is refused, and the exact code for every prefix."
  },
  {
   "property": "C06",
   "status": "partial",
   "theorems": [
    "Egts.C06_long_body_panics",
    "Egts.C06_false",
    "Egts.C06_application_exact",
    "Egts.C06_application_roundtrip_partial"
   ],
   "note": "False of the code when HL+FDL overflows 16 bits (C06_false: decoder panics). Proved: what the code does for every well-formed package (C06_application_exact): panic in that case, otherwise the package with the subrecords of C28, C29, C32 changed as stated there; hence the round trip for all others."
  },
  {
   "property": "C07",
   "status": "partial",
   "theorems": [
    "Egts.C07_response_exact",
    "Egts.C07_response_roundtrip_partial"
   ],
   "note": "As C06: exact for every well-formed response; the round trip where HL+FDL < 65536 and without the subrecords of C28, C29, C32."
  },
  {
   "property": "C08",
   "status": "partial",
   "theorems": [
    "Egts.C08_encrypted_exact",
    "Egts.C08_encrypted_roundtrip_partial",
    "Egts.C08_no_key_encode",
    "Egts.C08_no_key_decode"
   ],
   "note": "Round trip as C06 (same exclusions, exact theorem for every well-formed package); the two no-key theorems are complete."
  },
  {
   "property": "C09",
   "status": "proved",
   "theorems": [
    "Egts.C09_layout",
    "Egts.C09_receiver_framing"
   ],
   "note": ""
  },
  {
   "property": "C10",
   "status": "proved",
   "theorems": [
    "Egts.C10_repeatable",
    "Egts.C10_receiver"
   ],
   "note": ""
  },
  {
   "property": "C11",
   "status": "partial",
   "theorems": [
    "Egts.C11_false",
    "Egts.C11_panics_iff",
    "Egts.C11_no_panic_partial",
    "Egts.C11_overflow"
   ],
   "note": "False of the code (C11_false, C11_overflow). Proved: the exact set of panicking inputs (C11_panics_iff) and its consequence for honest lengths."
  },
  {
   "property": "C12",
   "status": "proved",
   "theorems": [
    "Egts.C12_stages",
    "Egts.C12_codes",
    "Egts.C12_success_package",
    "Egts.C12_identifier"
   ],
   "note": ""
  },
  {
   "property": "C13",
   "status": "partial",
   "theorems": [
    "Egts.C13_false",
    "Egts.C13_reuse_partial"
   ],
   "note": "False of the code: routing fields of the receiver survive an unrouted frame (C13_false). Proved: nothing else does."
  },
  {
   "property": "C14",
   "status": "partial",
   "theorems": [
    "Egts.C14_false",
    "Egts.C14_header_partial"
   ],
   "note": "False of the code: every body-less package is refused with 132 (C14_false). Proved: the header fields are recovered nevertheless."
  },
  {
   "property": "C15",
   "status": "partial",
   "theorems": [
    "Egts.C15_exact",
    "Egts.C15_false",
    "Egts.C15_length_partial"
   ],
   "note": "False of the code for bodies of 65536 bytes or more (C15_false). Proved: exact behaviour for all lengths; right below 65536."
  },
  {
   "property": "C16",
   "status": "partial",
   "theorems": [
    "Egts.C16_service_sets_exact",
    "Egts.C16_service_sets_partial"
   ],
   "note": "False of the code without `Sound` (C17_false). Proved: what the code does for every list of well-formed service records (C16_service_sets_exact); the round trip for all without the subrecords of C28, C29, C32."
  },
  {
   "property": "C17",
   "status": "partial",
   "theorems": [
    "Egts.C17_false",
    "Egts.C17_record_sets_exact",
    "Egts.C17_record_sets_partial"
   ],
   "note": "False of the code for counters with counter 2 (C17_false). Proved: what the code does for every list of well-formed subrecords (C17_record_sets_exact); the round trip for all others."
  },
  {
   "property": "C18",
   "status": "proved",
   "theorems": [
    "Egts.C18_any_subrecords",
    "Egts.C18_any_records",
    "Egts.C18_record_sets_compose",
    "Egts.C18_service_sets_compose"
   ],
   "note": ""
  },
  {
   "property": "C19",
   "status": "proved",
   "theorems": [
    "Egts.C19_inserted_anywhere",
    "Egts.C19_unknown_skipped",
    "Egts.C19_unknown_inserted"
   ],
   "note": ""
  },
  {
   "property": "C20",
   "status": "proved",
   "theorems": [
    "Egts.C20_response_nesting",
    "Egts.C20_record_set_nesting",
    "Egts.C20_service_set_nesting",
    "Egts.C20_iterations",
    "Egts.C20_bound_never_hit",
    "Egts.C20_terminates"
   ],
   "note": ""
  },
  {
   "property": "C21",
   "status": "proved",
   "theorems": [
    "Egts.C21_ack_fits",
    "Egts.C21_record_count"
   ],
   "note": ""
  },
  {
   "property": "C22",
   "status": "partial",
   "theorems": [
    "Egts.C22_own_frames_partial",
    "Egts.C22_false",
    "Egts.C22_false_position",
    "Egts.C22_subrecords_exact",
    "Egts.C22_records_exact",
    "Egts.C22_frames_exact_partial",
    "Egts.C22_encrypted_exact_partial"
   ],
   "note": "As stated the claim is false: a subrecord of unknown type is lost and its record keeps the old length (C22_false); coordinates may drift by one wire unit even in frames the library made (C22_false_position). Proved: every frame the library produces from a well-formed package, encrypted or not, is reproduced byte for byte, under the condition that coordinates do not drift and that there is no second counter and no asymmetric analog sensor (C28, C29). Proved exactly for frames of any origin: an accepted frame in the clear, with an honest header length and no cut field, encodes without error, and to the same bytes if and only if nothing follows it, it has a body and each subrecord is kept (Spec/Kept.lean lists for each type the bytes that are; C22_frames_exact_partial, C22_records_exact, C22_subrecords_exact); the same for encrypted frames (C22_encrypted_exact_partial). Missing: the exact condition for cut frames."
  },
  {
   "property": "C23",
   "status": "partial",
   "theorems": [
    "Egts.C23_false",
    "Egts.C23_type_inference_partial"
   ],
   "note": "False for module data and dispatcher identity (C23_false); proved for the other 13 kinds."
  },
  {
   "property": "C24",
   "status": "proved",
   "theorems": [
    "Egts.C24_record_response",
    "Egts.C24_result_code",
    "Egts.C24_state_data"
   ],
   "note": ""
  },
  {
   "property": "C25",
   "status": "proved",
   "theorems": [
    "Egts.C25_abs_counter",
    "Egts.C25_abs_analog",
    "Egts.C25_in_range"
   ],
   "note": ""
  },
  {
   "property": "C26",
   "status": "proved",
   "theorems": [
    "Egts.C26_liquid_level",
    "Egts.C26_sensor_number_8"
   ],
   "note": ""
  },
  {
   "property": "C27",
   "status": "proved",
   "theorems": [
    "Egts.C27_ext_pos",
    "Egts.C27_ext_pos_fresh"
   ],
   "note": ""
  },
  {
   "property": "C28",
   "status": "partial",
   "theorems": [
    "Egts.C28_false",
    "Egts.C28_ad_sensors_partial",
    "Egts.C28_ad_sensors_exact",
    "Egts.C28_analog_flags_mirrored",
    "Egts.C28_mirror_necessary"
   ],
   "note": "False of the code: analog presence flags are written in reverse order (C28_false). Proved: what is read back for all 65536 combinations and all values (C28_ad_sensors_exact); round trip exactly for palindromic flags."
  },
  {
   "property": "C29",
   "status": "partial",
   "theorems": [
    "Egts.C29_false",
    "Egts.C29_counters_exact",
    "Egts.C29_counters_partial"
   ],
   "note": "False of the code: counter 2 is decoded into counter 1 (C29_false). Proved: exact behaviour for all 256 combinations."
  },
  {
   "property": "C30",
   "status": "proved",
   "theorems": [
    "Egts.C30_term_identity"
   ],
   "note": ""
  },
  {
   "property": "C31",
   "status": "proved",
   "theorems": [
    "Egts.C31_auth_info",
    "Egts.C31_module_data",
    "Egts.C31_dispatcher_identity"
   ],
   "note": ""
  },
  {
   "property": "C32",
   "status": "partial",
   "theorems": [
    "Egts.C32_false",
    "Egts.C32_pos_data_exact",
    "Egts.C32_pos_data_partial",
    "Egts.C32_speed_limit"
   ],
   "note": "False of the code for a direction whose ninth bit is set and whose eighth is not (C32_false). Proved: what is read back for all values (C32_pos_data_exact); the round trip for all others."
  },
  {
   "property": "C33",
   "status": "proved",
   "theorems": [
    "Egts.C33_latitude_drift",
    "Egts.C33_longitude_drift",
    "Egts.C33_drift_occurs"
   ],
   "note": ""
  },
  {
   "property": "C34",
   "status": "proved",
   "theorems": [
    "Egts.C34_latitude_accuracy",
    "Egts.C34_longitude_accuracy"
   ],
   "note": ""
  },
  {
   "property": "C35",
   "status": "partial",
   "theorems": [
    "Egts.C35_false",
    "Egts.C35_course_partial",
    "Egts.C35_direction_exact",
    "Egts.C35_direction_field_ambiguous"
   ],
   "note": "False of the code: DIRH is or-ed into bit 7 of an 8-bit value (C35_false). Proved: exact when DIRH = 0; what the stored field is for every course (C35_direction_exact)."
  },
  {
   "property": "C36",
   "status": "partial",
   "theorems": [
    "Egts.C36_false",
    "Egts.C36_altitude_exact",
    "Egts.C36_altitude_partial"
   ],
   "note": "False of the code: altitude is read as four bytes (C36_false). Proved: exact value read; right when no source data follows."
  },
  {
   "property": "C37",
   "status": "proved",
   "theorems": [
    "Egts.C37_subrecord_length",
    "Egts.C37_record_set_length",
    "Egts.C37_service_set_length",
    "Egts.C37_response_length"
   ],
   "note": ""
  },
  {
   "property": "C38",
   "status": "partial",
   "theorems": [
    "Egts.C38_anywhere_partial",
    "Egts.C38_false",
    "Egts.C38_subrecord_flags_partial",
    "Egts.C38_record_flags",
    "Egts.C38_package_flags",
    "Egts.C38_flag_byte"
   ],
   "note": "False of the code: terminal identity ignores a malformed flag string (C38_false). Proved for all other subrecords, records and packages, wherever in a package the string is (C38_anywhere_partial)."
  },
  {
   "property": "C39",
   "status": "partial",
   "theorems": [
    "Egts.C39_exact",
    "Egts.C39_false",
    "Egts.C39_record_response_partial",
    "Egts.C39_result_code_partial",
    "Egts.C39_state_data_partial",
    "Egts.C39_abs_analog_partial",
    "Egts.C39_pos_partial",
    "Egts.C39_auth_partial",
    "Egts.C39_module_partial"
   ],
   "note": "False of the code: a short last field is accepted (C39_false). Proved per kind how much truncation is rejected, and exactly which beginnings of an encoded subrecord are accepted (C39_exact). Exactly which byte strings are accepted is C81."
  },
  {
   "property": "C40",
   "status": "partial",
   "theorems": [
    "Egts.C40_ext_pos",
    "Egts.C40_ad_sensors",
    "Egts.C40_counters_partial",
    "Egts.C40_term_identity",
    "Egts.C40_pos",
    "Egts.C40_service_record"
   ],
   "note": "C40_counters_partial excludes counter 2 (C29)."
  },
  {
   "property": "C41",
   "status": "proved",
   "theorems": [
    "Egts.C41_segmentation",
    "Egts.C41_any_split"
   ],
   "note": ""
  },
  {
   "property": "C42",
   "status": "proved",
   "theorems": [
    "Egts.C42_pipelined",
    "Egts.C42_each_frame",
    "Egts.C42_until_panic",
    "Egts.C42_library_frames"
   ],
   "note": ""
  },
  {
   "property": "C43",
   "status": "proved",
   "theorems": [
    "Egts.C43_not_egts",
    "Egts.C43_cut_frame",
    "Egts.C43_short_tail",
    "Egts.C43_every_stream"
   ],
   "note": ""
  },
  {
   "property": "C44",
   "status": "proved",
   "theorems": [
    "Egts.C44_acknowledged"
   ],
   "note": ""
  },
  {
   "property": "C45",
   "status": "proved",
   "theorems": [
    "Egts.C45_rejected",
    "Egts.C45_survives"
   ],
   "note": ""
  },
  {
   "property": "C46",
   "status": "proved",
   "theorems": [
    "Egts.C46_response_silent",
    "Egts.C46_record_response_silent",
    "Egts.C46_no_ping_pong"
   ],
   "note": ""
  },
  {
   "property": "C47",
   "status": "partial",
   "theorems": [
    "Egts.C47_false",
    "Egts.C47_false_after_response",
    "Egts.C47_all_saved_partial",
    "Egts.C47_one_per_record"
   ],
   "note": "False of the code: several positions in a record, or records after a record response (C47_false, C47_false_after_response). Proved otherwise, and the exact number saved."
  },
  {
   "property": "C48",
   "status": "proved",
   "theorems": [
    "Egts.C48_saved",
    "Egts.C48_nothing_else"
   ],
   "note": ""
  },
  {
   "property": "C49",
   "status": "proved",
   "theorems": [
    "Egts.C49_all_saved",
    "Egts.C49_attribution",
    "Egts.C49_fresh"
   ],
   "note": ""
  },
  {
   "property": "C50",
   "status": "partial",
   "theorems": [
    "Egts.C50_stored_ids",
    "Egts.C50_false",
    "Egts.C50_both_counters_partial",
    "Egts.C50_one_counter"
   ],
   "note": "False of the code: bytes of counter 110 are reversed when 111 is present (C50_false). Proved: exact stored number, and for which numbers it is right."
  },
  {
   "property": "C51",
   "status": "partial",
   "theorems": [
    "Egts.C51_false",
    "Egts.C51_sent",
    "Egts.C51_content_partial"
   ],
   "note": "False of the code for every packet id (C51_false): the packet has type response but a record set as its body. Proved: everything else about it is right."
  },
  {
   "property": "C52",
   "status": "partial",
   "theorems": [
    "Egts.C52_false",
    "Egts.C52_offered_before_ack_partial"
   ],
   "note": "As stated the claim is false: a positive acknowledgement is written even though a storage refused the record (C52_false, for every storage that refuses). Proved instead: whatever the storages answer, every saved record was offered to the repository before the acknowledgement of its packet (C52_offered_before_ack_partial)."
  },
  {
   "property": "C53",
   "status": "proved",
   "theorems": [
    "Egts.C53_all_accept",
    "Egts.C53_first_failure",
    "Egts.C53_nil_iff"
   ],
   "note": ""
  },
  {
   "property": "C54",
   "status": "proved",
   "theorems": [
    "Egts.C54_succeeds_iff",
    "Egts.C54_errors",
    "Egts.C54_adds_each_once",
    "Egts.C54_any_order",
    "Egts.C54_never_empty",
    "Egts.C54_after_failure"
   ],
   "note": ""
  },
  {
   "property": "C55",
   "status": "proved",
   "theorems": [
    "Egts.C55_isolated",
    "Egts.C55_complete",
    "Egts.C55_never_held_up",
    "Egts.C55_storages_serial",
    "Egts.C55_crash_has_a_cause"
   ],
   "note": ""
  },
  {
   "property": "C56",
   "status": "partial",
   "theorems": [
    "Egts.C56_crash_iff",
    "Egts.C56_false_short",
    "Egts.C56_false",
    "Egts.C56_honest_partial",
    "Egts.C56_process_dies"
   ],
   "note": "False of the code (C56_false, C56_false_short). Proved: exactly which streams crash the process, and that honest frames do not."
  },
  {
   "property": "C57",
   "status": "partial",
   "theorems": [
    "Egts.C57_same_effects",
    "Egts.C57_false",
    "Egts.C57_false_in_packet",
    "Egts.C57_after_eof_partial",
    "Egts.C57_timeout_otherwise_unused"
   ],
   "note": "As stated the claim is false: a connection that never sends anything, or stops inside a packet, is never closed (C57_false, C57_false_in_packet). Proved: timing never changes what is saved and written (C57_same_effects), after the peer has closed the connection is closed (C57_after_eof_partial), and the time limit has no other use."
  },
  {
   "property": "C58",
   "status": "partial",
   "theorems": [
    "Egts.C58_false",
    "Egts.C58_false_spins",
    "Egts.C58_no_new_connections_partial",
    "Egts.C58_stop_result",
    "Egts.C58_every_connection_handled"
   ],
   "note": "As stated the claim is false: Run never returns after Stop and repeats failing Accept calls (C58_false, C58_false_spins). Proved: after Stop no connection is accepted (C58_no_new_connections_partial) and what Stop returns (C58_stop_result)."
  },
  {
   "property": "C59",
   "status": "partial",
   "theorems": [
    "Egts.C59_end_to_end_partial",
    "Egts.C59_false_time",
    "Egts.C59_false_exit_code",
    "Egts.C59_false_no_timeout",
    "Egts.C59_false_long_timeout",
    "Egts.C59_false_panic",
    "Egts.C59_false_negative"
   ],
   "note": "Proved: end to end, everything except two parts of the claim that are false of the code: the saved time is the constant 2021-02-20 00:30:40 UTC instead of the given timestamp (C59_false_time) and the exit code is always 1 (C59_false_exit_code). Also false: the default timeout of 0 never accepts a reply; a positive response without records makes packet-gen panic. A timeout of more than 292 years overflows (C59_false_long_timeout). Negative coordinates are never saved as given (C59_false_negative)."
  },
  {
   "property": "C60",
   "status": "proved",
   "theorems": [
    "Egts.C60_incremental",
    "Egts.C60_immediate"
   ],
   "note": ""
  },
  {
   "property": "C61",
   "status": "proved",
   "theorems": [
    "Egts.C61_pos_decode_exact"
   ],
   "note": ""
  },
  {
   "property": "C62",
   "status": "proved",
   "theorems": [
    "Egts.C62_writes_framed",
    "Egts.C62_stream_can_be_cut",
    "Egts.C62_ack_length"
   ],
   "note": ""
  },
  {
   "property": "C63",
   "status": "proved",
   "theorems": [
    "Egts.C63_success_is_earned",
    "Egts.C63_nothing_sent_otherwise"
   ],
   "note": ""
  },
  {
   "property": "C64",
   "status": "partial",
   "theorems": [
    "Egts.C64_response",
    "Egts.C64_result_code",
    "Egts.C64_state_data",
    "Egts.C64_abs_counter",
    "Egts.C64_abs_analog",
    "Egts.C64_liquid_level",
    "Egts.C64_ext_pos",
    "Egts.C64_ad_sensors_decode",
    "Egts.C64_ad_sensors_encode_partial",
    "Egts.C64_counters_encode",
    "Egts.C64_counters_decode_partial",
    "Egts.C64_term_identity",
    "Egts.C64_auth_info",
    "Egts.C64_module_data",
    "Egts.C64_dispatcher_identity",
    "Egts.C64_pos_data_encode",
    "Egts.C64_pos_data_decode_partial"
   ],
   "note": "Encoder and decoder proved against the tables for every kind, with exceptions: the digital/analog sensors encoder emits the layout exactly for mirror-symmetric analog masks (C64_ad_sensors_encode_partial is an iff); the counters decoder puts counter 2 in the place of counter 1 (C64_counters_decode_partial states what it does); a position with altitude must end the subrecord because the altitude is read as four bytes. The storage record (protobuf) has no layout of its own."
  },
  {
   "property": "C65",
   "status": "proved",
   "theorems": [
    "Egts.C65_subrecord",
    "Egts.C65_subrecord_decode",
    "Egts.C65_record",
    "Egts.C65_record_decode",
    "Egts.C65_concatenation",
    "Egts.C65_concatenation_records",
    "Egts.C65_response",
    "Egts.C65_response_decode"
   ],
   "note": "Encoding and decoding, the latter for arbitrary record data and arbitrary following bytes."
  },
  {
   "property": "C66",
   "status": "proved",
   "theorems": [
    "Egts.C66_lossless",
    "Egts.C66_injective",
    "Egts.C66_saved_lossless",
    "Egts.C66_connection_lossless"
   ],
   "note": "The JSON text, including Go's shortest float formatting, is modelled byte by byte; the reader in Spec/Json.lean is an independent JSON parser. Strings are restricted to ASCII, which the receiver's are."
  },
  {
   "property": "C67",
   "status": "proved",
   "theorems": [
    "Egts.C67_plausible",
    "Egts.C67_plausible_connection",
    "Egts.C67_degrees"
   ],
   "note": "All received bytes, over whole connections."
  },
  {
   "property": "C68",
   "status": "partial",
   "theorems": [
    "Egts.C68_false",
    "Egts.C68_magnitudes",
    "Egts.C68_northeast_partial"
   ],
   "note": "False of the code: the receiver drops LAHS and LOHS, so a position at 55 degrees south is saved as 55 degrees north (C68_false). Proved for positions in the north-east quarter; everywhere else the magnitudes are saved (C68_magnitudes)."
  },
  {
   "property": "C69",
   "status": "proved",
   "theorems": [
    "Egts.C69_one_delivery",
    "Egts.C69_record",
    "Egts.C69_every_attempt",
    "Egts.C69_all_delivered",
    "Egts.C69_reads_back"
   ],
   "note": "The client libraries are arbitrary functions of the call and a world of any type; what they do with a call is not modelled. The whole receiver is covered: loading, any interleaving of connections, refusals, and the JSON text read back."
  },
  {
   "property": "C70",
   "status": "partial",
   "theorems": [
    "Egts.C70_starts_iff",
    "Egts.C70_nil_config",
    "Egts.C70_same_connection",
    "Egts.C70_false",
    "Egts.C70_false_unreachable"
   ],
   "note": "False of Redis: settings without db are refused although the code means to default to 0 (C70_false), and an unreachable server is not noticed at the start (C70_false_unreachable). C70_starts_iff gives the exact condition for all six storages."
  },
  {
   "property": "C71",
   "status": "partial",
   "theorems": [
    "Egts.C71_printed_partial",
    "Egts.C71_false"
   ],
   "note": "False at log levels WARN and ERROR: every record is discarded and reported as saved (C71_false)."
  },
  {
   "property": "C72",
   "status": "partial",
   "theorems": [
    "Egts.C72_accepts_iff",
    "Egts.C72_settings",
    "Egts.C72_storages",
    "Egts.C72_listens",
    "Egts.C72_ttl_partial",
    "Egts.C72_false",
    "Egts.C72_false_readme",
    "Egts.C72_level"
   ],
   "note": "False of the TTL: numbers of seconds above 9223372036 wrap to a negative TTL (C72_false). The key con_live_sec of the README and the shipped files is ignored, the key read is conn_ttl (C72_false_readme). The YAML parser is taken from the resolved document on."
  },
  {
   "property": "C73",
   "status": "partial",
   "theorems": [
    "Egts.C73_target_partial",
    "Egts.C73_false_postgres",
    "Egts.C73_false_rabbitmq"
   ],
   "note": "False as stated: settings are put into connection strings without quoting (C73_false_postgres: an empty password; C73_false_rabbitmq: a percent sign). Proved for settings that need no quotes or escapes (Plain), a condition for PostgreSQL and RabbitMQ, and on the size of numbers for Tarantool; without condition for MySQL, NATS and Redis. The readers of connection strings (Spec/Dsn.lean) follow lib/pq v1.1.1, streadway/amqp and net/url, which are not in /repo."
  },
  {
   "property": "C74",
   "status": "proved",
   "theorems": [
    "Egts.C74_config_to_storages",
    "Egts.C74_not_silent"
   ],
   "note": "The order of loading is arbitrary (Go maps). Whole chain: main, configuration, loading, any history of connections, calls of the client libraries."
  },
  {
   "property": "C75",
   "status": "proved",
   "theorems": [
    "Egts.C75_roundtrip",
    "Egts.C75_decoded_roundtrip",
    "Egts.C75_required"
   ],
   "note": "Valid: required fields set, values of the kinds of the fields, byte strings and unknown fields below 4 GiB; every record returned by Decode satisfies it (C75_decoded_roundtrip uses this). protobuf-go is modelled from its documented behaviour (v1.26.0), it is not in /repo."
  },
  {
   "property": "C76",
   "status": "proved",
   "theorems": [
    "Egts.C76_decode_iff",
    "Egts.C76_unambiguous",
    "Egts.C76_encode_format",
    "Egts.C76_encode_order",
    "Egts.C76_published_description"
   ],
   "note": "The format is specified as a relation (Spec/Proto.lean) independent of the parser; protoFile is transcribed from the .proto file."
  },
  {
   "property": "C77",
   "status": "partial",
   "theorems": [
    "Egts.C77_false",
    "Egts.C77_only_the_bytes_partial",
    "Egts.C77_honest"
   ],
   "note": "False: a frame that declares too long a header has its checksums taken over memory behind the slice; the same bytes are accepted, refused or panic accordingly (C77_false). It holds of every input that does not panic by itself."
  },
  {
   "property": "C78",
   "status": "proved",
   "theorems": [
    "Egts.C78_following_bytes",
    "Egts.C78_first_of_many"
   ],
   "note": "Complete: as long as HL, FDL and the flags say with the header length computed from the flags. The hypothesis that the frame alone does not panic is decided by C11_panics_iff."
  },
  {
   "property": "C79",
   "status": "partial",
   "theorems": [
    "Egts.C79_false",
    "Egts.C79_no_panic_partial",
    "Egts.C79_decoded"
   ],
   "note": "False: a subrecord with a type and a nil content panics (C79_false). Holds of all others, in particular of all that Decode returns (C79_decoded)."
  },
  {
   "property": "C80",
   "status": "partial",
   "theorems": [
    "Egts.C80_false_strings",
    "Egts.C80_false_error",
    "Egts.C80_read_back_partial",
    "Egts.C80_lossless_iff",
    "Egts.C80_same_text",
    "Egts.C80_error_iff",
    "Egts.C80_decoded_partial"
   ],
   "note": "False: bytes that are not UTF-8 become U+FFFD, so different packages have the same text (C80_false_strings); a fuel level that is not a number gives an error (C80_false_error). Proved: what is read back, exactly (C80_read_back_partial); when that is the whole package (C80_lossless_iff); when there is an error (C80_error_iff); both for decoded packages (C80_decoded_partial)."
  },
  {
   "property": "C81",
   "status": "proved",
   "theorems": [
    "Egts.C81_record_response",
    "Egts.C81_result_code",
    "Egts.C81_state_data",
    "Egts.C81_abs_counter",
    "Egts.C81_abs_analog",
    "Egts.C81_dispatcher",
    "Egts.C81_liquid_level",
    "Egts.C81_ext_pos",
    "Egts.C81_ad_sensors",
    "Egts.C81_counters",
    "Egts.C81_term_identity",
    "Egts.C81_auth",
    "Egts.C81_module",
    "Egts.C81_subrecords",
    "Egts.C81_records",
    "Egts.C81_unambiguous",
    "Egts.C81_response",
    "Egts.C81_package"
   ],
   "note": "Position data: C61_pos_decode_exact; EGTS+ data: C76."
  },
  {
   "property": "C82",
   "status": "proved",
   "theorems": [
    "Egts.C82_connection",
    "Egts.C82_totals",
    "Egts.C82_delivered",
    "Egts.C82_eventually"
   ],
   "note": ""
  },
  {
   "property": "C83",
   "status": "partial",
   "theorems": [
    "Egts.C83_encodes",
    "Egts.C83_false",
    "Egts.C83_relay_exact",
    "Egts.C83_relay_partial"
   ],
   "note": "False of the code as it is: a record that lost a subrecord of unknown type keeps its declared length, and the next hop rejects the frame or takes the bytes of the following record for it (C83_false). Proved: Encode never fails on an accepted package (C83_encodes); with the lengths unset, which a relay can do, every accepted package in the clear with at least one record (or a response) arrives as Package.ReadBack says (C83_relay_exact), and is the same unless it has an analog sensor without its mirror image (C28) or a second counter (C29). Conditions: altitudes fit 24 bits, HL+FDL fits 16 bits."
  },
  {
   "property": "C84",
   "status": "partial",
   "theorems": [
    "Egts.C84_options",
    "Egts.C84_refused",
    "Egts.C84_decimal_numbers",
    "Egts.C84_numbers_unique",
    "Egts.C84_false_octal",
    "Egts.C84_end_to_end_partial",
    "Egts.C84_decimal_texts",
    "Egts.C84_not_decimal",
    "Egts.C84_decimal_unique",
    "Egts.C84_times",
    "Egts.C84_times_exact",
    "Egts.C84_false_times",
    "Egts.C84_typed_partial"
   ],
   "note": "False of the code as it is: a zero in front makes a number octal, -pid 010 is sent as 8 and -pid 09 is refused (C84_false_octal). Proved: every command line that gives valid options, in any spelling and order, has the effect of the last value of each (C84_options); every other one sends nothing (C84_refused); which texts are numbers is specified by a grammar; decimal numbers without a zero in front reach the storage as typed (C84_end_to_end_partial), and so do coordinates typed as decimal numbers, with any time of RFC 3339 (C84_typed_partial). Decimal numbers become a nearest float64 and are refused only if too large (C84_decimal_texts); every time of RFC 3339 is understood (C84_times), but others are accepted too (C84_false_times; exactly which is C84_times_exact). What ParseFloat makes of texts other than decimal numbers is a parameter."
  },
  {
   "property": "C85",
   "status": "proved",
   "theorems": [
    "Egts.C85_file",
    "Egts.C85_no_file",
    "Egts.C85_refused"
   ],
   "note": ""
  },
  {
   "property": "C86",
   "status": "partial",
   "theorems": [
    "Egts.C86_sends_partial",
    "Egts.C86_false",
    "Egts.C86_answered"
   ],
   "note": "False of the code as it is: rec[:-1] takes a digit away if the last line is not ended, and the script ends with a ValueError before sending that packet (C86_false, for every such file). Proved: if every line is ended exactly the packets of the file are sent (C86_sends_partial); for packets as devices send them an answer can always be received (C86_answered)."
  },
  {
   "property": "C87",
   "status": "proved",
   "theorems": [
    "Egts.C87_starts_iff",
    "Egts.C87_serves",
    "Egts.C87_delivered",
    "Egts.C87_eventually",
    "Egts.C87_printed",
    "Egts.C87_printed_eventually"
   ],
   "note": ""
  },
  {
   "property": "C88",
   "status": "proved",
   "theorems": [
    "Egts.C88_isolated",
    "Egts.C88_complete",
    "Egts.C88_never_held_up",
    "Egts.C88_crash_has_a_cause",
    "Egts.C88_storages_serial",
    "Egts.C88_attempts",
    "Egts.C88_each_storage",
    "Egts.C88_contains_atomic",
    "Egts.C88_calls",
    "Egts.C88_delivered",
    "Egts.C88_eventually"
   ],
   "note": ""
  },
  {
   "property": "C89",
   "status": "proved",
   "theorems": [
    "Egts.C89_records",
    "Egts.C89_subrecords",
    "Egts.C89_success",
    "Egts.C89_package"
   ],
   "note": ""
  },
  {
   "property": "C90",
   "status": "partial",
   "theorems": [
    "Egts.C90_three_bits_partial",
    "Egts.C90_false",
    "Egts.C90_false_long"
   ],
   "note": "False of frames with routing fields in one case: the first bit of the frame and the last of the header can be altered together and every such frame is still accepted, with another protocol version, because the header has exactly 128 bits, one more than the 8-bit polynomial can tell apart, and Decode does not check the version (C90_false). Proved in all other cases (C90_three_bits_partial). The bound of 4093 bytes is sharp: in every response of 4094 bytes two bits can be altered so that it is accepted as the response to another packet (C90_false_long)."
  },
  {
   "property": "C91",
   "status": "partial",
   "theorems": [
    "Egts.C91_numbers",
    "Egts.C91_false",
    "Egts.C91_distinct_partial"
   ],
   "note": "False of the code as it is: the acknowledgement of a login and the authorization result sent after it have the same packet identifier (C91_false, for every login). Proved: everything sent in answer to a frame is numbered one above it, modulo 65536, at most two packets for each frame (C91_numbers); without logins different numbers are answered with different numbers (C91_distinct_partial)."
  },
  {
   "property": "C92",
   "status": "proved",
   "theorems": [
    "Egts.C92_in_order",
    "Egts.C92_genuine"
   ],
   "note": ""
  },
  {
   "property": "C93",
   "status": "proved",
   "theorems": [
    "Egts.C93_delivered_before_acknowledged",
    "Egts.C93_device"
   ],
   "note": ""
  },
  {
   "property": "C94",
   "status": "proved",
   "theorems": [
    "Egts.C94_finite_work",
    "Egts.C94_done",
    "Egts.C94_arrives"
   ],
   "note": ""
  },
  {
   "property": "C95",
   "status": "partial",
   "theorems": [
    "Egts.C95_false",
    "Egts.C95_bound_partial",
    "Egts.C95_total_partial",
    "Egts.C95_linear_partial"
   ],
   "note": "False of the code as it is: what follows a record response is decoded as records again, and every record gets a buffer of its declared length, so an accepted packet of 13 d + 13 bytes needs 65533 d bytes at a time (C95_false). Exact up to rounding: C95_bound_partial. Without record responses the property holds (C95_linear_partial). Only these buffers are counted."
  },
  {
   "property": "C96",
   "status": "partial",
   "theorems": [
    "Egts.C96_got",
    "Egts.C96_exact",
    "Egts.C96_served_partial",
    "Egts.C96_others",
    "Egts.C96_false",
    "Egts.C96_false_for_positions"
   ],
   "note": "False of the code as it is: the receiver reads and writes in the same goroutine and sets no deadline for writing, so a client that reads nothing, for whom the operating system takes n bytes, stops its goroutine for ever after n + 1 positions at most; what it sends after them is never looked at and the connection is not closed (C96_false, C96_false_for_positions). Exactly how far it comes: C96_exact. A client that reads its answers is served completely (C96_served_partial); no other connection is harmed (C96_others). Bytes in flight are abstracted to the room that the operating system has for them."
  },
  {
   "property": "C97",
   "status": "proved",
   "theorems": [
    "Egts.C97_acknowledged",
    "Egts.C97_nothing_lost",
    "Egts.C97_own_identifier",
    "Egts.C97_progress"
   ],
   "note": "Under the condition that the storages report no error (otherwise packets are acknowledged all the same, C52). A position in a packet without an identifier of its own is filed under the last identifier sent before on the same connection, or 0; C97_own_identifier says when that makes no difference."
  },
  {
   "property": "C98",
   "status": "proved",
   "theorems": [
    "Egts.C98_reader",
    "Egts.C98_reads_only",
    "Egts.C98_unambiguous",
    "Egts.C98_comments",
    "Egts.C98_receiver",
    "Egts.C98_listens",
    "Egts.C98_shipped_says",
    "Egts.C98_shipped_settings",
    "Egts.C98_shipped_runs",
    "Egts.C98_shipped_chance"
   ],
   "note": "yaml.v2 is any reader that is right about the texts described in Spec/YamlText.lean; that there is one is C98_reader. The shipped file sets no TTL: its key con_live_sec is ignored (C98_shipped_settings, C72_false_readme). If a server does not answer, chance decides where the records go (C98_shipped_chance)."
  },
  {
   "property": "C99",
   "status": "partial",
   "theorems": [
    "Egts.C99_every_time",
    "Egts.C99_false",
    "Egts.C99_recognisable_partial",
    "Egts.C99_copies",
    "Egts.C99_identity_lost"
   ],
   "note": "False (C99_false). Proved instead: each receipt stores the same records again but for the time of receipt, as often as the packet is received (C99_every_time, C99_copies), so repetitions can be recognised afterwards (C99_recognisable_partial); except for packets that do not say whose positions they carry, which are filed under 0 when sent again on a new connection (C99_identity_lost)."
  },
  {
   "property": "C100",
   "status": "partial",
   "theorems": [
    "Egts.C100_false",
    "Egts.C100_credentials_ignored",
    "Egts.C100_no_influence",
    "Egts.C100_claimed_partial"
   ],
   "note": "False: for every identifier a single packet without any login is stored under it and acknowledged (C100_false). Exactly: what the receiver does with a packet does not depend on the authorization data in it (C100_credentials_ignored), and what is stored does not even depend on whether there are any (C100_no_influence). What remains true: positions are stored under identifiers only that came on the same connection, or 0 (C100_claimed_partial)."
  },
  {
   "property": "C101",
   "status": "partial",
   "theorems": [
    "Egts.C101_image",
    "Egts.C101_false_custom",
    "Egts.C101_compose",
    "Egts.C101_false_compose",
    "Egts.C101_false_published",
    "Egts.C101_compose_partial"
   ],
   "note": "False: the README mounts /etc/egts-receiver, but the image reads /etc/egts-receviver, so what is mounted is ignored (C101_false_custom); in the docker-compose example the directory is right, but the file must be called config.yaml, and with the repository's configs the receiver does not start (C101_false_compose); the shipped configuration listens on 127.0.0.1, which cannot be reached from outside the container (C101_false_published). Exactly what is read: C101_compose; what works: C101_image, C101_compose_partial."
  },
  {
   "property": "C102",
   "status": "partial",
   "theorems": [
    "Egts.C102_same_as_alone_partial",
    "Egts.C102_package_afterwards_partial",
    "Egts.C102_differs_in_header_length",
    "Egts.C102_returns",
    "Egts.C102_false",
    "Egts.C102_false_lasting",
    "Egts.C102_lost_update",
    "Egts.C102_false_lengths"
   ],
   "note": "False: Encode sets HeaderLength to 11 and adds 5 in a second step, and sets FrameDataLength. Two goroutines that encode one routed package can get a frame with a wrong header length, which Decode refuses as damaged (C102_false), and the wrong length can stay in the package (C102_false_lasting); with keys that make bodies of different lengths, a frame can carry the length of another body (C102_false_lengths). It need not go wrong: an addition can also be lost (C102_lost_update). What remains true: if the header length is set or there are no routing fields, and the bodies are equally long, each goroutine gets what a call alone gives (C102_same_as_alone_partial, C102_package_afterwards_partial); in every case at most the header length and the header checksum differ (C102_differs_in_header_length), and nobody waits for the others (C102_returns). Sequential consistency of the memory is assumed."
  },
  {
   "property": "C103",
   "status": "partial",
   "theorems": [
    "Egts.C103_header_ignored",
    "Egts.C103_any_header",
    "Egts.C103_receiver",
    "Egts.C103_false",
    "Egts.C103_refused_partial",
    "Egts.C103_answers_unrouted"
   ],
   "note": "False: of the header, Decode uses the routing flag, whether the packet is encrypted, the lengths, the type and the checksum; two packets that differ in version, key number, prefix, routing, encryption algorithm, compression, priority or header encoding are decoded to the same data (C103_header_ignored), every packet has such variants (C103_any_header), and the receiver does the same for them (C103_receiver; it closes the connection for other versions, C43). Witness: C103_false. Answers never have routing fields (C103_answers_unrouted). What remains true: encrypted packets without a key and other packet types are refused (C103_refused_partial)."
  },
  {
   "property": "C104",
   "status": "partial",
   "theorems": [
    "Egts.C104_contained_partial",
    "Egts.C104_noise_partial",
    "Egts.C104_false_lengths",
    "Egts.C104_false_identity"
   ],
   "note": "False: the receiver believes the lengths in a header before it has checked it; one wrong bit in the length makes it take the following packets, hundreds of them, for the rest of the damaged one, without an answer (C104_false_lengths). And packets may owe their identifier to an earlier one: after a damaged login, positions are stored as those of client 0 and confirmed (C104_false_identity). What remains true: a packet that is as long as it says and is refused has no other effect than the answer that says so (C104_contained_partial); in particular up to three wrong bits outside the first byte, the lengths and the routing flag (C104_noise_partial)."
  },
  {
   "property": "C105",
   "status": "partial",
   "theorems": [
    "Egts.C105_lost",
    "Egts.C105_accepts",
    "Egts.C105_liquid",
    "Egts.C105_kept_partial",
    "Egts.C105_position",
    "Egts.C105_false"
   ],
   "note": "False: Encode looks at nothing but the flags (C105_accepts), and every value that does not fit is sent as another one, whatever the type under which it is read (C105_lost, C105_false); exactly which one for positions: C105_position (1700 km/h is 61 km/h below sea level). Some numbers of level sensors from 16 on are refused, exactly which: C105_liquid. Conversely what fits is read back, but for the faults of C28, C29 and C32 (C105_kept_partial)."
  },
  {
   "property": "C106",
   "status": "partial",
   "theorems": [
    "Egts.C106_record",
    "Egts.C106_record_read",
    "Egts.C106_position_partial",
    "Egts.C106_late",
    "Egts.C106_false",
    "Egts.C106_false_agree"
   ],
   "note": "True of records, and for all other moments modulo 2^32 seconds (C106_record, C106_record_read). False of positions: the seconds are a floating-point number that is rounded before it is cut off, so the last 29 nanoseconds of every second from July 2018 on are sent as the next second, which has not begun (C106_late, C106_false), unlike those of the record (C106_false_agree). What remains true: all but the last microsecond of each second, and within it the second or the next one (C106_position_partial)."
  },
  {
   "property": "C107",
   "status": "partial",
   "theorems": [
    "Egts.C107_same_results",
    "Egts.C107_same_response",
    "Egts.C107_false",
    "Egts.C107_position",
    "Egts.C107_mixture",
    "Egts.C107_next_partial",
    "Egts.C107_analogue",
    "Egts.C107_false_next",
    "Egts.C107_state",
    "Egts.C107_result",
    "Egts.C107_network",
    "Egts.C107_precision",
    "Egts.C107_counters",
    "Egts.C107_sensors",
    "Egts.C107_liquid",
    "Egts.C107_short",
    "Egts.C107_login",
    "Egts.C107_module",
    "Egts.C107_terminal"
   ],
   "note": "False: what has been read is in the receiver, so a position that ends early leaves the new latitude with the old longitude (C107_false, C107_mixture), and a byte that is missing becomes 0 (C107_state, C107_result, C107_network). Exactly what the other kinds leave, wherever they end: C107_position, C107_precision, C107_counters, C107_sensors, C107_liquid, C107_short, C107_login, C107_module, C107_terminal (those with optional fields: with all of them present); absolute analogue sensors are left alone (C107_analogue). The later Decode: true of all kinds but four (C107_next_partial), false of those with several optional fields (C107_false_next). That the receivers are modelled consistently with the results: C107_same_results, C107_same_response. Missing: EGTS-PLUS data."
  },
  {
   "property": "C108",
   "status": "partial",
   "theorems": [
    "Egts.C108_partial",
    "Egts.C108_no_positions",
    "Egts.C108_records_partial",
    "Egts.C108_decode",
    "Egts.C108_south",
    "Egts.C108_west",
    "Egts.C108_false",
    "Egts.C108_early",
    "Egts.C108_unset",
    "Egts.C108_needed"
   ],
   "note": "True of Decode (C108_decode) and of Encode for packages without positions (C108_no_positions) and for positions without sign and with a time from 2010 to 2146 (C108_partial, C108_records_partial); the range is needed, up to a ten-millionth of a degree and a second (C108_needed). Outside it false: C108_false; what a southern latitude, a western longitude, a time before 2010 and an unset time become on a machine that wraps around and on one that saturates: C108_south, C108_west, C108_early, C108_unset."
  },
  {
   "property": "C109",
   "status": "proved",
   "theorems": [
    "Egts.C109_package",
    "Egts.C109_bytes",
    "Egts.C109_record",
    "Egts.C109_stored",
    "Egts.C109_exponent",
    "Egts.C109_indented",
    "Egts.C109_printed"
   ],
   "note": "Packages: C109_package; records: C109_record, and all that are stored: C109_stored; what this means in bytes: C109_bytes; exponents: C109_exponent; indentation: C109_indented, and all that is printed: C109_printed."
  },
  {
   "property": "C110",
   "status": "partial",
   "theorems": [
    "Egts.C110_bound_partial",
    "Egts.C110_long_partial",
    "Egts.C110_answer",
    "Egts.C110_false"
   ],
   "note": "False of short packets: a login of 21 bytes is answered with 53, as often as it is sent (C110_false). Never more than that: C110_bound_partial, for every stream. What remains true: if every packet has 239 bytes or more, no more is sent than received (C110_long_partial). How many bytes are answered to a packet: C110_answer."
  },
  {
   "property": "C111",
   "status": "partial",
   "theorems": [
    "Egts.C111_false",
    "Egts.C111_subrecords",
    "Egts.C111_records",
    "Egts.C111_package",
    "Egts.C111_decoder",
    "Egts.C111_stream"
   ],
   "note": "False of directions only: 72 and 200 with the ninth bit set are sent as the same byte (C111_false). Otherwise true: C111_subrecords, C111_records, C111_package (with encryption: if the key can undo itself); so the faults of C28 and C29 are in the decoder only (C111_decoder). C111_stream: frames divide a stream in one way."
  },
  {
   "property": "C112",
   "status": "partial",
   "theorems": [
    "Egts.C112_finite",
    "Egts.C112_read",
    "Egts.C112_position",
    "Egts.C112_not_finite",
    "Egts.C112_place",
    "Egts.C112_false",
    "Egts.C112_texts",
    "Egts.C112_decimal"
   ],
   "note": "False: they are sent, and read as a place on Earth (C112_false, C112_place, C112_not_finite); packet-gen takes nan, inf and infinity, in any letters (C112_texts). For finite coordinates the model of float64 as a rational number of unbounded range agrees with IEEE 754 (C112_finite, C112_read, C112_position), and decimal texts are taken as before (C112_decimal)."
  },
  {
   "property": "C113",
   "status": "partial",
   "theorems": [
    "Egts.C113_latitude",
    "Egts.C113_longitude",
    "Egts.C113_stops",
    "Egts.C113_run",
    "Egts.C113_passed",
    "Egts.C113_drift",
    "Egts.C113_settles",
    "Egts.C113_false"
   ],
   "note": "False: each relay may move a coordinate down by a unit, and for some coordinates 1433 relays in a row do, 3 metres in all (C113_false, C113_run). Proved: any number of relays can pass a package on, and all else arrives as it was (C113_passed); a coordinate moves at most one unit per relay, never up, and stops for ever at the first relay that does not move it (C113_latitude, C113_longitude, C113_stops); the positions are within 22 (44) nanodegrees per transmission (C113_drift); after 2^32 relays nothing changes (C113_settles)."
  },
  {
   "property": "C114",
   "status": "partial",
   "theorems": [
    "Egts.C114_string",
    "Egts.C114_distinct",
    "Egts.C114_number",
    "Egts.C114_name",
    "Egts.C114_quoted",
    "Egts.C114_false",
    "Egts.C114_panic",
    "Egts.C114_null"
   ],
   "note": "False of reasons without a name: their text in quotation marks is refused (C114_false). Proved: String (C114_string, C114_distinct); numbers of all sizes are read back or refused (C114_number); names (C114_name) and all other quoted texts (C114_quoted); a panic at an empty text only, and no change after an error (C114_panic); null sets the reason to 0 (C114_null)."
  },
  {
   "property": "C115",
   "status": "partial",
   "theorems": [
    "Egts.C115_packet_partial",
    "Egts.C115_connection_partial",
    "Egts.C115_answers",
    "Egts.C115_reconnect",
    "Egts.C115_order",
    "Egts.C115_own_identity",
    "Egts.C115_false"
   ],
   "note": "False of the identifier: a packet that does not say whose it is is filed under that of an earlier one (C115_false). True of the rest: whatever came before, the same is done but for the identifier and the time of receipt (C115_packet_partial), so a connection does what as many connections with one packet each do (C115_connection_partial); the answers are the same (C115_answers), also if the device reconnects (C115_reconnect) or sends in another order (C115_order). If the first record says whose it is, the identifiers do not depend on the past either (C115_own_identity). Frames on which Decode panics are excluded in the theorems about connections (C11)."
  },
  {
   "property": "C116",
   "status": "partial",
   "theorems": [
    "Egts.C116_closed",
    "Egts.C116_failing",
    "Egts.C116_panics_iff",
    "Egts.C116_false",
    "Egts.C116_false_panic"
   ],
   "note": "False: if the channel of a RabbitMQ connection cannot be closed, for instance because the server has closed it, the connection stays open (C116_false); and four of the six panic if there is no connection, for instance after an Init that refused the settings (C116_false_panic). Proved: after a successful Init all is closed if nothing fails (C116_closed), what is closed and returned if something fails (C116_failing), and exactly when there is a panic (C116_panics_iff). Which pointers are nil after a failed call is left to the libraries. The receiver itself never calls Close of these storages."
  },
  {
   "property": "C117",
   "status": "partial",
   "theorems": [
    "Egts.C117_unknown",
    "Egts.C117_accel_refused",
    "Egts.C117_false"
   ],
   "note": "True of unknown types in all records of a packet (C117_unknown: up to the declared record lengths, everything decoded is the same without them). False of accelerometer data, type 20 of any length but 5: every intact packet with such a subrecord anywhere is refused with code 129, nothing of it is stored or confirmed (C117_accel_refused); C117_false gives a packet whose position is lost for that reason alone."
  }
 ]
}