{
 "C16": "False of the code without `Sound` (C17_false). Proved: what the code does for every list of well-formed service records (C16_service_sets_exact); the round trip for all without the subrecords of C28, C29, C32.",
 "C17": "False of the code for counters with counter 2 (C17_false). Proved: what the code does for every list of well-formed subrecords (C17_record_sets_exact); the round trip for all others.",
 "C23": "False for module data and dispatcher identity (C23_false); proved for the other 13 kinds.",
 "C28": "False of the code: analog presence flags are written in reverse order (C28_false). Proved: what is read back for all 65536 combinations and all values (C28_ad_sensors_exact); round trip exactly for palindromic flags.",
 "C29": "False of the code: counter 2 is decoded into counter 1 (C29_false). Proved: exact behaviour for all 256 combinations.",
 "C35": "False of the code: DIRH is or-ed into bit 7 of an 8-bit value (C35_false). Proved: exact when DIRH = 0; what the stored field is for every course (C35_direction_exact).",
 "C36": "False of the code: altitude is read as four bytes (C36_false). Proved: exact value read; right when no source data follows.",
 "C38": "False of the code: terminal identity ignores a malformed flag string (C38_false). Proved for all other subrecords, records and packages, wherever in a package the string is (C38_anywhere_partial).",
 "C39": "False of the code: a short last field is accepted (C39_false). Proved per kind how much truncation is rejected, and exactly which beginnings of an encoded subrecord are accepted (C39_exact). Exactly which byte strings are accepted is C81.",
 "C40": "C40_counters_partial excludes counter 2 (C29).",
 "C05": "False of the code when the last byte is zero (C05_false). Proved: any frame lacking two or more bytes is refused, and the exact code for every prefix.",
 "C06": "False of the code when HL+FDL overflows 16 bits (C06_false: decoder panics). Proved: what the code does for every well-formed package (C06_application_exact): panic in that case, otherwise the package with the subrecords of C28, C29, C32 changed as stated there; hence the round trip for all others.",
 "C07": "As C06: exact for every well-formed response; the round trip where HL+FDL < 65536 and without the subrecords of C28, C29, C32.",
 "C08": "Round trip as C06 (same exclusions, exact theorem for every well-formed package); the two no-key theorems are complete.",
 "C11": "False of the code (C11_false, C11_overflow). Proved: the exact set of panicking inputs (C11_panics_iff) and its consequence for honest lengths.",
 "C13": "False of the code: routing fields of the receiver survive an unrouted frame (C13_false). Proved: nothing else does.",
 "C14": "False of the code: every body-less package is refused with 132 (C14_false). Proved: the header fields are recovered nevertheless.",
 "C15": "False of the code for bodies of 65536 bytes or more (C15_false). Proved: exact behaviour for all lengths; right below 65536.",
 "C03": "False of the code for frames that declare a wrong header length, which Decode never checks (C03_false). Proved for all frames whose declared lengths are right.",
 "C04": "False of the code for frames that declare a wrong header length (C04_false). Proved for all frames whose declared lengths are right.",
 "C47": "False of the code: several positions in a record, or records after a record response (C47_false, C47_false_after_response). Proved otherwise, and the exact number saved.",
 "C50": "False of the code: bytes of counter 110 are reversed when 111 is present (C50_false). Proved: exact stored number, and for which numbers it is right.",
 "C51": "False of the code for every packet id (C51_false): the packet has type response but a record set as its body. Proved: everything else about it is right.",
 "C56": "False of the code (C56_false, C56_false_short). Proved: exactly which streams crash the process, and that honest frames do not.",
 "C52": "As stated the claim is false: a positive acknowledgement is written even though a storage refused the record (C52_false, for every storage that refuses). Proved instead: whatever the storages answer, every saved record was offered to the repository before the acknowledgement of its packet (C52_offered_before_ack_partial).",
 "C57": "As stated the claim is false: a connection that never sends anything, or stops inside a packet, is never closed (C57_false, C57_false_in_packet). Proved: timing never changes what is saved and written (C57_same_effects), after the peer has closed the connection is closed (C57_after_eof_partial), and the time limit has no other use.",
 "C58": "As stated the claim is false: Run never returns after Stop and repeats failing Accept calls (C58_false, C58_false_spins). Proved: after Stop no connection is accepted (C58_no_new_connections_partial) and what Stop returns (C58_stop_result).",
 "C59": "Proved: end to end, everything except two parts of the claim that are false of the code: the saved time is the constant 2021-02-20 00:30:40 UTC instead of the given timestamp (C59_false_time) and the exit code is always 1 (C59_false_exit_code). Also false: the default timeout of 0 never accepts a reply; a positive response without records makes packet-gen panic. A timeout of more than 292 years overflows (C59_false_long_timeout). Negative coordinates are never saved as given (C59_false_negative).",
 "C22": "As stated the claim is false: a subrecord of unknown type is lost and its record keeps the old length (C22_false); coordinates may drift by one wire unit even in frames the library made (C22_false_position). Proved: every frame the library produces from a well-formed package, encrypted or not, is reproduced byte for byte, under the condition that coordinates do not drift and that there is no second counter and no asymmetric analog sensor (C28, C29). Proved exactly for frames of any origin: an accepted frame in the clear, with an honest header length and no cut field, encodes without error, and to the same bytes if and only if nothing follows it, it has a body and each subrecord is kept (Spec/Kept.lean lists for each type the bytes that are; C22_frames_exact_partial, C22_records_exact, C22_subrecords_exact); the same for encrypted frames (C22_encrypted_exact_partial). Missing: the exact condition for cut frames.",
 "C64": "Encoder and decoder proved against the tables for every kind, with exceptions: the digital/analog sensors encoder emits the layout exactly for mirror-symmetric analog masks (C64_ad_sensors_encode_partial is an iff); the counters decoder puts counter 2 in the place of counter 1 (C64_counters_decode_partial states what it does); a position with altitude must end the subrecord because the altitude is read as four bytes. The storage record (protobuf) has no layout of its own.",
 "C65": "Encoding and decoding, the latter for arbitrary record data and arbitrary following bytes.",
 "C66": "The JSON text, including Go's shortest float formatting, is modelled byte by byte; the reader in Spec/Json.lean is an independent JSON parser. Strings are restricted to ASCII, which the receiver's are.",
 "C67": "All received bytes, over whole connections.",
 "C68": "False of the code: the receiver drops LAHS and LOHS, so a position at 55 degrees south is saved as 55 degrees north (C68_false). Proved for positions in the north-east quarter; everywhere else the magnitudes are saved (C68_magnitudes).",
 "C69": "The client libraries are arbitrary functions of the call and a world of any type; what they do with a call is not modelled. The whole receiver is covered: loading, any interleaving of connections, refusals, and the JSON text read back.",
 "C70": "False of Redis: settings without db are refused although the code means to default to 0 (C70_false), and an unreachable server is not noticed at the start (C70_false_unreachable). C70_starts_iff gives the exact condition for all six storages.",
 "C71": "False at log levels WARN and ERROR: every record is discarded and reported as saved (C71_false).",
 "C72": "False of the TTL: numbers of seconds above 9223372036 wrap to a negative TTL (C72_false). The key con_live_sec of the README and the shipped files is ignored, the key read is conn_ttl (C72_false_readme). The YAML parser is taken from the resolved document on.",
 "C74": "The order of loading is arbitrary (Go maps). Whole chain: main, configuration, loading, any history of connections, calls of the client libraries.",
 "C75": "Valid: required fields set, values of the kinds of the fields, byte strings and unknown fields below 4 GiB; every record returned by Decode satisfies it (C75_decoded_roundtrip uses this). protobuf-go is modelled from its documented behaviour (v1.26.0), it is not in /repo.",
 "C76": "The format is specified as a relation (Spec/Proto.lean) independent of the parser; protoFile is transcribed from the .proto file.",
 "C73": "False as stated: settings are put into connection strings without quoting (C73_false_postgres: an empty password; C73_false_rabbitmq: a percent sign). Proved for settings that need no quotes or escapes (Plain), a condition for PostgreSQL and RabbitMQ, and on the size of numbers for Tarantool; without condition for MySQL, NATS and Redis. The readers of connection strings (Spec/Dsn.lean) follow lib/pq v1.1.1, streadway/amqp and net/url, which are not in /repo.",
 "C32": "False of the code for a direction whose ninth bit is set and whose eighth is not (C32_false). Proved: what is read back for all values (C32_pos_data_exact); the round trip for all others.",
 "C77": "False: a frame that declares too long a header has its checksums taken over memory behind the slice; the same bytes are accepted, refused or panic accordingly (C77_false). It holds of every input that does not panic by itself.",
 "C78": "Complete: as long as HL, FDL and the flags say with the header length computed from the flags. The hypothesis that the frame alone does not panic is decided by C11_panics_iff.",
 "C79": "False: a subrecord with a type and a nil content panics (C79_false). Holds of all others, in particular of all that Decode returns (C79_decoded).",
 "C80": "False: bytes that are not UTF-8 become U+FFFD, so different packages have the same text (C80_false_strings); a fuel level that is not a number gives an error (C80_false_error). Proved: what is read back, exactly (C80_read_back_partial); when that is the whole package (C80_lossless_iff); when there is an error (C80_error_iff); both for decoded packages (C80_decoded_partial).",
 "C81": "Position data: C61_pos_decode_exact; EGTS+ data: C76.",
 "C83": "False of the code as it is: a record that lost a subrecord of unknown type keeps its declared length, and the next hop rejects the frame or takes the bytes of the following record for it (C83_false). Proved: Encode never fails on an accepted package (C83_encodes); with the lengths unset, which a relay can do, every accepted package in the clear with at least one record (or a response) arrives as Package.ReadBack says (C83_relay_exact), and is the same unless it has an analog sensor without its mirror image (C28) or a second counter (C29). Conditions: altitudes fit 24 bits, HL+FDL fits 16 bits.",
 "C84": "False of the code as it is: a zero in front makes a number octal, -pid 010 is sent as 8 and -pid 09 is refused (C84_false_octal). Proved: every command line that gives valid options, in any spelling and order, has the effect of the last value of each (C84_options); every other one sends nothing (C84_refused); which texts are numbers is specified by a grammar; decimal numbers without a zero in front reach the storage as typed (C84_end_to_end_partial), and so do coordinates typed as decimal numbers, with any time of RFC 3339 (C84_typed_partial). Decimal numbers become a nearest float64 and are refused only if too large (C84_decimal_texts); every time of RFC 3339 is understood (C84_times), but others are accepted too (C84_false_times; exactly which is C84_times_exact). What ParseFloat makes of texts other than decimal numbers is a parameter.",
 "C86": "False of the code as it is: rec[:-1] takes a digit away if the last line is not ended, and the script ends with a ValueError before sending that packet (C86_false, for every such file). Proved: if every line is ended exactly the packets of the file are sent (C86_sends_partial); for packets as devices send them an answer can always be received (C86_answered).",
 "C90": "False of frames with routing fields in one case: the first bit of the frame and the last of the header can be altered together and every such frame is still accepted, with another protocol version, because the header has exactly 128 bits, one more than the 8-bit polynomial can tell apart, and Decode does not check the version (C90_false). Proved in all other cases (C90_three_bits_partial). The bound of 4093 bytes is sharp: in every response of 4094 bytes two bits can be altered so that it is accepted as the response to another packet (C90_false_long).",
 "C91": "False of the code as it is: the acknowledgement of a login and the authorization result sent after it have the same packet identifier (C91_false, for every login). Proved: everything sent in answer to a frame is numbered one above it, modulo 65536, at most two packets for each frame (C91_numbers); without logins different numbers are answered with different numbers (C91_distinct_partial).",
 "C95": "False of the code as it is: what follows a record response is decoded as records again, and every record gets a buffer of its declared length, so an accepted packet of 13 d + 13 bytes needs 65533 d bytes at a time (C95_false). Exact up to rounding: C95_bound_partial. Without record responses the property holds (C95_linear_partial). Only these buffers are counted.",
 "C96": "False of the code as it is: the receiver reads and writes in the same goroutine and sets no deadline for writing, so a client that reads nothing, for whom the operating system takes n bytes, stops its goroutine for ever after n + 1 positions at most; what it sends after them is never looked at and the connection is not closed (C96_false, C96_false_for_positions). Exactly how far it comes: C96_exact. A client that reads its answers is served completely (C96_served_partial); no other connection is harmed (C96_others). Bytes in flight are abstracted to the room that the operating system has for them.",
 "C97": "Under the condition that the storages report no error (otherwise packets are acknowledged all the same, C52). A position in a packet without an identifier of its own is filed under the last identifier sent before on the same connection, or 0; C97_own_identifier says when that makes no difference.",
 "C98": "yaml.v2 is any reader that is right about the texts described in Spec/YamlText.lean; that there is one is C98_reader. The shipped file sets no TTL: its key con_live_sec is ignored (C98_shipped_settings, C72_false_readme). If a server does not answer, chance decides where the records go (C98_shipped_chance).",
 "C99": "False (C99_false). Proved instead: each receipt stores the same records again but for the time of receipt, as often as the packet is received (C99_every_time, C99_copies), so repetitions can be recognised afterwards (C99_recognisable_partial); except for packets that do not say whose positions they carry, which are filed under 0 when sent again on a new connection (C99_identity_lost).",
 "C100": "False: for every identifier a single packet without any login is stored under it and acknowledged (C100_false). Exactly: what the receiver does with a packet does not depend on the authorization data in it (C100_credentials_ignored), and what is stored does not even depend on whether there are any (C100_no_influence). What remains true: positions are stored under identifiers only that came on the same connection, or 0 (C100_claimed_partial).",
 "C101": "False: the README mounts /etc/egts-receiver, but the image reads /etc/egts-receviver, so what is mounted is ignored (C101_false_custom); in the docker-compose example the directory is right, but the file must be called config.yaml, and with the repository's configs the receiver does not start (C101_false_compose); the shipped configuration listens on 127.0.0.1, which cannot be reached from outside the container (C101_false_published). Exactly what is read: C101_compose; what works: C101_image, C101_compose_partial.",
 "C102": "False: Encode sets HeaderLength to 11 and adds 5 in a second step, and sets FrameDataLength. Two goroutines that encode one routed package can get a frame with a wrong header length, which Decode refuses as damaged (C102_false), and the wrong length can stay in the package (C102_false_lasting); with keys that make bodies of different lengths, a frame can carry the length of another body (C102_false_lengths). It need not go wrong: an addition can also be lost (C102_lost_update). What remains true: if the header length is set or there are no routing fields, and the bodies are equally long, each goroutine gets what a call alone gives (C102_same_as_alone_partial, C102_package_afterwards_partial); in every case at most the header length and the header checksum differ (C102_differs_in_header_length), and nobody waits for the others (C102_returns). Sequential consistency of the memory is assumed.",
 "C103": "False: of the header, Decode uses the routing flag, whether the packet is encrypted, the lengths, the type and the checksum; two packets that differ in version, key number, prefix, routing, encryption algorithm, compression, priority or header encoding are decoded to the same data (C103_header_ignored), every packet has such variants (C103_any_header), and the receiver does the same for them (C103_receiver; it closes the connection for other versions, C43). Witness: C103_false. Answers never have routing fields (C103_answers_unrouted). What remains true: encrypted packets without a key and other packet types are refused (C103_refused_partial).",
 "C104": "False: the receiver believes the lengths in a header before it has checked it; one wrong bit in the length makes it take the following packets, hundreds of them, for the rest of the damaged one, without an answer (C104_false_lengths). And packets may owe their identifier to an earlier one: after a damaged login, positions are stored as those of client 0 and confirmed (C104_false_identity). What remains true: a packet that is as long as it says and is refused has no other effect than the answer that says so (C104_contained_partial); in particular up to three wrong bits outside the first byte, the lengths and the routing flag (C104_noise_partial).",
 "C105": "False: Encode looks at nothing but the flags (C105_accepts), and every value that does not fit is sent as another one, whatever the type under which it is read (C105_lost, C105_false); exactly which one for positions: C105_position (1700 km/h is 61 km/h below sea level). Some numbers of level sensors from 16 on are refused, exactly which: C105_liquid. Conversely what fits is read back, but for the faults of C28, C29 and C32 (C105_kept_partial).",
 "C106": "True of records, and for all other moments modulo 2^32 seconds (C106_record, C106_record_read). False of positions: the seconds are a floating-point number that is rounded before it is cut off, so the last 29 nanoseconds of every second from July 2018 on are sent as the next second, which has not begun (C106_late, C106_false), unlike those of the record (C106_false_agree). What remains true: all but the last microsecond of each second, and within it the second or the next one (C106_position_partial).",
 "C107": "False: what has been read is in the receiver, so a position that ends early leaves the new latitude with the old longitude (C107_false, C107_mixture), and a byte that is missing becomes 0 (C107_state, C107_result, C107_network). Exactly what the other kinds leave, wherever they end: C107_position, C107_precision, C107_counters, C107_sensors, C107_liquid, C107_short, C107_login, C107_module, C107_terminal (those with optional fields: with all of them present); absolute analogue sensors are left alone (C107_analogue). The later Decode: true of all kinds but four (C107_next_partial), false of those with several optional fields (C107_false_next). That the receivers are modelled consistently with the results: C107_same_results, C107_same_response. Missing: EGTS-PLUS data.",
 "C108": "True of Decode (C108_decode) and of Encode for packages without positions (C108_no_positions) and for positions without sign and with a time from 2010 to 2146 (C108_partial, C108_records_partial); the range is needed, up to a ten-millionth of a degree and a second (C108_needed). Outside it false: C108_false; what a southern latitude, a western longitude, a time before 2010 and an unset time become on a machine that wraps around and on one that saturates: C108_south, C108_west, C108_early, C108_unset.",
 "C109": "Packages: C109_package; records: C109_record, and all that are stored: C109_stored; what this means in bytes: C109_bytes; exponents: C109_exponent; indentation: C109_indented, and all that is printed: C109_printed.",
 "C110": "False of short packets: a login of 21 bytes is answered with 53, as often as it is sent (C110_false). Never more than that: C110_bound_partial, for every stream. What remains true: if every packet has 239 bytes or more, no more is sent than received (C110_long_partial). How many bytes are answered to a packet: C110_answer.",
 "C111": "False of directions only: 72 and 200 with the ninth bit set are sent as the same byte (C111_false). Otherwise true: C111_subrecords, C111_records, C111_package (with encryption: if the key can undo itself); so the faults of C28 and C29 are in the decoder only (C111_decoder). C111_stream: frames divide a stream in one way.",
 "C112": "False: they are sent, and read as a place on Earth (C112_false, C112_place, C112_not_finite); packet-gen takes nan, inf and infinity, in any letters (C112_texts). For finite coordinates the model of float64 as a rational number of unbounded range agrees with IEEE 754 (C112_finite, C112_read, C112_position), and decimal texts are taken as before (C112_decimal).",
 "C113": "False: each relay may move a coordinate down by a unit, and for some coordinates 1433 relays in a row do, 3 metres in all (C113_false, C113_run). Proved: any number of relays can pass a package on, and all else arrives as it was (C113_passed); a coordinate moves at most one unit per relay, never up, and stops for ever at the first relay that does not move it (C113_latitude, C113_longitude, C113_stops); the positions are within 22 (44) nanodegrees per transmission (C113_drift); after 2^32 relays nothing changes (C113_settles).",
 "C114": "False of reasons without a name: their text in quotation marks is refused (C114_false). Proved: String (C114_string, C114_distinct); numbers of all sizes are read back or refused (C114_number); names (C114_name) and all other quoted texts (C114_quoted); a panic at an empty text only, and no change after an error (C114_panic); null sets the reason to 0 (C114_null).",
 "C115": "False of the identifier: a packet that does not say whose it is is filed under that of an earlier one (C115_false). True of the rest: whatever came before, the same is done but for the identifier and the time of receipt (C115_packet_partial), so a connection does what as many connections with one packet each do (C115_connection_partial); the answers are the same (C115_answers), also if the device reconnects (C115_reconnect) or sends in another order (C115_order). If the first record says whose it is, the identifiers do not depend on the past either (C115_own_identity). Frames on which Decode panics are excluded in the theorems about connections (C11).",
 "C116": "False: if the channel of a RabbitMQ connection cannot be closed, for instance because the server has closed it, the connection stays open (C116_false); and four of the six panic if there is no connection, for instance after an Init that refused the settings (C116_false_panic). Proved: after a successful Init all is closed if nothing fails (C116_closed), what is closed and returned if something fails (C116_failing), and exactly when there is a panic (C116_panics_iff). Which pointers are nil after a failed call is left to the libraries. The receiver itself never calls Close of these storages.",
 "C117": "True of unknown types in all records of a packet (C117_unknown: up to the declared record lengths, everything decoded is the same without them). False of accelerometer data, type 20 of any length but 5: every intact packet with such a subrecord anywhere is refused with code 129, nothing of it is stored or confirmed (C117_accel_refused); C117_false gives a packet whose position is lost for that reason alone."
}