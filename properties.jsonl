{"id": "C01", "title": "Body checksum is CRC-16/CCITT-FALSE", "statement": "The two checksum bytes that Encode appends (and that Decode compares) are, for every frame body, the remainder of the body polynomial (first 16 bits inverted, multiplied by x^16) modulo x^16+x^12+x^5+1.", "quantifier": "every byte string", "why_tests_cant": "The existing test checks the single vector '123456789'; a table/loop bug on other lengths or values is invisible.", "anchors": ["libs/egts/crc.go:crc16"]}
{"id": "C02", "title": "Header checksum is CRC-8 (poly 0x31, init 0xFF)", "statement": "The header checksum byte is, for every header, the remainder of the header polynomial (first 8 bits inverted, multiplied by x^8) modulo x^8+x^5+x^4+1.", "quantifier": "every byte string", "why_tests_cant": "One literal vector is tested.", "anchors": ["libs/egts/crc.go:crc8"]}
{"id": "C03", "title": "Corrupted frame bodies are never accepted", "statement": "If an accepted frame has its body (and body checksum) altered by flipping an odd number of bits, or its body altered by any non-zero error pattern confined to a window of 16 consecutive bits, Package.Decode of the altered frame does not report success.", "quantifier": "every accepted frame, every odd-weight or <=16-bit-burst error pattern, every position", "why_tests_cant": "There are astronomically many frames and error patterns.", "anchors": ["libs/egts/egts_pkg.go:Package.Decode", "libs/egts/crc.go:crc16"]}
{"id": "C04", "title": "Corrupted headers are reported as header checksum errors", "statement": "If an accepted frame has header bytes altered by an odd number of bit flips, or by a burst within 8 consecutive bits, that do not touch the header-length byte or the routing flag, Package.Decode returns code 137 and an error.", "quantifier": "every accepted frame, every such error pattern", "why_tests_cant": "Infinite domain of frames and patterns.", "anchors": ["libs/egts/egts_pkg.go:Package.Decode", "libs/egts/crc.go:crc8"]}
{"id": "C05", "title": "Truncated frames are not accepted", "statement": "Package.Decode of a strict prefix of an accepted frame never reports success.", "quantifier": "every accepted frame and every prefix length", "why_tests_cant": "Tests do not enumerate frames x prefixes; acceptance depends on a data-dependent checksum byte.", "anchors": ["libs/egts/egts_pkg.go:Package.Decode"]}
{"id": "C06", "title": "Application packets survive Encode then Decode", "statement": "For every well-formed application-data Package, Encode succeeds and Decode of the produced bytes reports success and returns the same package: every field equal, with only the computed fields (lengths, checksums, inferred types) filled in.", "quantifier": "every well-formed application Package: any number of records, subrecords, any flag combination, any routing fields", "why_tests_cant": "Unit tests cover four literals.", "anchors": ["libs/egts/egts_pkg.go:Package.Encode", "libs/egts/egts_pkg.go:Package.Decode"]}
{"id": "C07", "title": "Response packets survive Encode then Decode", "statement": "For every well-formed response Package (with or without service records), Encode then Decode returns the same package up to computed fields.", "quantifier": "every well-formed response Package", "why_tests_cant": "Two literals are tested.", "anchors": ["libs/egts/egts_pt_response.go:PtResponse", "libs/egts/egts_pkg.go"]}
{"id": "C08", "title": "Encrypted packets survive Encode then Decode with the same key, and never without a key", "statement": "With a SecretKey whose Decode inverts its Encode, an encrypted package round-trips; without a key Encode refuses to emit and Decode refuses to accept (code 129) any encrypted package with a body.", "quantifier": "every package, every key object obeying the inverse law", "why_tests_cant": "No test uses a SecretKey at all.", "anchors": ["libs/egts/egts_pkg.go:SecretKey", "libs/egts/egts_pkg.go:Options"]}
{"id": "C09", "title": "Frame layout produced by Encode", "statement": "Whenever Encode succeeds on a package with a body of at most 65535 bytes and a correct or unset header length, the bytes are exactly header(HL bytes, last one its CRC-8) ++ body ++ little-endian CRC-16(body), the FDL field is the body length, and the total length is the one a stream receiver derives from the header (HL, plus FDL+2 if FDL>0).", "quantifier": "every package", "why_tests_cant": "Framing errors on other sizes break stream peers; tests fix four literals.", "anchors": ["libs/egts/egts_pkg.go:Package.Encode", "cli/receiver/server/server.go:handleConn"]}
{"id": "C10", "title": "Encode is repeatable", "statement": "Encode updates length fields of its receiver; calling it again on the updated package yields the same bytes and leaves the package unchanged.", "quantifier": "every package and key", "why_tests_cant": "Needs all packages.", "anchors": ["libs/egts/egts_pkg.go:Package.Encode"]}
{"id": "C11", "title": "Decode never panics", "statement": "Package.Decode returns a code and an error on every input and never panics.", "quantifier": "every byte slice (any length, any spare capacity), every receiver, every key", "why_tests_cant": "Hostile inputs are unbounded; fuzzing samples them.", "anchors": ["libs/egts/egts_pkg.go:Package.Decode"]}
{"id": "C12", "title": "Decode result codes", "statement": "Decode's code is 0 exactly when the error is nil, and otherwise one of 129, 131, 132, 133, 137; each code arises exactly at its documented stage (131 header cut short, 137 checksum mismatch, 132 missing body, 133 packet type not 0/1, 129 body cannot be decoded/decrypted).", "quantifier": "every input", "why_tests_cant": "All inputs.", "anchors": ["libs/egts/egts_pkg.go:Package.Decode", "libs/egts/errors.go"]}
{"id": "C13", "title": "Decoding into a reused Package", "statement": "Decoding into a Package that already holds data gives the same package as decoding into a fresh one, whenever decoding succeeds.", "quantifier": "every input, every prior receiver contents", "why_tests_cant": "Histories of reuse are unbounded.", "anchors": ["libs/egts/egts_pkg.go:Package.Decode"]}
{"id": "C14", "title": "Packets without a body survive Encode then Decode", "statement": "A Package whose services frame data is absent (legal: FDL=0, no SFRD/SFRCS) encodes to a bare header that Decode accepts.", "quantifier": "every body-less package", "why_tests_cant": "Not tested.", "anchors": ["libs/egts/egts_pkg.go"]}
{"id": "C15", "title": "Encode never emits a frame that lies about its length", "statement": "Whenever Encode succeeds, the length field in the emitted header equals the number of body bytes emitted.", "quantifier": "every package including oversized ones", "why_tests_cant": "Needs bodies above 65535 bytes; never tested.", "anchors": ["libs/egts/egts_pkg.go:Package.Encode"]}
{"id": "C16", "title": "Service data sets survive Encode then Decode", "statement": "ServiceDataSet.Decode of ServiceDataSet.Encode returns the same records in the same order (with computed record lengths), for any number of records and any combination of optional fields.", "quantifier": "every well-formed list of records", "why_tests_cant": "Tests use one record.", "anchors": ["libs/egts/service_data_records.go:ServiceDataSet"]}
{"id": "C17", "title": "Record data sets survive Encode then Decode", "statement": "RecordDataSet.Decode of RecordDataSet.Encode returns the same subrecords in the same order (types and lengths filled in).", "quantifier": "every well-formed list of subrecords of the supported kinds", "why_tests_cant": "Tests use one subrecord per test.", "anchors": ["libs/egts/record_data.go:RecordDataSet"]}
{"id": "C18", "title": "Record streams compose", "statement": "Decoding the concatenation of two encoded record sequences equals decoding the first and then the second, for subrecords and for service records; Decode appends to what the receiver already holds.", "quantifier": "all pairs of sequences", "why_tests_cant": "Unbounded sequences.", "anchors": ["libs/egts/record_data.go", "libs/egts/service_data_records.go"]}
{"id": "C19", "title": "Unknown subrecords are skipped transparently", "statement": "Inserting a subrecord of an unsupported type, with any content of the declared length, at any boundary between subrecords does not change what RecordDataSet.Decode returns.", "quantifier": "every well-formed sequence, every unsupported type, every content, every position", "why_tests_cant": "Unbounded.", "anchors": ["libs/egts/record_data.go:RecordDataSet.Decode"]}
{"id": "C20", "title": "Decoding terminates with bounded nesting", "statement": "Decoding any byte string terminates, and the nesting of record-response sections inside each other never exceeds a linear bound in the input length.", "quantifier": "every byte string, including ones whose declared lengths exceed the data", "why_tests_cant": "Termination on all inputs is not testable; declared lengths zero-pad the data so the input seen by nested decoders can grow.", "anchors": ["libs/egts/egts_sr_response.go:SrResponse.Decode", "libs/egts/service_data_records.go", "libs/egts/record_data.go"]}
{"id": "C21", "title": "Decoded records are bounded by the input", "statement": "A successful ServiceDataSet.Decode of n bytes yields at most n/7 records; hence the acknowledgement for any accepted packet always fits its 16-bit length fields.", "quantifier": "every byte string", "why_tests_cant": "Unbounded.", "anchors": ["libs/egts/service_data_records.go:Decode", "cli/receiver/server/server.go:createPtResponse"]}
{"id": "C22", "title": "Re-encoding a decoded frame reproduces it", "statement": "If Decode accepts a frame, Encode of the resulting package reproduces exactly the bytes decoded.", "quantifier": "every accepted frame", "why_tests_cant": "Unbounded; relays depend on it.", "anchors": ["libs/egts/egts_pkg.go", "libs/egts/record_data.go"]}
{"id": "C23", "title": "Subrecord type inference", "statement": "Encoding a subrecord with its type left 0 emits the type code under which Decode recovers the same kind of subrecord, for every supported kind.", "quantifier": "every supported kind and value", "why_tests_cant": "Tests set types explicitly for most kinds.", "anchors": ["libs/egts/record_data.go:RecordDataSet.Encode"]}
{"id": "C24", "title": "SR_RECORD_RESPONSE, SR_RESULT_CODE, SR_STATE_DATA round-trip", "statement": "Encode then Decode of each of these subrecords returns the same values.", "quantifier": "all field values", "why_tests_cant": "Finite but huge domains.", "anchors": ["libs/egts/egts_sr_response.go", "libs/egts/egts_sr_result_code.go", "libs/egts/egts_sr_state_data.go"]}
{"id": "C25", "title": "24-bit absolute sensors round-trip", "statement": "SrAbsCntrData and SrAbsAnSensData round-trip for every value below 2^24, and above that the value is reduced modulo 2^24, nothing else changing.", "quantifier": "all sensor numbers and values", "why_tests_cant": "2^40 cases.", "anchors": ["libs/egts/egts_sr_abs_cntr_data.go", "libs/egts/egts_sr_abs_an_sensors_data.go"]}
{"id": "C26", "title": "SR_LIQUID_LEVEL_SENSOR round-trips", "statement": "Encode then Decode of a liquid level record returns the same record for sensor numbers 0..7.", "quantifier": "all field values", "why_tests_cant": "Huge domain.", "anchors": ["libs/egts/egts_sr_liquid_level_sensor.go"]}
{"id": "C27", "title": "SR_EXT_POS_DATA round-trips for every combination of optional fields", "statement": "Encode then Decode returns the same record for all 32 presence combinations.", "quantifier": "all presence masks and values", "why_tests_cant": "Only one mask tested.", "anchors": ["libs/egts/egts_sr_ext_pos_data.go"]}
{"id": "C28", "title": "SR_AD_SENSORS_DATA round-trips for every combination of optional fields", "statement": "Encode then Decode returns the same record for all 65536 presence combinations.", "quantifier": "all presence masks and values", "why_tests_cant": "Test uses the all-ones analog mask, a palindrome.", "anchors": ["libs/egts/egts_sr_ad_sensors_data.go"]}
{"id": "C29", "title": "SR_COUNTERS_DATA round-trips for every combination of optional fields", "statement": "Encode then Decode returns the same counters for all 256 presence combinations.", "quantifier": "all presence masks and values", "why_tests_cant": "Test uses counters 7 and 8 only.", "anchors": ["libs/egts/egts_sr_counters_data.go"]}
{"id": "C30", "title": "SR_TERM_IDENTITY round-trips for every combination of optional fields", "statement": "Encode then Decode returns the same identity record whenever present text fields have their protocol widths.", "quantifier": "all presence masks and values", "why_tests_cant": "Test uses one mask.", "anchors": ["libs/egts/egts_sr_term_identity.go"]}
{"id": "C31", "title": "Delimited text subrecords round-trip", "statement": "SrAuthInfo, SrModuleData and SrDispatcherIdentity round-trip for all texts without NUL bytes (any text for the dispatcher description).", "quantifier": "all strings", "why_tests_cant": "Unbounded strings.", "anchors": ["libs/egts/egts_sr_auth_info.go", "libs/egts/egts_sr_module_data.go", "libs/egts/egts_sr_dispatcher_identity.go"]}
{"id": "C32", "title": "SR_POS_DATA fields other than coordinates round-trip", "statement": "Encode then Decode of position data preserves time (whole seconds from 2010-01-01 within 2^32 s), flags, speed up to 1638 km/h, direction, odometer below 2^24, inputs, source and altitude below 2^24.", "quantifier": "all field values in range", "why_tests_cant": "Huge domain.", "anchors": ["libs/egts/egts_sr_pos_data.go"]}
{"id": "C33", "title": "Coordinates do not drift by more than one unit per re-encoding", "statement": "For every 32-bit wire latitude/longitude, decoding to float64 degrees and encoding again yields the same wire value or the one just below it.", "quantifier": "all 2^32 latitudes and longitudes under IEEE-754 double rounding", "why_tests_cant": "2^33 cases and rounding-dependent.", "anchors": ["libs/egts/egts_sr_pos_data.go"]}
{"id": "C34", "title": "Coordinate accuracy", "statement": "For every double latitude in [0,90] (longitude in [0,180]) the value recovered after Encode and Decode is within 2.2e-8 (4.4e-8) degrees of the original.", "quantifier": "all doubles in range", "why_tests_cant": "2^62 values.", "anchors": ["libs/egts/egts_sr_pos_data.go"]}
{"id": "C35", "title": "Course is the 9-bit direction", "statement": "The direction decoded from a position record determines the 9-bit direction (0..511) put on the wire by the device (DIRH bit and DIR byte).", "quantifier": "all 512 directions", "why_tests_cant": "Test uses a value for which the defect is invisible.", "anchors": ["libs/egts/egts_sr_pos_data.go", "cli/receiver/server/server.go"]}
{"id": "C36", "title": "Altitude is unaffected by trailing source data", "statement": "Decoding a position record whose altitude flag is set yields the 24-bit altitude on the wire whether or not the optional source-data bytes follow.", "quantifier": "all position records with optional SRCD", "why_tests_cant": "No test carries both.", "anchors": ["libs/egts/egts_sr_pos_data.go"]}
{"id": "C37", "title": "Length agrees with Encode", "statement": "For every subrecord, record set and response section, Length() is the length of what Encode() returns (0 if Encode fails) modulo 2^16.", "quantifier": "all values", "why_tests_cant": "All values.", "anchors": ["libs/egts/binary_data.go:BinaryData.Length"]}
{"id": "C38", "title": "Malformed flag strings are rejected by Encode", "statement": "If the flag strings of a package, record or subrecord do not spell a binary number below 256 (e.g. empty or containing other characters), Encode returns an error and emits nothing.", "quantifier": "all strings in flag fields", "why_tests_cant": "Unbounded strings.", "anchors": ["libs/egts/egts_pkg.go:Encode", "libs/egts/egts_sr_term_identity.go:Encode"]}
{"id": "C39", "title": "Truncated subrecords are rejected", "statement": "Decode of a strict prefix of an encoded subrecord returns an error.", "quantifier": "all subrecords and prefixes", "why_tests_cant": "Unbounded.", "anchors": ["libs/egts/egts_sr_*.go"]}
{"id": "C40", "title": "Absent optional fields are left untouched", "statement": "When a presence flag is 0 the corresponding field keeps the value it had in the receiver and no bytes are consumed for it.", "quantifier": "all inputs, all receivers", "why_tests_cant": "Unbounded.", "anchors": ["libs/egts/egts_sr_ext_pos_data.go", "libs/egts/egts_sr_counters_data.go", "libs/egts/egts_pkg.go"]}
{"id": "C41", "title": "TCP segmentation does not matter", "statement": "What the receiver saves and writes on a connection depends only on the concatenation of received bytes, not on how TCP split them.", "quantifier": "every byte stream and every way of splitting it into reads", "why_tests_cant": "Splits are unbounded schedules.", "anchors": ["cli/receiver/server/server.go:handleConn"]}
{"id": "C42", "title": "Pipelined packets are processed one by one, in order", "statement": "For any sequence of well-framed packets sent back to back (valid, corrupted, or of unknown type), the effects are the concatenation of the effects of processing each packet, threading only the client identifier.", "quantifier": "every sequence of frames", "why_tests_cant": "Unbounded sequences.", "anchors": ["cli/receiver/server/server.go:handleConn"]}
{"id": "C43", "title": "Non-EGTS input closes the connection silently", "statement": "If the next ten bytes do not start with 0x01, or the stream ends inside a packet, the connection closes with nothing written or saved for that packet.", "quantifier": "every stream", "why_tests_cant": "Unbounded.", "anchors": ["cli/receiver/server/server.go:handleConn"]}
{"id": "C44", "title": "Every accepted application packet is acknowledged correctly", "statement": "For every accepted application packet carrying no record-response subrecord the receiver writes one response packet which the library's own Decode accepts and which carries the packet's id, result 0, and one confirmation with status 0 per record, in order, under the last record's service type, with packet id one higher modulo 65536.", "quantifier": "every accepted packet, any number of records", "why_tests_cant": "Unbounded packets.", "anchors": ["cli/receiver/server/server.go:createPtResponse"]}
{"id": "C45", "title": "Every rejected packet gets an error response and the connection survives", "statement": "If Decode rejects a packet the receiver writes exactly one response, decodable by the library, carrying the packet id and Decode's code, saves nothing, and continues with the next packet.", "quantifier": "every rejected packet", "why_tests_cant": "Unbounded.", "anchors": ["cli/receiver/server/server.go:handleConn"]}
{"id": "C46", "title": "Responses are never acknowledged", "statement": "A response packet triggers no write and no save; an application packet containing a record-response subrecord triggers no write.", "quantifier": "every such packet", "why_tests_cant": "Unbounded; acknowledging acks loops forever.", "anchors": ["cli/receiver/server/server.go:handleConn"]}
{"id": "C47", "title": "All navigation data is saved", "statement": "Every position subrecord in an accepted application packet is saved exactly once (README: server saves all navigation data).", "quantifier": "every accepted packet", "why_tests_cant": "Unbounded.", "anchors": ["cli/receiver/server/server.go:handleConn", "README.md"]}
{"id": "C48", "title": "Saved record contents", "statement": "Each saved record carries the coordinates, speed, course and time of the record's position data, the precision data of its last extended-position subrecord, the analog values of every flagged sensor in wire order and every liquid-level reading in wire order.", "quantifier": "every record, any subrecord order", "why_tests_cant": "Unbounded.", "anchors": ["cli/receiver/server/server.go:handleConn", "cli/receiver/storage/packet.go"]}
{"id": "C49", "title": "Saved records are attributed to the right client", "statement": "The client id of a saved record is the last object id or terminal id received on that connection up to and including that record, and 0 if none was received; ids never leak between connections.", "quantifier": "every history of packets on a connection", "why_tests_cant": "Histories are unbounded.", "anchors": ["cli/receiver/server/server.go:handleConn"]}
{"id": "C50", "title": "Record number from counters 110/111", "statement": "When a record carries counter 110 (three low bytes of the record number) and counter 111 (the high byte), the saved packet id is that 32-bit number.", "quantifier": "all 2^32 record numbers", "why_tests_cant": "2^32 values.", "anchors": ["cli/receiver/server/server.go:handleConn"]}
{"id": "C51", "title": "Authentication result is a valid packet", "statement": "The packet sent after a terminal identity or auth info subrecord is one that the library's own Decode accepts and that contains a result-code subrecord with code 0.", "quantifier": "every packet id", "why_tests_cant": "65536 ids; never decoded in tests.", "anchors": ["cli/receiver/server/server.go:createSrResultCode"]}
{"id": "C52", "title": "Acknowledged means stored", "statement": "If the receiver acknowledges a record containing position data then every configured storage accepted it.", "quantifier": "every storage failure pattern", "why_tests_cant": "Failure schedules are unbounded.", "anchors": ["cli/receiver/server/server.go:handleConn", "cli/receiver/storage/store.go:Repository.Save"]}
{"id": "C53", "title": "Fan-out to storages", "statement": "Repository.Save offers the record to the storages in the order they were added, stopping at the first failure; it returns nil iff every storage accepted.", "quantifier": "every list of storages and failure pattern", "why_tests_cant": "Unbounded.", "anchors": ["cli/receiver/storage/store.go:Repository.Save"]}
{"id": "C54", "title": "Loading storages", "statement": "LoadStorages succeeds iff the configuration is non-empty, every name is supported and every Init succeeds, in which case each configured storage is added exactly once - regardless of map iteration order; on failure the receiver still ends up with at least one storage.", "quantifier": "every configuration and every map iteration order", "why_tests_cant": "Go map order is a random schedule.", "anchors": ["cli/receiver/storage/store.go:LoadStorages", "cli/receiver/main.go"]}
{"id": "C55", "title": "Connections do not influence each other", "statement": "Under every interleaving of any number of connections, what is written to a connection and what is saved on its behalf is what a lone connection with the same input would produce (until the process stops).", "quantifier": "every interleaving", "why_tests_cant": "Schedules are unbounded.", "anchors": ["cli/receiver/server/server.go:Run", "cli/receiver/server/server.go:handleConn"]}
{"id": "C56", "title": "No client can take the server down", "statement": "No input on one connection terminates the process.", "quantifier": "every byte stream", "why_tests_cant": "Unbounded hostile inputs.", "anchors": ["cli/receiver/server/server.go:handleConn", "libs/egts/egts_pkg.go:Decode"]}
{"id": "C57", "title": "Idle connections are closed after conn_ttl", "statement": "If nothing is received for conn_ttl the connection is closed (README).", "quantifier": "every history and duration", "why_tests_cant": "Timing schedules.", "anchors": ["cli/receiver/server/server.go:handleConn", "README.md"]}
{"id": "C58", "title": "Stop ends Run", "statement": "After Stop closes the listener, Run returns.", "quantifier": "every sequence of accept results", "why_tests_cant": "Schedules.", "anchors": ["cli/receiver/server/server.go:Run", "cli/receiver/server/server.go:Stop"]}
{"id": "C59", "title": "packet-gen end to end", "statement": "For every pid in 1..65535, oid, liquid level, latitude in [0,90] and longitude in [0,180], sending packet-gen's packet to the receiver makes it save one record with that client id, coordinates within encoding accuracy, the liquid reading and the given timestamp, and packet-gen accepts the acknowledgement and reports success.", "quantifier": "all parameter values", "why_tests_cant": "Huge parameter space; end-to-end.", "anchors": ["cli/packet-gen/main.go", "cli/receiver/server/server.go"]}
{"id": "C60", "title": "Responses appear without waiting for later input", "statement": "What the receiver has written and saved after a prefix of the stream is a prefix of what it writes and saves for the whole stream.", "quantifier": "every stream and every split point", "why_tests_cant": "Unbounded.", "anchors": ["cli/receiver/server/server.go:handleConn"]}
{"id": "C61", "title": "Position decoding is exact on arbitrary bytes", "statement": "SrPosData.Decode succeeds on a byte string exactly if it has at least 21 bytes (22 if the altitude flag is set), and then each decoded field is the stated function of the wire bytes (time, raw coordinates scaled to degrees, flag characters, speed, direction, odometer, inputs, source, altitude).", "quantifier": "every byte string and every prior receiver", "why_tests_cant": "Tests decode one literal record.", "anchors": ["libs/egts/egts_sr_pos_data.go:SrPosData.Decode"]}
{"id": "C62", "title": "Everything the receiver writes is a whole packet", "statement": "Every piece the receiver writes on a connection starts with protocol version 1 and is exactly as long as its own header announces, so a peer can cut the stream of answers into packets the same way the receiver cuts its input; the acknowledgement of n records has 23 + 6n bytes.", "quantifier": "every input stream, every way it ends, every position in the output", "why_tests_cant": "The outputs are produced for unboundedly many inputs, including hostile ones.", "anchors": ["cli/receiver/server/server.go:handleConn", "cli/receiver/server/server.go:createPtResponse", "cli/receiver/server/server.go:createSrResultCode"]}
{"id": "C63", "title": "packet-gen reports success only when the receiver confirmed the packet", "statement": "packet-gen prints that the packet was processed only if it could send it, a reply arrived within the timeout (of at most 292 years, what a Duration can hold), and that reply is a valid response packet for the same packet id with result 0 and no record status other than 0; without the required parameters nothing is sent.", "quantifier": "all parameter values, all replies (including garbage) and all delays", "why_tests_cant": "Replies are arbitrary byte strings.", "anchors": ["cli/packet-gen/main.go:main"]}
{"id": "C64", "title": "Subrecords are laid out on the wire as the protocol says", "statement": "For every kind of subrecord, the encoder emits the fields in the order, widths, byte order and bit positions of the protocol's tables, optional fields present exactly if their flag is set; and the decoder reads the same layout back, whatever follows it in the subrecord.", "quantifier": "all values of each kind of subrecord that the wire format can carry; all trailing bytes", "why_tests_cant": "A round-trip test cannot notice a layout that is wrong the same way in both directions, and samples cannot cover the flag combinations and field values.", "anchors": ["libs/egts/egts_sr_*.go:Encode", "libs/egts/egts_sr_*.go:Decode"]}
{"id": "C65", "title": "Records and responses are laid out on the wire as the protocol says", "statement": "A subrecord is its type, its two-byte length and its data; a service data record is its data length, number, flag byte, the optional object id, event id and time in that order, the two service types and the data; a response is the confirmed packet id, the result and the records; sets are concatenations. The decoder reads these layouts with any content: each element is consumed exactly, and what follows is decoded as if it stood alone.", "quantifier": "all records with any data bytes, any number of them, any prior content of the receiver, any following bytes", "why_tests_cant": "Record contents and nesting are unbounded; round trips do not pin the layout.", "anchors": ["libs/egts/record_data.go:RecordDataSet", "libs/egts/service_data_records.go:ServiceDataSet", "libs/egts/egts_pt_response.go:PtResponse"]}
{"id": "C66", "title": "A stored record is read back exactly", "statement": "The text that is handed to a storage for a record is JSON, and reading its members by name gives every field of the record back unchanged, latitude and longitude as the very same double-precision numbers; so two different records never have the same text. This holds for every record the receiver ever saves.", "quantifier": "every record with ASCII strings; every packet and every byte stream received", "why_tests_cant": "Printing doubles so that they read back exactly depends on the number; there are 2^64 pairs of wire coordinates, and lists of sensors of any length.", "anchors": ["cli/receiver/storage/packet.go:NavRecord.ToBytes", "cli/receiver/server/server.go:handleConn"]}
{"id": "C67", "title": "Saved records are plausible", "statement": "Whatever bytes arrive, each record saved has a latitude in [0, 90] and a longitude in [0, 180] degrees, a speed of at most 1638, a navigation time in the 2^32 seconds from the start of 2010, and the time of the packet as time of receipt; the degrees are those on the wire to within 10^-13.", "quantifier": "every packet, every byte stream, every clock", "why_tests_cant": "Must hold for hostile input; rounding could in principle step over 90 or 180.", "anchors": ["cli/receiver/server/server.go:handleConn", "libs/egts/egts_sr_pos_data.go:SrPosData.Decode"]}
{"id": "C68", "title": "A saved position tells the hemisphere", "statement": "The latitude and longitude saved for a position are its coordinates with the sign of the hemisphere given by its LAHS and LOHS flags.", "quantifier": "every accepted packet", "why_tests_cant": "The tests' packets all come from the north-east.", "anchors": ["cli/receiver/server/server.go:handleConn", "cli/receiver/storage/packet.go:NavRecord"]}
{"id": "C69", "title": "Each saved record reaches each configured storage once", "statement": "With storages loaded from the configuration, saving a record makes, for each configured storage in turn until one refuses, exactly one call of its client library; the call goes to the table, exchange and key, topic, channel or queue named in the settings and carries the JSON text of the record, and nothing else in the call (in particular not the text of an SQL statement) depends on the record. If nothing is refused, then over any history of any number of connections each storage receives each saved record exactly once, in the order of saving, and reads it back exactly.", "quantifier": "every configuration, every behaviour of the client libraries, every interleaving of connections and every byte stream", "why_tests_cant": "Six storages, any subset of them, any answers of the servers and any schedule; the tests need a live server each.", "anchors": ["cli/receiver/storage/store.go:Repository.Save", "cli/receiver/storage/store/*/connector.go:Connector.Save", "cli/receiver/server/server.go:handleConn"]}
{"id": "C70", "title": "A storage starts iff its settings are usable and its server answers", "statement": "Init of a storage returns nil exactly if the settings it needs are present and well-formed (numbers are decimal integers that fit into an int; a missing Redis database number means 0) and the server named in the settings can be connected to; without settings it fails without connecting. Records are later delivered over the connection opened by Init.", "quantifier": "every storage, every settings map, every behaviour of the client libraries", "why_tests_cant": "All maps of settings and all answers of the libraries.", "anchors": ["cli/receiver/storage/store/*/connector.go:Connector.Init", "cli/receiver/storage/store/*/connector.go:Connector.Save"]}
{"id": "C71", "title": "Without storages the records are printed", "statement": "A receiver whose configuration names no storage writes every record it saves to its log, once and in order, as indented JSON that reads back as the record.", "quantifier": "every configuration without storages, every interleaving of connections and every byte stream", "why_tests_cant": "All records, all histories and all log levels.", "anchors": ["cli/receiver/storage/default.go:LogConnector.Save", "cli/receiver/main.go:main", "cli/receiver/config/config.go:GetLogLevel"]}
{"id": "C72", "title": "The receiver runs with the settings of its configuration file", "statement": "A configuration file is accepted exactly if each known key has a value of the kind it demands. The host, port, log level, TTL and storages (each once, with its own settings) are then those in the file, zero or empty where missing; the receiver listens on host:port and uses conn_ttl seconds as the TTL of connections.", "quantifier": "every YAML document of mappings, sequences and scalars", "why_tests_cant": "All documents, with missing, repeated and unknown keys; the test reads one.", "anchors": ["cli/receiver/config/config.go:New", "cli/receiver/config/config.go:Settings", "cli/receiver/main.go:main"]}
{"id": "C73", "title": "Each storage is contacted with the settings of the configuration", "statement": "Every call that a storage makes on its client library, when it is started and when a record is saved, goes to the server, port, database, user and password (and sslmode, timeouts, reconnection limit) that its section of the configuration names, as the client library understands the connection string; a login is sent to NATS exactly if both user and password are set.", "quantifier": "all settings maps of the six storages; all answers of the client libraries; all records", "why_tests_cant": "Connection strings are built by concatenation; whether they are read back as meant depends on every character of every setting. The tests use one set of settings per storage.", "anchors": ["cli/receiver/storage/store/postgresql/connector.go: Connector.Init", "cli/receiver/storage/store/rabbitmq/connector.go: Connector.Init", "cli/receiver/storage/store/nats/connector.go: Connector.Init", "cli/receiver/storage/store/redis/connector.go: Connector.Init", "cli/receiver/storage/store/mysql/connector.go: Connector.Init", "cli/receiver/storage/store/tarantool_queue/connector.go: Connector.Init"]}
{"id": "C74", "title": "From the configuration file to the storages", "statement": "The receiver offers each record it saves to the storages loaded from its configuration file, in the order of loading, and also to the log if some storage could not be loaded or none is configured. An attempt to save that is reported as a success has delivered the record to each of them exactly once; one that fails has delivered it to a beginning of them. So at a log level that prints, no record reported as saved is lost.", "quantifier": "every configuration, every order of loading, every behaviour of the client libraries, every interleaving of connections and every byte stream", "why_tests_cant": "The chain of file, loading, connections and storages, with failures at any point, cannot be enumerated.", "anchors": ["cli/receiver/main.go:main", "cli/receiver/storage/store.go:LoadStorages", "cli/receiver/storage/store.go:Repository.Save", "cli/receiver/storage/default.go:LogConnector.Save"]}
{"id": "C75", "title": "EGTS+ data survives Encode then Decode", "statement": "For every StorageRecord whose required fields (RecordNumber, TimeStamp, StatusFlags) are set, Encode succeeds and Decode of the result, into any receiver, gives the same record: each optional field set or nil as before, the repeated messages and the reasons in their order, and the unknown fields. Whatever Decode returns can be encoded again and is the same after another Decode. A record that lacks a required field is refused by Encode and never returned by Decode.", "quantifier": "all records, with any number of sensor messages, reasons and unknown fields; all byte strings shorter than 4 GiB; all receivers", "why_tests_cant": "The test has one record with two messages. The space of optional fields, repeated messages, sign-extended and zigzag values, packed and repeated fields, long tags and unknown fields (nested groups among them) is unbounded.", "anchors": ["libs/egts/egts_sr_egtsplus_data.go: StorageRecord.Decode, StorageRecord.Encode, StorageRecord", "go.mod: github.com/golang/protobuf"]}
{"id": "C76", "title": "EGTS+ data is read and written in the protobuf format of the published description", "statement": "StorageRecord.Decode accepts exactly the byte strings that are a storage_record in the protobuf wire format with the required fields present, and returns the record they stand for (last value of a scalar field, all values of repeated fields, packed or not, unknown fields kept); a byte string stands for one record at most. Encode writes that format, the fields in ascending order of their numbers with the shortest tags, unknown fields last. Field numbers and types of all eighteen sensor messages are those of docs/egts_sr_egtsplus_data.proto.", "quantifier": "all byte strings; all records with the required fields; all messages of the description", "why_tests_cant": "Agreement with a format is a statement about all byte strings, the accepted and the refused ones; the test has one of them, and exercises two of the eighteen messages.", "anchors": ["libs/egts/egts_sr_egtsplus_data.go: StorageRecord.Decode, StorageRecord.Encode, struct tags", "docs/egts_sr_egtsplus_data.proto"]}
{"id": "C77", "title": "Decode depends only on the bytes it is given", "statement": "The result of Package.Decode (code, error, panic, the package) is determined by the bytes of the slice it is given, its receiver and the key. What lies in memory behind the slice, up to its capacity, has no influence.", "quantifier": "all slices of any length with any contents behind them; all receivers; all keys", "why_tests_cant": "A test decodes a slice with one capacity and one memory content. That nothing behind the end is ever read has to hold for all inputs and all contents of memory.", "anchors": ["libs/egts/egts_pkg.go: Package.Decode"]}
{"id": "C78", "title": "Bytes that follow a frame do not change how it is decoded", "statement": "If a slice begins with a complete frame, then Package.Decode gives for it the same code, error and package as for the frame alone, whatever follows the frame. In particular what Encode returns is decoded the same when other frames are appended to it.", "quantifier": "all frames, accepted or not; all following bytes; all packages that Encode accepts", "why_tests_cant": "The bytes that follow are arbitrary; they could be taken into a checksum, a body or a string.", "anchors": ["libs/egts/egts_pkg.go: Package.Decode, Package.Encode"]}
{"id": "C79", "title": "Encode returns, whatever the package holds", "statement": "Package.Encode never panics: it returns bytes or an error. In particular every package obtained from Decode can be passed to Encode.", "quantifier": "all packages, with any number of records and subrecords, any flags, lengths and values; all keys; all byte strings decoded", "why_tests_cant": "The space of packages is unbounded; one nil in one subrecord of one record is enough for a crash.", "anchors": ["libs/egts/egts_pkg.go: Package.Encode", "libs/egts/record_data.go: RecordDataSet.Encode", "libs/egts/service_data_records.go: ServiceDataSet.Encode"]}
{"id": "C80", "title": "A package can be read back from its JSON text", "statement": "Package.ToBytes returns a JSON text in UTF-8 from which every field of the package can be read back: those of the header, of each record in order and of each subrecord with its kind, times to the nanosecond, coordinates and EGTS+ values exactly. Packages with the same text are the same, and every package returned by Decode has a text.", "quantifier": "all packages with any number of records and subrecords of all kinds and any values; all byte strings decoded", "why_tests_cant": "Reading back depends on the escapes of every possible string, on the shortest decimal of every float and on every date; two different packages with one text are not found by samples.", "anchors": ["libs/egts/egts_pkg.go: Package.ToBytes", "libs/egts/service_data_records.go: ServiceDataRecord", "libs/egts/record_data.go: RecordData", "libs/egts/egts_sr_*.go: the fields and their json tags"]}
{"id": "C81", "title": "What is made of received bytes is fixed by the layout of the protocol", "statement": "For every byte string: each kind of subrecord, a sequence of subrecords, a sequence of records, the content of a response and a whole frame are accepted exactly if the bytes follow the layout of the protocol, and every field of the result is the value found at the place that the layout gives it, in little-endian order, with optional fields where the flags say they are and others unchanged. The layout is that of the standard, except that of the last field of a subrecord one byte is enough, a last subrecord or record may be shorter than it declares, counter 2 is stored as counter 1, subrecords of unknown type are left out, and the rest of a record response is checked and left out. Bytes never stand for two different results.", "quantifier": "all byte strings of any length, accepted or not; all nested records; all values that the structure held before", "why_tests_cant": "Each combination of flags moves the fields that follow, records nest without bound, and the claim includes that everything else is rejected.", "anchors": ["libs/egts/egts_sr_*.go: Decode", "libs/egts/record_data.go: RecordDataSet.Decode", "libs/egts/service_data_records.go: ServiceDataSet.Decode", "libs/egts/egts_pt_response.go: PtResponse.Decode", "libs/egts/egts_pkg.go: Package.Decode"]}
{"id": "C82", "title": "From the device to the storages", "statement": "A device that connects and sends packets made with this library (unencrypted application packets, not too long, without confirmations, whose contents the wire format carries) has each of them handled in turn: for each record with a position one record is saved, in order, under the last identifier sent up to then, equal to what was sent with coordinates within 22 (44) nanodegrees; then all records of the packet are confirmed, and a login is answered; only then comes the next packet. With any number of other connections, in any interleaving, and any configured storages whose libraries accept everything, the records arrive in order at each configured place as JSON that reads back as these records; as long as the process lives nothing the other connections do can prevent it.", "quantifier": "all sequences of such packets; all interleavings with any number of connections; all configurations; all ends of the connection", "why_tests_cant": "It composes encoding, framing, decoding, saving, acknowledging, scheduling, configuration and serialization for every sequence of packets and every schedule.", "anchors": ["libs/egts/egts_pkg.go: Package.Encode, Package.Decode", "cli/receiver/server/server.go: Server.handleConn", "cli/receiver/storage/store.go: Repository.Save, Repository.LoadStorages", "cli/receiver/storage/packet.go: NavRecord.ToBytes", "cli/receiver/main.go: main"]}
{"id": "C83", "title": "A relay passes on whatever it accepts", "statement": "Whatever frame Decode accepts, Encode of the resulting package succeeds, and the frame it gives is accepted by the next Decode, which yields the same package (coordinates within the resolution of the wire format).", "quantifier": "every accepted frame, whoever made it, every receiver and every memory behind the second frame", "why_tests_cant": "The frames come from devices of any make; lengths, unknown subrecords and cut fields combine without bound.", "anchors": ["libs/egts/egts_pkg.go: Decode, Encode", "libs/egts/service_data_records.go: Encode", "libs/egts/record_data.go: Encode"]}
{"id": "C84", "title": "packet-gen does what its command line asks", "statement": "However the options are spelled (-x v, --x v, -x=v, --x=v), ordered and repeated, packet-gen runs with the last value given for each and the default for the others; a number written in decimal digits is that number, and it arrives in the storage as typed, coordinates to within the resolution of the protocol. A decimal number becomes the nearest floating-point number; times are accepted if and only if they are in the format of RFC 3339. With an unknown option, a missing value or a value that is not a number nothing is sent and the program ends with exit code 2 (0 if help was asked for).", "quantifier": "all command lines; all numbers; all networks", "why_tests_cant": "Command lines are lists of arbitrary length of arbitrary texts.", "anchors": ["cli/packet-gen/main.go: main (flag.IntVar, flag.StringVar, flag.Float64Var, flag.Parse)"]}
{"id": "C85", "title": "The receiver reads the file its command line names", "statement": "However -c is spelled, the receiver starts with the file that the last -c names; without a name, with an unreadable file, with an unknown option or with a missing value it ends without listening.", "quantifier": "all command lines, file systems and storages", "why_tests_cant": "Command lines are lists of arbitrary length of arbitrary texts.", "anchors": ["cli/receiver/main.go: main"]}
{"id": "C86", "title": "Replaying recorded packets", "statement": "tools/send_egts.py sends the packets of a file, one per line in hexadecimal digits, exactly and in order, and waits for an answer after each; against the receiver it never waits in vain, however the answers are cut into pieces by the network.", "quantifier": "all files of packets, all ways to cut the answers into pieces", "why_tests_cant": "Files hold any number of packets of any content; how much recv returns is up to the network.", "anchors": ["tools/send_egts.py", "cli/receiver/server/server.go: Server.handleConn"]}
{"id": "C87", "title": "The whole receiver, from its command line to the storages", "statement": "The receiver listens exactly if its command line names a usable configuration file, once, before anything else and on the address in that file; each connection accepted is served once. Whatever happens on any number of connections: what a device sends is delivered, in order, to each storage of the file (or printed, without storages) and answered, as long as the storages accept it and the process lives.", "quantifier": "all command lines, configuration files, orders of the map of storages, histories of the process with any number of connections, and packets of devices", "why_tests_cant": "It quantifies over all interleavings of any number of connections and all configurations; a test starts one process with one file.", "anchors": ["cli/receiver/main.go: main", "cli/receiver/server/server.go: Server.Run, Server.handleConn", "cli/receiver/storage/store.go: Repository.LoadStorages, Repository.Save"]}
{"id": "C88", "title": "Saves that take time", "statement": "While a record is being offered to the storages one after the other, the goroutines of other connections can do anything, also call the same storages. Still: what is done for a connection is a beginning of what a receiver serving it alone would do, and all of it once its goroutine is at rest, which nothing can prevent; the calls of a goroutine are, for each record it saves, an offer to each storage in turn up to the first that refuses; each storage is offered the records of a connection once each and in order if the storages accept them; and every offer is one call of the library of that storage.", "quantifier": "all histories of any number of connections in which the steps are single calls of storages, all storages and worlds, and all packets of devices", "why_tests_cant": "The interleavings of goroutines between the calls of storages are unbounded in number and not under the control of a test.", "anchors": ["cli/receiver/storage/store.go: Repository.Save", "cli/receiver/server/server.go: Server.handleConn, Server.Run"]}
{"id": "C89", "title": "What a failed Decode leaves behind", "statement": "When Decode of records or subrecords fails, the receiver holds what it held before, followed by exactly the records of a part in front of the bytes; what follows that part gives the same error alone, and if it begins with a complete record, it is the data of this record that is wrong. When Decode of a package fails, its body is the old one if the header was refused, and otherwise the records that could be decoded: all of them if only the body checksum is wrong, none if decryption failed.", "quantifier": "all byte strings, receivers, keys and packages", "why_tests_cant": "It holds for every malformed input and every previous content of the receiver.", "anchors": ["libs/egts/service_data_records.go: ServiceDataSet.Decode", "libs/egts/record_data.go: RecordDataSet.Decode", "libs/egts/egts_pt_response.go: PtResponse.Decode", "libs/egts/egts_pkg.go: Package.Decode"]}
{"id": "C90", "title": "Noise of up to three bits is noticed", "statement": "If one, two or three bits of a frame that Decode accepts are altered, anywhere in header, body and checksums except in the byte that declares the header length and in the routing flag, Decode returns an error. The frame declares its header length rightly and its body has at most 4093 bytes (the reach of the 16-bit checksum).", "quantifier": "all accepted frames, all sets of one to three bits", "why_tests_cant": "A frame of 4 kB has more than 5*10^12 sets of three bits.", "anchors": ["libs/egts/crc.go: crc8, crc16", "libs/egts/egts_pkg.go: Package.Decode"]}
{"id": "C91", "title": "The receiver's packets can be told apart by their numbers", "statement": "If the packets that arrive on a connection have different packet identifiers, so have the packets that the receiver sends on it. Each of them is numbered one above the packet it answers, and there are at most two for each.", "quantifier": "all connections, all sequences of frames on them that do not make the decoder panic, however the connection ends", "why_tests_cant": "The claim is about all pairs of packets in conversations of any length.", "anchors": ["cli/receiver/server/server.go: Server.handleConn, createPtResponse, createSrResultCode"]}
{"id": "C92", "title": "Nothing is delivered but what was received, and nothing twice", "statement": "In every history of the receiver, whatever the libraries of the storages answer: every call that delivers something to a storage or to the log delivers JSON that reads back as a plausible record which is to be stored for an accepted packet received on one of the connections. Of the records of any one connection each storage gets each at most once, and in order.", "quantifier": "all command lines, configuration files, numbers of connections, bytes received on them, interleavings of the goroutines down to single calls of storages, answers of the libraries (also refusals), and points in time", "why_tests_cant": "It excludes deliveries of any other kind, in any of infinitely many histories.", "anchors": ["cli/receiver/main.go: main", "cli/receiver/server/server.go: Server.Run, Server.handleConn", "cli/receiver/storage/store.go: Repository.Save, Repository.LoadStorages", "cli/receiver/storage/store/*/connector.go: Connector.Init, Connector.Save"]}
{"id": "C93", "title": "What has been acknowledged survives a crash", "statement": "At every moment of every history of the receiver, also at the one at which the process dies: if a packet has been acknowledged to the device, the navigation records due for it and for all packets before it on that connection have already been delivered to every configured storage, provided the storages' libraries report no error. So a device that deletes what has been acknowledged loses nothing.", "quantifier": "all command lines and configuration files with storages, orders in which the storages are loaded, numbers of connections, bytes received on them, interleavings of the goroutines down to single calls of storages, and crash points", "why_tests_cant": "It is about every point in time of infinitely many histories, with other connections doing anything, including crashing the process.", "anchors": ["cli/receiver/main.go: main", "cli/receiver/server/server.go: Server.handleConn", "cli/receiver/storage/store.go: Repository.Save"]}
{"id": "C94", "title": "Everything received gets handled", "statement": "The goroutine of a connection makes at most a fixed number of steps for the bytes received, which depends only on these bytes and the number of storages; so it never loops without progress. In every unending history of the receiver whose scheduler is fair to that goroutine, everything that is to be done about what was received on the connection has been done from some time on, whatever happens on the other connections. In particular what a device has sent arrives in all configured storages and is answered.", "quantifier": "all command lines, configuration files, numbers of connections, bytes received on them, infinite interleavings of the goroutines (down to single calls of storages) that are fair to the one in question", "why_tests_cant": "It is a liveness property: it speaks about infinite histories, and about all of them.", "anchors": ["cli/receiver/main.go: main", "cli/receiver/server/server.go: Server.Run, Server.handleConn", "cli/receiver/storage/store.go: Repository.Save"]}
{"id": "C95", "title": "Decoding takes memory in proportion to the input", "statement": "While records are decoded, the buffers set aside for record data are about as long as the input: no longer than the input and one more buffer of 64 KiB.", "quantifier": "all byte strings given to Package.Decode or ServiceDataSet.Decode, whether accepted or not", "why_tests_cant": "The memory depends on declared lengths and on how records and record responses are nested, of which there are unboundedly many; usual packets need little.", "anchors": ["libs/egts/service_data_records.go: ServiceDataSet.Decode", "libs/egts/record_data.go: RecordDataSet.Decode", "libs/egts/egts_sr_response.go: SrResponse.Decode"]}
{"id": "C96", "title": "A client that does not read its answers keeps no position from being handled", "statement": "What a client has sent is handled whether or not the client reads what it is answered: positions that have arrived are saved even if the answers to earlier ones have not been read, and a client that has hung up releases its connection. A client that does not read harms no other connection.", "quantifier": "all numbers of connections, bytes received on them, room of the operating system for outgoing bytes, amounts read by the clients at any time, failing connections, and interleavings of the goroutines down to single calls of storages and of the operating system", "why_tests_cant": "The outcome depends on how much the operating system takes before it blocks, and on the interleaving of reading clients with many goroutines; tests read every answer.", "anchors": ["cli/receiver/server/server.go: Server.handleConn", "cli/receiver/server/server.go: Server.Run"]}
{"id": "C97", "title": "A device that keeps what has not been acknowledged loses nothing", "statement": "A device keeps every packet it has made until it has read its acknowledgement, a response with result 0 that carries the number of the packet, and otherwise sends it again on another connection, possibly to a receiver that has been started anew. At every moment each packet is among those the device keeps, or its positions have been delivered to all configured storages, provided the storages report no error; wherever connections have been cut off in either direction and whatever else the receivers have been doing. A receiver that lives and has received the packets can always get to answering them, after which the device keeps none of them.", "quantifier": "all sequences of sessions, each with any history of a receiver with any number of other connections and any crash, any beginning of what the device has sent received and any beginning of what was written read", "why_tests_cant": "It speaks about every point in time of every sequence of broken connections and restarts, cut at any byte.", "anchors": ["cli/receiver/main.go: main", "cli/receiver/server/server.go: Server.handleConn, createPtResponse", "cli/receiver/storage/store.go: Repository.Save", "libs/egts/egts_pkg.go: Package.Decode"]}
{"id": "C98", "title": "From the text of the configuration file to the running receiver", "statement": "A configuration file of lines `key: value`, nested by indentation, with comments and blank lines, values in double quotes, plain words or decimal numbers, says one thing only, and the receiver runs with exactly that: it listens on the host and port written there. With the shipped configs/receiver.yaml, and all servers answering, it listens on 127.0.0.1:6000 and opens the PostgreSQL, Redis and MySQL storages named there with the settings written there.", "quantifier": "every text of such lines, every reader of YAML that is right about such texts, every order in which the storages are gone through", "why_tests_cant": "All texts, nestings and comments; the test reads one file.", "anchors": ["cli/receiver/config/config.go:New", "cli/receiver/main.go:main", "configs/receiver.yaml", "configs/config.test.yaml"]}
{"id": "C99", "title": "A packet that is sent again is stored once", "statement": "A device that has not read an acknowledgement sends its packet again. The positions in a packet that has been received twice, on one connection or on two, are stored once.", "quantifier": "all sequences of well-framed packets on any connections, every number of repetitions", "why_tests_cant": "All packets in all orders and multiplicities, on any connection.", "anchors": ["cli/receiver/server/server.go: Server.handleConn", "cli/receiver/storage/store.go: Repository.Save"]}
{"id": "C100", "title": "Positions are stored for those only who have logged in", "statement": "A position is stored under an identifier only if the sender has logged in before on the connection with authorization data that are valid for that identifier.", "quantifier": "all packets on a connection, all user names, passwords and identifiers", "why_tests_cant": "All authorization data, all identifiers and all sequences of packets.", "anchors": ["cli/receiver/server/server.go: Server.handleConn", "libs/egts/egts_sr_auth_info.go: SrAuthInfo"]}
{"id": "C101", "title": "The container runs as the README says", "statement": "Started as in the README, the container runs the receiver: without options with the shipped configuration, and with the volume ./configs, as in the examples with docker run and docker-compose, with the configuration in that directory; devices reach it at the published port 6000.", "quantifier": "all contents of the directory ./configs and of the image otherwise, every reader of YAML that is right about simple files, all behaviours of the storages", "why_tests_cant": "No test starts the container; the claim is about all files that may be mounted.", "anchors": ["Dockerfile", "README.md: Docker", "configs/", "cli/receiver/main.go: main"]}
{"id": "C102", "title": "A package can be encoded by several goroutines at once", "statement": "Encode does not change what a package says, so a package can be sent to several receivers at once: if several goroutines call Encode of one package at the same time, each gets the bytes that a call alone gives.", "quantifier": "all packages and keys, any number of goroutines, all interleavings of their reads and writes of the package", "why_tests_cant": "The outcome depends on the interleaving; tests call Encode from one goroutine.", "anchors": ["libs/egts/egts_pkg.go: Package.Encode (170-273; header length 203-208, 235-236; frame data length 264)"]}
{"id": "C103", "title": "A packet that cannot be interpreted is refused", "statement": "A packet whose header says that its body is compressed, that it is addressed to another peer or has exceeded its time to live, or that it has another protocol version, prefix or header encoding than those the library knows, is refused: it is not decoded, stored and confirmed as if it were an ordinary one. Answers to a packet with routing fields are routed back.", "quantifier": "all packets, all values of the header fields, all sequences of packets on a connection", "why_tests_cant": "All headers in combination with all bodies; tests decode ordinary packets.", "anchors": ["libs/egts/egts_pkg.go: Package.Decode (54-168)", "cli/receiver/server/server.go: Server.handleConn, createPtResponse"]}
{"id": "C104", "title": "One damaged packet does no harm to the others", "statement": "If a packet is damaged on the way, the sender is told so, and the packets before and after it on the same connection are stored and answered as if it had not been sent.", "quantifier": "all sequences of packets on a connection, all damage to one of them, everything that follows", "why_tests_cant": "All packets, all damage and all that may follow.", "anchors": ["cli/receiver/server/server.go: Server.handleConn (80-135)", "libs/egts/egts_pkg.go: Package.Decode"]}
{"id": "C105", "title": "Encode refuses what cannot be read back", "statement": "If a value is too large for its place in a packet (a counter of more than 24 bits, a speed above 1638 km/h, a negative latitude, a text of the wrong length, a text with a NUL byte, a moment before 2010), Encode returns an error; what Encode accepts is read back as it was put in.", "quantifier": "all subrecords of all kinds, all values of their fields", "why_tests_cant": "All values of all fields of fifteen kinds of subrecords.", "anchors": ["libs/egts/egts_sr_pos_data.go: SrPosData.Encode (133-206)", "libs/egts/egts_sr_term_identity.go: SrTermIdentity.Encode (118-179)", "libs/egts/egts_sr_liquid_level_sensor.go: SrLiquidLevelSensor.Encode (60-89)", "libs/egts/egts_sr_abs_cntr_data.go: SrAbsCntrData.Encode (40-59)", "libs/egts/egts_sr_counters_data.go: SrCountersData.Encode (122-205)", "libs/egts/egts_sr_auth_info.go: SrAuthInfo.Encode (52-74)"]}
{"id": "C106", "title": "A moment is sent as the second in which it lies", "statement": "The time of a record and the time of a position are sent as the second in which the moment lies: the time that is read is never later than the one put in and less than a second earlier, and a record and a position made at the same moment give the same second.", "quantifier": "all moments from 2010 to 2146, to the nanosecond; all records and positions", "why_tests_cant": "2^32 seconds of 10^9 nanoseconds; the failures lie in the last nanoseconds of a second.", "anchors": ["libs/egts/service_data_records.go: ServiceDataSet.Encode (171)", "libs/egts/egts_sr_pos_data.go: SrPosData.Encode (142-146)"]}
{"id": "C107", "title": "A failed Decode of a subrecord has no effect", "statement": "If Decode of a subrecord returns an error, its receiver holds what it held before, and a later Decode into it gives what it would have given without the failed one.", "quantifier": "all kinds of subrecords but EGTS-PLUS data, all receivers, all bytes", "why_tests_cant": "Every place at which data can end, for every receiver and every value of the bytes in front.", "anchors": ["libs/egts/egts_sr_pos_data.go: SrPosData.Decode (37-130)", "libs/egts/egts_sr_*.go: Decode"]}
{"id": "C108", "title": "A package is the same bytes on every machine", "statement": "Encode of a package gives the same bytes, or the same error, and Decode the same package, whatever the processor for which the library is compiled.", "quantifier": "all packages, all keys, all bytes, all implementations of the conversions that the Go language leaves to the implementation", "why_tests_cant": "Tests run on one machine; the claim is about all implementations that the language allows, and about every latitude, longitude and time.", "anchors": ["libs/egts/egts_sr_pos_data.go: SrPosData.Encode (142-155)", "libs/egts/egts_pkg.go: Package.Encode", "libs/egts/egts_pkg.go: Package.Decode"]}
{"id": "C109", "title": "The JSON texts are single harmless lines, the printed ones are indented", "statement": "The JSON of a package and of a stored record is one line of UTF-8 without control characters, `<`, `>`, `&` and the Unicode line separators; numbers have an exponent exactly outside [1e-6, 1e21); the text the program prints is indented by four blanks for every open bracket.", "quantifier": "all packages and records, with any bytes in their strings; all input on a connection", "why_tests_cant": "The strings of a package are arbitrary bytes sent by a device; the claim is that none of them leads to a line break or the end of a script.", "anchors": ["libs/egts/egts_pkg.go: Package.ToBytes", "cli/receiver/storage/packet.go: NavRecord.ToBytes", "cli/receiver/storage/default.go: LogConnector.Save (15)"]}
{"id": "C110", "title": "The receiver sends no more than it receives", "statement": "On no connection does the receiver send more bytes than it has received on it. (It answers 53 bytes for 21 at most; packets of 239 bytes or more are answered with no more bytes than they have.)", "quantifier": "all byte streams, all ways in which they end", "why_tests_cant": "A test sends some packets; the worst ratio is reached by packets that no device makes, with a wrong header length and a record that is cut.", "anchors": ["cli/receiver/server/server.go: Server.handleConn, createPtResponse, createSrResultCode", "libs/egts/service_data_records.go: ServiceDataSet.Decode"]}
{"id": "C111", "title": "What is sent can be told apart", "statement": "Two well-formed packages for which Encode gives the same bytes agree in all the fields that are sent, up to the resolution of coordinates; so a decoder could be written that loses nothing. A stream of frames can be divided into frames in one way only.", "quantifier": "all pairs of well-formed packages, sets of records and of subrecords; all keys that can undo themselves; all streams of frames", "why_tests_cant": "It speaks of pairs of values; a test would have to find two different ones that collide.", "anchors": ["libs/egts/egts_pkg.go: Package.Encode", "libs/egts/service_data_records.go: ServiceDataSet.Encode, RecordDataSet.Encode", "libs/egts/egts_sr_pos_data.go: SrPosData.Encode", "libs/egts/egts_sr_counters_data.go: SrCountersData.Encode", "libs/egts/egts_sr_ad_sensors_data.go: SrAdSensorsData.Encode", "cli/receiver/server/server.go: Server.handleConn"]}
{"id": "C112", "title": "Coordinates that are no numbers", "statement": "A position with a coordinate that is infinite or not a number is refused by Encode and by packet-gen. (Finite ones, also subnormal, huge, or zero with a minus sign, are sent and read as the rest of the model says.)", "quantifier": "all values of type float64, all ways in which a machine converts what does not fit uint32, all texts on the command line", "why_tests_cant": "All 2^64 values and all implementation-specific conversions; a test on one machine sees one conversion.", "anchors": ["libs/egts/egts_sr_pos_data.go: SrPosData.Decode, SrPosData.Encode", "cli/packet-gen/main.go: main (flags lat and lon)"]}
{"id": "C113", "title": "Passing on from relay to relay", "statement": "A package that is decoded and encoded again by any number of relays in a row arrives as it was sent; its positions are within one unit of the wire format of where they were.", "quantifier": "all packages in the clear that the library can carry, all numbers of relays, all 32-bit coordinates", "why_tests_cant": "A test passes a package on once or twice and sees no difference or a difference of one unit; that the differences add up, by how much, and that they end takes all chains of all lengths.", "anchors": ["libs/egts/egts_sr_pos_data.go: SrPosData.Decode, SrPosData.Encode", "libs/egts/package.go: Package.Decode, Package.Encode"]}
{"id": "C114", "title": "Reasons of EGTS+ records and their names", "statement": "The text that String gives for a record reason is its published name, or its number if it has none; different reasons have different texts; and UnmarshalJSON reads a reason back from its number and from its text in quotation marks, leaving the variable unchanged when it refuses.", "quantifier": "all 32-bit reasons, all byte strings given to UnmarshalJSON", "why_tests_cant": "There are 2^32 reasons, of which 39 have names, and no bound on the texts that may be read; a test looks at a few names.", "anchors": ["libs/egts/egts_sr_egtsplus_data.go: StorageRecordReason.String, StorageRecordReason.UnmarshalJSON", "docs/egts_sr_egtsplus_data.proto: reason"]}
{"id": "C115", "title": "The packets before do not matter", "statement": "What is answered to a packet and what is saved of it does not depend on the packets that were sent before it on the connection.", "quantifier": "all sequences of frames, all histories, clocks and contents of memory", "why_tests_cant": "A test sends a packet after a few others; that no history at all changes what is done with it takes all sequences of packets.", "anchors": ["cli/receiver/server/server.go: handleConn"]}
{"id": "C116", "title": "Storages can be closed", "statement": "Close of a storage releases everything that its Init opened, whatever Init and the closing calls returned, and never panics.", "quantifier": "all six storages, all settings, all behaviours of the client libraries", "why_tests_cant": "The outcomes of the library calls in Init and Close multiply, and most are failures that a test would need a faulty server for.", "anchors": ["cli/receiver/storage/store/rabbitmq/connector.go: Connector.Close", "cli/receiver/storage/store/postgresql/connector.go: Connector.Close", "cli/receiver/storage/store/mysql/connector.go: Connector.Close", "cli/receiver/storage/store/nats/connector.go: Connector.Close", "cli/receiver/storage/store/redis/connector.go: Connector.Close", "cli/receiver/storage/store/tarantool_queue/connector.go: Connector.Close"]}
{"id": "C117", "title": "Subrecords that are not implemented do no harm to the others", "statement": "A packet that contains subrecords which the library does not implement is handled as if they were not there: the other subrecords of its records are decoded, its positions are stored, its records are confirmed.", "quantifier": "all packets with any number of records and subrecords of any types and lengths, any places of the subrecords that are not implemented", "why_tests_cant": "Any subset of any sequence of subrecords may be of such types, and the claim relates two packets.", "anchors": ["libs/egts/record_data.go: RecordDataSet.Decode (28-89)", "libs/egts/service_data_records.go: ServiceDataSet.Decode", "cli/receiver/server/server.go: Server.handleConn"]}
