# Formal model of kuznetsovin/egts-protocol

Source: `/repo` (Go) at the pinned commit, read as text. Model and proofs: Lean 4.33.0
under `/verif/lean/Verif/`. Nothing of `/repo` is executed.

* `properties.jsonl`: the properties in words. `MANIFEST.json`: the theorems for each.
* `lean/Verif/Model/`: the code, function by function, each definition with the lines it models.
* `lean/Verif/Spec/`: the small vocabulary in which the theorems are stated, independent of the code.
* `lean/Verif/Props/`: the theorems `Cnn_...`, each with a concrete case beside it that meets its hypotheses.
* `lean/Verif/Proofs/`: lemmas. Nothing there needs to be read to understand what is proved.
* `lean/Verif/Tests.lean`, `TestsCsv.lean`: the vectors of the repository's own `*_test.go` and the packages of `test/egts_packages.csv`, checked against the model by the kernel.
* `seeded/LOG.jsonl`: wrong programs tried against the theorems.
* `AXIOMS.txt`: the axioms of each theorem in the manifest (`tools/axioms.sh`).

## Trusted base

* Lean's kernel.
* Axioms: only `propext`, `Classical.choice`, `Quot.sound`; which theorem depends on which is in
  `AXIOMS.txt`. No own axioms, no `sorry`, no `native_decide`, no `bv_decide`.
* The hand translation from Go to Lean in `Verif/Model/*`, and the meaning given there to the Go library
  (`Model/Go.lean`, `Model/F64.lean`, the JSON encoder in `Model/Json.lean` and `Model/Marshal.lean`, yaml.v2 in `Model/Main.lean`).
  `Verif/Tests.lean` checks the translation on every vector of the repository's tests.
* The specification files `Verif/Spec/*` and the statements in `Verif/Props/*`, which are what a reader must agree with.

## What is modelled

| code | model |
|---|---|
| `libs/egts/crc.go` | `Model/Crc.lean` (loops) |
| the 15 subrecord kinds `egts_sr_*.go`, `egts_pt_response.go` | `Model/Sub.lean`, `Model/Record.lean` |
| `egts_sr_egtsplus_data.go` (generated) and the protobuf libraries behind it | `Model/Proto.lean`, `Model/Reason.lean` (names of reasons) |
| `record_data.go`, `service_data_records.go` | `Model/Record.lean` |
| `egts_pkg.go`, `const_types.go`, `errors.go` | `Model/Package.lean` |
| `Package.ToBytes` (encoding/json of all the structures) | `Model/PkgJson.lean`, `Model/Marshal.lean`, `Model/Utf8.lean` |
| `cli/receiver/server/server.go`: `handleConn` and its helpers | `Model/Server.lean` (a packet), `Model/Stream.lean` (a byte stream, segments), `Model/Timed.lean` (with arrival times and deadlines), `Model/System.lean` (many connections, interleaved, shared storages), `Model/Fine.lean` (the same with every call of a storage as a step of its own), `Model/Slow.lean` (the same with writes that wait for room) |
| `server.go`: `Run`, `Stop`, the accept loop | `Model/Run.lean` |
| `cli/receiver/storage/store.go` | `Model/Storage.lean` |
| `cli/receiver/storage/packet.go` (`ToBytes`, encoding/json) | `Model/Json.lean` |
| `cli/receiver/storage/store/*/connector.go` (six storages) | `Model/Connectors.lean`; the client libraries are an arbitrary function from calls to answers; how `lib/pq`, `streadway/amqp` and `net/url` read connection strings is specified in `Spec/Dsn.lean` (ASCII; no IPv6 brackets or escapes in hosts) |
| `cli/receiver/storage/default.go`, `config/config.go`, `main.go` | `Model/Main.lean` |
| the text of configuration files (yaml.v2), for files written like those in `configs/` | `Model/YamlText.lean` |
| `cli/packet-gen/main.go` | `Model/Gen.lean` |
| `cli/receiver/main.go`: the process as a whole | `Model/Program.lean` (accept loop and handlers in one history) |
| `Dockerfile` and the ways to start the container in `README.md` | `Model/Container.lean` |
| `tools/send_egts.py` | `Model/SendEgts.lean` (without its command line and the errors of sockets) |
| the command lines of both programs (package `flag` of Go 1.18, `strconv.ParseInt` with base 0) | `Model/Cli.lean`; `Model/Parse.lean` has `strconv.ParseFloat` for decimal numbers (what it makes of hexadecimal numbers and underscores is an arbitrary function; `inf` and `nan` are in `Model/Double.lean`) and `time.Parse` with the layout of RFC 3339 |

Not modelled: texts of errors and of log entries other than saved records; the client libraries and servers behind the
storages; the parser of yaml.v2 up to the resolved document, except for simple files (`Model/YamlText.lean`), with anchors and merge keys; the TCP stack
(streams, segments and their arrival are arbitrary); `Close` of the storages (never called by the receiver).

## How Go is modelled

* `[]byte` and `string` are `List UInt8`; `byte/uint16/uint32` are Lean's `UInt8/16/32` with
  wrap-around; `int8` is kept as its byte. The one place where a slice expression may exceed the
  length up to the *capacity* (`Package.Decode`) uses `Slice` = visible bytes + spare bytes of
  the backing array, the latter universally quantified.
* `bytes.Reader.Read` / `bytes.Buffer.Read`: a short read is *not* an error and leaves the tail
  of the destination buffer as it was; EOF only when nothing is left. Reused buffers
  (`tmpBuf`, `tmpIntBuf`) are therefore threaded through the model.
* `strconv.ParseUint(s,2,8)`, `strconv.Atoi` and `fmt.Sprintf("%08b")` are modelled exactly.
* `float64` is an exact rational together with round-to-nearest-even to 53 bits after every
  operation. NaN, infinities, -0, subnormals and overflow are in `Model/Double.lean` only: that the calculations with
  finite coordinates are the same there is C112; that saved coordinates lie in the range is C67. `uint32(f)` outside [0,2^32) is implementation specific in Go: it is an
  arbitrary function of the environment.
* `encoding/json`: byte by byte, including the shortest decimal representation of a float64 (defined as the shortest
  that rounds back, closest to the value). For `Package.ToBytes` also the escapes of strings, the replacement of bytes that
  are not UTF-8, base64, RFC 3339 and float32. Simplification: the set of records of a package is never a nil slice.
* `time.Time` is the integer number of nanoseconds since the Unix epoch (no location, no monotonic part).
* `error` is a small enumeration. A Go panic is an explicit outcome.
* `SecretKey` is a pair of arbitrary functions.
* Subrecord decoders take the prior receiver as an argument (absent optional fields keep it).
  What a failed `Decode` of records, subrecords or a response leaves in its receiver is `X.kept` (C89);
  for the decoders of single subrecords only the error is modelled (their receiver is then unreachable
  for the caller of the package, as it was not yet appended anywhere);
  `Package.Decode`, whose partially filled receiver is used by the server, is modelled exactly
  in every header field on every error path.
* Interfaces: `SubrecordData` holds nil or one of the 15 subrecord kinds, `SFRD` nil, a
  `ServiceDataSet` or a `PtResponse`, `PtResponse.SDR` nil or a `ServiceDataSet`. Putting other
  objects there (typed nils, a package inside itself) is not modelled.
* Mutual recursion (record-response subrecords decode the rest of their bytes as records) is
  modelled with fuel; it is proved that the fuel used is always enough (C20).
* Server: a connection handler is a function from the received byte stream (or list of TCP
  segments) and how it ends, to the list of its observable effects (save, write, wait, close,
  crash). Several connections: interleaving of their effects in any order, with one shared world of storages. Time: timed
  arrival sequence.
* The order of `range` over a map is an arbitrary function (`order`).
* Protobuf (`StorageRecord`, SR_EGTS_PLUS_DATA): the libraries golang/protobuf v1.5.2 and protobuf-go v1.26.0 (which `go.mod` asks
  for; they are not in /repo) are modelled by their documented behaviour: wire format, coders of the kinds of fields that
  occur, required fields, unknown fields. Not modelled: nil and empty slices are not distinguished, nil elements of the
  repeated fields, memory and depth limits.
* `Close` of the storages (`Model/Close.lean`): that methods of nil pointers of database/sql, go-redis and go-tarantool panic and that of
  nats.go v1.28.0 does not, and that a client library returns a pointer whenever it returns no error, is taken from memory of these libraries.
* Names of reasons (`Model/Reason.lean`): `proto.EnumName` and `proto.UnmarshalJSONEnum` of golang/protobuf v1.5.2 and `json.Unmarshal` into
  a string and an `int32` are modelled from memory of their source, which is not in the sandbox. The texts of errors are left out.

## Properties: what is modelled and how it is proved

`proved`: the whole statement. `false`: the code violates the statement; the negation is proved with a concrete witness
(`Cnn_false...`) and the strongest true part with suffix `_partial`; usually an exact characterisation is proved as well.

| id | result | model | proof |
|---|---|---|---|
| C01, C02 | proved | `crc16`, `crc8` loops | the register is the remainder of polynomial long division; the specification is the existence of a quotient over GF(2) |
| C03, C04 | false | `Package.decode` and the checksums | checksums are affine over GF(2), the step is injective, the polynomials are divisible by x+1 (odd weights), bursts up to the degree; the header length is never checked, which falsifies the claim for frames that declare a wrong one |
| C05 | false | `Package.decode` | a cut frame is accepted iff only its last byte is missing and that byte was zero; exact code for every prefix |
| C06, C07, C08 | false / partial | encode and decode of all layers | composition of the round trips of the layers, exact for every well-formed package; fails where HL+FDL overflows 16 bits and for the subrecords of C28, C29, C32 |
| C09, C10 | proved | `Package.encode` | computation |
| C11 | false | slices with capacity | exact characterisation of the panics |
| C12 | proved | `Package.decode` | case analysis of the stages, independent description of the stages |
| C13 | false | receiver as an argument | routing fields are stale when RTE=0; nothing else is |
| C14, C15 | false | encode/decode | witness, exact behaviour for all lengths |
| C16, C17, C18 | false, exact / proved | loops | induction on the list of records |
| C19 | proved | `rdsDecode` | induction |
| C20, C21 | proved | fuelled loops | measure: length without trailing zeros; the recursion as it is written, without fuel, has exactly one solution, the decoders of the model (`C20_terminates`) |
| C22 | false | decode, then encode | frames of the library are reproduced (all kinds); exactly which complete frames of others are, encrypted or not (`Spec/Kept.lean`); witnesses: unknown subrecord, coordinate |
| C23 | false | inference | two kinds missing |
| C24 - C27, C30, C31 | proved | per subrecord | computation, bit lemmas over all 2^8 flags |
| C28, C29 | false | per subrecord | witness, what is read back for all flags and values, exact condition |
| C32 | false for one form of direction | position data | arithmetic; witness and exact condition |
| C33, C34 | proved | float model | rounding error analysis, for all 2^32 values |
| C35, C36 | false | position data | witness, exact value read |
| C37 | proved | `Length` | computation |
| C38 | false | ParseUint | terminal identity ignores the error; all others proved |
| C39 | false | per subrecord | how much truncation is rejected, per kind; exactly which beginnings of an encoded subrecord are accepted: those with at least one byte of the last field; EGTS+ data, those cut between two fields after the status flags (`C39_exact`, by C81 and the flags of the encoded record) |
| C40 | partial | per subrecord | computation; counter 2 excepted |
| C41, C42, C43, C60 | proved | connection loop | induction on the stream |
| C44, C45, C46 | proved | handler | with C07, C21 |
| C47 | false | handler | only the last position of a record is saved; nothing after a record response |
| C48, C49 | proved | handler | folds over subrecords and history |
| C50, C51, C52 | false | handler | witness for all ids |
| C53, C54 | proved | Repository | induction, permutations |
| C55 | proved | interleavings | trace projection invariant |
| C56 | false | handler, panic | exact set of streams that crash the process |
| C57, C58 | false | timed handler, accept loop | witness and what remains true |
| C59 | false | packet-gen composed with the receiver | end to end, except the time and the exit code |
| C61 | proved | position data | every byte string of any length |
| C62 | proved | all writes of a connection | invariant over the stream |
| C63 | proved | packet-gen | case analysis of the network's answers |
| C64 | false in three kinds | layouts of the subrecords | tables of the standard as lists of fields; encoder and decoder against them |
| C65 | proved | layouts of subrecords, records, responses | as above, arbitrary following bytes |
| C66 | proved | JSON text | independent reader; shortest decimal representations round back |
| C67 | proved | all bytes received | invariant over the connection |
| C68 | false | handler | LAHS/LOHS are dropped |
| C69 | proved | connectors, system | induction on the history of effects |
| C70 | false for Redis | connectors | exact condition for the six storages |
| C71 | false at WARN, ERROR | main, log storage | induction on the history |
| C72 | false for huge TTLs | configuration | induction on the document |
| C73 | false for settings that need quotes | connectors, readers of connection strings | reading back a string built by concatenation; one lemma for each library |
| C74 | proved | main, loading, system | composition of C54, C55, C69 |
| C75 | proved | protobuf messages | by C76: encoder and parser against the same format |
| C76 | proved | protobuf messages | the parser computes the meaning of the sequence of fields, by induction on its end; groups by induction on their structure; the description by evaluation of the whole table |
| C77 | false | slices with capacity | the reads that reach behind the slice are the two checksums; equality stage by stage |
| C78 | proved | `Package.decode` by positions | all positions used are inside the frame |
| C79 | false for nil content | encode with panics | induction on records; decoded subrecords are not nil, by induction on the loops |
| C80 | false for strings that are not UTF-8, NaN | JSON text of packages; escapes, base64, RFC 3339, float32 | the text of a tree of Go values is read as its value, by induction; field by field for each structure |
| C81 | yes | a layout given by positions, independent of the readers (Spec/Layout) | decoders equal the layout, field by field; records and subrecords by induction on the bytes; uniqueness from determinism |
| C82 | yes | the packets sent, the records due for them, the answers (Spec/EndToEnd) | composition of C06, C42, C44, C48, C49, C55, C66 and C69: what matters to the receiver in a record is shown to survive encoding and decoding |
| C83 | false | decode, encode, decode | what decoding yields is well-formed (from the layout of C81), then C06; witness: a record that lost an unknown subrecord keeps its length, the frame is rejected |
| C84 | false | `Parse` of package flag, `ParseInt` | command lines, numbers and times (RFC 3339) specified by small grammars, equivalence by induction; that the float model rounds to a nearest `float64` is proved; witnesses: a zero in front means octal, times that are not RFC 3339 are accepted |
| C85 | provable | the same with one option | instance of the same induction |
| C86 | false | the script as a list of actions; the receiver of C82 | induction over the lines; what has been written grows with every packet (C42, C82); witness: a last line without an end |
| C87 | proved | `Model/Program.lean`: the command line (C85), the configuration (C72), the storages (C70), the accept loop (C58) and the connections (C55) as one process | a history of the process projects to one of the accept loop and one of the connections; then C82 and C88. The connections are those of `Model/Fine.lean`, so calls of storages interleave |
| C88 | proved | `Model/Fine.lean`: `Repository.Save` as a loop whose every call of a storage is a step of its own, between which other goroutines may do anything | with the storages left out, and a save counted when it ends, a history is one of `Model/System.lean` (simulation, with stuttering); the list of offers by an invariant. The histories of C55 are among these (C88_contains_atomic). C55, C69, C71 and C74 are stated for saves in one step: their order of all calls is that of the log, which C88 shows to hold per connection and per storage |
| C89 | proved | `X.kept` in `Model/Record.lean`: the loops of `Decode` that return, with or without error, what has been appended; `Package.decode` holds it after an error | induction on the loop: the part decoded so far decodes alone to what was appended (a step reads no further than its own record, `sdrStep_cut`), and the step that failed gives the error for the rest alone; for a complete record in front, by C65's step |
| C90 | false | the checksums of C01, C02 and the frame of C11 | parity excludes one and three bits; two bits differ by x^i(x^k+1), and x has order 32767 modulo the polynomial of the body checksum, 127 modulo that of the header checksum (the register is stepped 32766 times by the kernel and never comes back to 1) |
| C91 | false | `handleConn`, `createPtResponse`, `createSrResultCode` | the number of each written packet read at its place in the frame, list of frames by induction; witness: every login gets two packets with one number |
| C92 | proved | the whole process: `main`, `Run`, `handleConn`, `Repository.Save` step by step, the connectors | every save of a connection comes from an accepted frame (induction over the stream); the offers of a connection to one storage are a sublist of what it has to save (C88); starting delivers nothing (induction over the configured storages); names of storages are distinct |
| C93 | proved | the whole process, as for C92 | what a goroutine has done is a prefix of what its connection calls for (C88), in which the saves for a frame come before its acknowledgement; a save that is done has been offered to all storages; no assumption that the process is still alive |
| C94 | proved | the whole process, as for C92; infinite histories as functions from the natural numbers to events; fairness (weak) of the scheduler to one goroutine is a hypothesis, as is that the process goes on (it ends only by a crash, C56) | a count of the steps by invariant over all histories; a bounded number of steps and fairness make the goroutine idle, and then C87 applies; what has been done stays done |
| C95 | false | `Model/Alloc.lean`: the buffers of `make([]byte, sdr.RecordLength)`, counted along the three decoders that call each other, all together or those in use at a time; no other memory is counted (the rest is of constant size, a part of the input, or the result), nor is the Go heap or garbage collector modelled | upper bounds by induction along the decoders, over the length of the input without trailing zeros; the witness is a family of accepted packets, by induction over the depth: 13 bytes more need a buffer of 65533 bytes more at the same time (330 MB for one packet of 64 KB). Without record responses the bound holds |
| C96 | false | `Model/Slow.lean`: `conn.Write` hands bytes over while the operating system has room for them, otherwise waits; clients make room by reading; connections may fail, after which `Write` returns. Partial writes are steps of their own. TCP itself (timeouts, retransmission) is not modelled beyond that | a history projects to one of C88 (an invariant says what of the current packet has been handed over); liveness of the others by lifting a history of C88. The witness are room + 1 positions with nothing read |
| C97 | proved | nothing new of the code: sessions of a device with receivers (`Spec/Device.lean`), which are the processes of C87; the device reads answers with the library's own decoder | C93 for the packet that the acknowledgement found belongs to. Which one that is: the frames in what was read are the first of those written (there is one way to cut a stream), authorization results are refused by the decoder (C51), responses carry the number |
| C98 | proved | `Model/YamlText.lean`: a reader of the subset of YAML that the shipped files are written in. The theorems hold of any reader that agrees with the description of the subset in `Spec/YamlText.lean` (an inductive definition of what lines say) | the reader accepts exactly the texts described; nesting by cutting the lines into pieces that say one entry each. The shipped files are given line by line and evaluated |
| C99 | false | nothing new of the code (`Spec/Resend.lean`: records without the time of receipt, packets that say themselves whose positions they carry) | C49 for what is saved; it depends on the earlier packets through the last identifier only, which is overridden, and on the time in one field |
| C100 | false | nothing new of the code (`Spec/Resend.lean`: packets that differ in authorization data only) | the loops of the model with blanked authorization data; what is saved (C49) is made by selecting other subrecords. The packets of `C100_false` are those of packet-gen |
| C101 | false | `Model/Container.lean`: the files of the image, a volume in place of a directory, the entry point of the `Dockerfile`; no links, permissions or networks, but that a listener on one address is not reached at another | C98 for the text of the configuration file; the rest is which path is below which directory |
| C102 | false | `Model/Concurrent.lean`: `Encode` as a machine whose reads and writes of the two fields it assigns are steps of their own (`+= 5` is two), any number of them on one package. Memory is sequentially consistent (Go promises less for such races; what is shown to go wrong needs no more); a secret key is a function, so it must itself be safe to share. The receiver is not concerned: its packages belong to one goroutine | invariants over all schedules; a machine alone gives `Package.encode` of the other models; the witnesses are three schedules |
| C103 | false | nothing new of the code (`Spec/Ignored.lean`: packets with the same data, and a packet with another header) | C12 for a frame with an intact header depends on number, type, encryption and what follows the header only; the receiver depends on the result and on those |
| C104 | false | nothing new of the code | C45 and a connection without the packet, whose surroundings are those of the other packets; C90 for noise; C43 for a packet that claims to be longer than all that has come |
| C105 | false | nothing new of the code; `Fits` (each value is one its place can hold), `Kept` (the values read are those put in), `FlagsOK` | what any decoder returns fits, by going through the decoders; hence what does not fit is not returned; C24-C35 for the converse |
| C106 | false of positions | nothing new of the code; `secondOf`, `nanosOf`, `startOf` | rounding to a double does not cross an integer below 2^53 and reaches it from nearer than half the spacing of the doubles |
| C107 | false; the later Decode true of all kinds but four | all subrecord decoders once more, statement by statement, as programs that change the receiver (`Model/After.lean`) | they give the results of the first model, field by field; altitude and server sequence are assigned last |
| C108 | true of Decode and of Encode in range; false outside | `uint32(f)` is an arbitrary function where `f` does not fit (`Env`) | encoding depends on it only through the three conversions of a position; two of its implementations compared |
| C109 | true | `encoding/json` (`Model/Json.lean`, `Model/Marshal.lean`) | every piece of a text consists of harmless characters; nesting of brackets tracked along the text |
| C110 | false | `handleConn`, `bytesWritten` (all that is handed to `conn.Write`; the headers of TCP and IP are not counted) | a record takes seven bytes, with a login nine, from the layout (C81); the length of the answers (C62) |
| C111 | false | `Encode` of packages, records and subrecords; `SubData.Told` (what the bytes tell: `Same`, but for the eighth bit of a direction whose ninth is set) | what both are read as is the same (C06, C16, C17); for sensors and counters the bytes are compared field by field |
| C112 | false | `Model/Double.lean`: all values of float64, multiplication and division of IEEE 754, conversion to uint32, `special` of strconv | rounding is that of `Model/F64.lean` between 2^(-53) and the overflow; below, both give zero units; above, both overflow at the same number. Every 32-bit number is what some place is sent as |
| C113 | false | `Spec/Passed.lean`: `Passed` (a chain of decoding and encoding), `Moved` (what arrives) | relays are the library alone: `Decode` into an empty package, then `Encode`; packages in the clear, without the subrecords of C28, C29, C32. The run of 1433 numbers is computed in the kernel |
| C114 | false for reasons without a name | `Model/Reason.lean`: both tables, `EnumName`, `UnmarshalJSONEnum` of protobuf v1.5.2; `Spec/Reason.lean`: the published table | the tables are compared entry by entry; decimal texts by the JSON reader of C80 |
| C115 | false of identifiers | `handleConn`; `Effect.anonymous` (an effect without identifier and time) | the loops over records and subrecords run in step on states that differ in identifier and time only; streams by C42 |
| C116 | false for RabbitMQ and after a failed `Init` | `Model/Close.lean`: the pointers that `Init` leaves and `Close` of the six connectors | by cases on the storage and the results of the libraries |
| C117 | true of unknown types, false of accelerometer data | — (nothing new) | the theorems on sequences of subrecords and records of any content (C18, C19, C65), by induction on the records |

## Disagreements between the code and what a user would expect

Each is proved by a theorem `Cnn_false...` or a characterisation named in `MANIFEST.json`.

* `Package.Decode` panics on frames whose declared lengths are wrong (C11), and on its own output for bodies near 64 KiB
  (C06); the receiver does not recover, so one such frame ends the process (C56). If the declared header is longer than
  the frame, memory behind the slice goes into the checksums (C77). `Encode` panics on a typed subrecord without content (C79).
* The header length is not checked, so some corrupted frames are accepted (C03, C04). A frame without its last byte is
  accepted if that byte was zero (C05). A wrong body checksum is reported as 137, not 138 (C12).
* Bodies of 65536 bytes or more are written with a wrong length (C15). Packages without a body are refused (C14). Routing
  fields of a reused `Package` are stale (C13).
* Counter 2 is decoded into counter 1 (C29). The presence flags of analog sensors are written mirrored (C28). Liquid level
  sensor numbers of 8 and more corrupt the flags (C26). Terminal identity ignores a malformed flag string (C38). Truncated
  subrecords are accepted (C39). Type inference lacks module data and dispatcher identity (C23).
* Altitude is read as four bytes (C36). The ninth bit of the course is or-ed into the eighth (C32, C35). Coordinates drift by a unit
  when encoded again (C33). Fractions of the speed are dropped (C32). The receiver drops the hemisphere: south is saved as north (C68).
* Only the last position of a record is saved, and nothing after a record response (C47). The record number made from the
  counters 110 and 111 is wrong (C50). The result of an authentication is not a packet that can be decoded (C51), and it has the
  same number as the acknowledgement before it (C91).
* A packet of 64 KB can make `Decode` hold 330 MB of buffers, because record responses are decoded as if records followed, to any depth,
  and because every record gets a buffer of its declared length (C95).
* The volume that the README mounts for a custom configuration is not where the image looks (`egts-receviver`); with docker-compose and the
  repository's `configs` the receiver does not start; the shipped configuration cannot be reached from outside a container (C101).
* The shipped configuration sets no TTL, its key `con_live_sec` is not one of the receiver's; if one of its servers does not answer, the order of
  a Go map decides which of the others are used (C98).
* Nothing is checked about logins: any identifier can be used without one, and every one is answered with success (C100). A packet that is
  sent again is stored again; without an identifier in it, on a new connection, under 0 (C99).
* Records are acknowledged even if they could not be stored (C52). Connections that send nothing are never closed (C57).
  A client that does not read its answers stops its own connection for ever, with positions unread (C96).
  `Run` does not end after `Stop` and spins (C58).
* packet-gen ignores `-time`, exits with 1 on success, fails with its default timeout, and panics on an acknowledgement
  without records (C59). A zero in front of a number on its command line means octal: `-pid 010` is 8, `-pid 09` is refused (C84); times that are not RFC 3339 are accepted, such as `2021-12-16T9:12:00,5+99:-9` (C84). Negative
  coordinates are never saved as given (C59).
* Two wrong bits in a frame with routing fields can go unnoticed: the first of the frame and the last of the header; so can two wrong bits in a body of 4094 bytes or more (C90).
* `tools/send_egts.py` does not send the last packet of a file whose last line is not ended (C86).
* A decoded package keeps the lengths declared in its frame. If a subrecord of unknown type was left out, the package, encoded again,
  declares too much, and the next decoder takes bytes of the following record or rejects the frame (C22, C83).
* The JSON text of a package does not determine it: bytes that are not UTF-8 (the protocol's strings are CP1251) become
  U+FFFD. There is no text if a fuel level of EGTS+ data is not a number (C80).
* `Encode` assigns fields of its package (the header length in two steps). Called by two goroutines at once for one routed package, it can
  give a frame that `Decode` refuses, and leave the package so that it does for ever (C102).
* Of the header, versions, compression, header encoding, prefix, addresses and time to live are ignored: a compressed packet is decoded as if it
  were not, a packet for another peer is stored and confirmed, and the answer has no routing fields (C103).
* The lengths in a header are used before its checksum is looked at: one wrong bit in them and the receiver takes the next 32 KB for the rest of
  the packet. After a damaged login, positions are stored under 0 and confirmed (C104).
* Encode accepts values that their place in the packet cannot hold and sends others instead: 1700 km/h as 61 km/h below sea level, negative
  latitudes, times before 2010, counters above 2^24, texts of the wrong length (C105).
* The time of a position in the last nanoseconds of a second is sent as the next second, because the number of seconds is rounded to a
  double before it is cut off; the time of a record is not (C106).
* A failed `Decode` of a subrecord leaves its receiver half overwritten, e.g. with the new latitude and the old longitude (C107).
* A latitude, longitude or time out of range, such as a southern latitude given as a negative number, is sent without an error as a value that depends on the processor (C108).
* Settings are put into connection strings as they are: PostgreSQL with an empty password is contacted with the password
  `sslmode=disable`, RabbitMQ with the password `%41bc` with the password `Abc` (C73).
* Redis without `db` does not start; an unreachable Redis is not noticed (C70). Without storages and at log level WARN or
  ERROR every record is discarded and acknowledged (C71). The shipped configuration files set `con_live_sec`, which is ignored;
  large values of `conn_ttl` overflow (C72).
* Not a theorem: `egts_sr_auth_info_test.go` gives a number for a `time.Time` field, so the tests of `libs/egts` do not compile.

## Wrong programs

`seeded/LOG.jsonl` lists the edits tried on a copy of the model, the claims they break and the theorems that failed. Where
an edit survived, or failed only in an example, the theorem named under `theorems_tightened` was added or strengthened, and
the edit tried again.
