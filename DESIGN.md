# Formal model of m-lab/tcp-info in Lean 4

Source: `/repo` (Go), read as text, never built or run. Project: `/verif/lean`.

## 1. Layout

| Directory | Content |
|---|---|
| `Verif/Model/*.lean` | executable model, one definition per Go function, each citing file and lines |
| `Verif/Spec/*.lean`  | independent specifications (wire formats, abstract cache, event grammar, ...) that do not use the model's helpers |
| `Verif/Lemmas/*.lean`| helper lemmas and invariants |
| `Verif/Props/*.lean` | the property theorems, named `Cnn_...`, each followed by `example`s showing its hypotheses are met by a concrete non-trivial case |

`properties.jsonl` is generated by `tools/mkprops.py`. `MANIFEST.json` maps properties to theorems.
`seeded/LOG.jsonl` logs the wrong-program experiments. Entries `autoNNN` are edits chosen at random by
a program; their `failed` names the first lemma or theorem that failed, which may be a helper lemma. Not every
property has been tested in this way to the same extent: the edits prepared for C117, C118, C119 and C120, and part of
those for C45, C47, C56, C65, C83, C94, C107, C115 and C116, were not run for lack of time, and none was written for C121 or for
`C34_busy_partial`, `C35_busy_partial`, `C53_exact`, `C91_exact` and `C95_exact`.

Naming: `Cnn_xxx` full theorem; `Cnn_xxx_partial` theorem covering part of the property, the missing
part being stated in its doc comment; `Cnn_xxx_violated` a machine-checked counterexample: the
property as a user would read it is false of the code.

## 2. Modelling conventions

* Bytes are `UInt8`, `[]byte` values are `List UInt8`. Where Go's *capacity* or *nil-ness* is observable
  it is explicit: `Option` for nil, and `GoSlice` (`val` + `spare` bytes up to the capacity) for attribute
  values, because `Compare` re-slices them (`netlink/archival-record.go:260-270`).
* Machine integers that can wrap are `UInt16/32/64` or `Int64`; indices and lengths are `Nat`.
* A Go panic is an explicit outcome (`Res.panic`), a Go error an explicit value (`Res.err`).
* Go maps are association lists behind `get/set/del`; map iteration order is an arbitrary permutation
  supplied by the schedule, so that theorems hold for every order.
* Time is `Int` nanoseconds. The n-th `time.Now()` call reads an arbitrary clock function (the monotonic reading), constrained to be
  monotone only where a theorem says so; the wall clock at that moment is an arbitrary function of it. Go compares and adds times by their
  monotonic readings, and formats them by the wall clock.
* File creation may fail: an arbitrary oracle decides for each creation.
* Goroutines and channels are labelled transition systems: a theorem about "every schedule" quantifies over every
  finite sequence of enabled steps.
* External functions kept as parameters: `uuid.FromCookie` (any injective function), the anonymizer (`m-lab/go/anonymize`, any length-preserving
  function), `t.Format("2006/01/02")` (any function), the local time zone (any offset of whole minutes of less than a day,
  per instant).
* stdlib functions with a small hand-written model (`Model/NetIP`, `IPText`, `Text`, `Json`, `Archive`, `Strings`): `net.IP` predicates, `IP.String`,
  `ParseIP`, `strconv.ParseInt`, `encoding/binary` struct layout, `encoding/base64`, `time` in RFC 3339 format, the part of `encoding/json` that
  is used (encoder with escaping, for valid Unicode strings only; decoder for any JSON text, with case-insensitive keys, unknown members, null, but without
  its limit of 10000 on nesting), UTF-8, `bufio.Scanner` with `ScanLines`
  and its 64 KiB limit, `io.ReadFull`.
* Operating system behaviour that is assumed: pipes, processes and files of `zstd.NewWriter` and `zstd.NewReader` (`Model/Zstd`, `Model/ZstdReader`: the parent's and
  the child's descriptors; the child exits successfully only at end of file, when everything it read is in the output, and may crash at any time; finalizers that close
  descriptors on garbage collection are not modelled); stream sockets (`Model/EventSocket`: once a write to a connection failed all later ones fail, a failed
  write may deliver a strict prefix, a write to a stalled client does not return).

## 3. Properties: what is modelled and how it is proved

| Id | Model | Proof |
|---|---|---|
| C01 | `splitInetDiagMsg`, `parseIDM` | list algebra |
| C02 | field offsets of `InetDiagMsg` | round trip against an independent layout in `Spec` |
| C03 | `getSockID`, `cookieUint64` | Int64/UInt64 conversion, injectivity |
| C04 | `ip`, `isLocal`, net.IP predicates | equivalence for AF_INET; counterexample + partial for AF_INET6 (family guessed from zero bytes) |
| C05 | `anonymize` | byte-wise frame theorem |
| C06 | `makeReq` | bit-level equivalence for every state/extension |
| C07-C09 | `parseRouteAttr` | encoder in `Spec`; round trip by induction; soundness; panic characterisation (counterexample + multiple-of-4 theorem) |
| C10 | `makeArchivalRecord` | induction over the attribute list |
| C11-C13 | `makeArchivalRecord`, `addSrcPort`, `addDstIP` with `net.ParseIP` | equivalence with a decision spec; accepted texts = an independent grammar (`Spec.AddrText`), both directions; counterexamples + partials |
| C14-C17 | `compare` | equivalence with field-wise relation; counterexample for counters past the compared window; panic characterisation with capacities |
| C18, C19 | `hasDiagInfo`, `getStats` | counterexample + partial; offset spec |
| C20, C21 | `loadRaw` on byte streams | induction on messages; cut-point theorem; counterexample |
| C22-C24 | JSON text encoder and decoder, base64, line scanner | round trip by induction; prefix theorem; counterexample for long lines |
| C25-C28 | `decode`, `loadAll` | bit-level spec; zero extension; panic characterisation |
| C29-C31 | `Cache` | refinement of a history-indexed abstract cache, invariant over all call sequences |
| C32-C37, C43, C44, C48-C50 | `Saver` as a state machine over message blocks emitting a trace of actions (events, file opens, tasks) | invariants by induction over arbitrary block sequences |
| C38-C42 | saver trace executed by N marshaller goroutines over bounded channels (LTS) | schedule invariants, confluence, progress measure |
| C45-C47 | accounting part of the saver loop | invariants, counterexamples; the exported total for all histories (`C45_exact`, `C47_observed_iff`), read off successive pairs of polls, by induction over polls |
| C51-C53 | event server LTS | invariants over schedules, counterexample |
| C54 | client loop, JSON of events | round trip, induction over lines, composition with C51 |
| C55-C57 | collector | induction, counterexample |
| C58, C59 | zstd writer as fd/process state machine | invariant over schedules, counterexample |
| C61 | event server LTS with stalled clients | invariant over schedules (counterexample), progress theorem |
| C60 | `State.String`, `TCPEvent.String`, `MarshalCSV` | injectivity |
| C62 | saver trace, marshallers' schedules, JSON text, line scanner composed | composition of C37-C39 with C22 |
| C63 | `ipOf`, `IP.String`, `ParseIP` | round trip of text; counterexample for IPv6 addresses ending in 12 zero bytes |
| C64 | client loop over a cut stream | characterisation of the outcome for every cut; counterexample |
| C65 | saver state after each block | invariant by induction over blocks; counterexamples that persist for ever |
| C66 | saver trace -> event server LTS -> client, composed | composition of C33, C51, C54, C63; `C66_exact` is the invariant for runs in which files cannot be created |
| C67 | configuration made by `main.go` from the flags | induction over the flags, composition with C11-C13 and C49; counterexamples |
| C68 | the saver's sequence of atomic increments, loads at any four points of it | counting argument over prefixes; counterexample |
| C69 | variables of `Run` | fold over the polls; counterexamples |
| C70, C71 | zstd reader as pipe/process state machine | invariant over schedules, measure; counterexample |
| C72 | handler and processing goroutine of the example client (LTS) | invariant over schedules |
| C73-C75 | main goroutine, channel of capacity 2, saver goroutine taking block after block, marshallers (LTS `Model.Process`) | simulation of the marshaller LTS of C38-C42, progress measure; composition with C58, C62, C70 |
| C76-C79 | csvtool: columns with their tags and types, gocsv's and encoding/csv's writers, on top of the snapshot model | an RFC 4180 reader (`Spec.readCsv`) reads back what the writer wrote (induction); cells from C26, C02, C60, C63 |
| C80 | C74's whole process, decompressor, archive reader, snapshots, csvtool | composition of C74, C27, C28, C76 |
| C81-C85 | the increments and observations each function makes (`Model/Metrics.lean`), beside the models of these functions | induction over blocks, scripts and attributes; counterexamples |
| C86 | C32's specification of what is saved, then C74's whole process | induction over cycles (agreement is transitive), composition with C74; counterexample for the counters behind `tcpi_busy_time` |
| C87 | addresses, buffers, slices and byte stores (`Model/Memory.lean`) | where each slice lies, invariant over steps; gives the assumptions `ViewOK` and `KeepsRoom` about re-reading that C32, C33, C40, C45-C48, C65, C66 and C86 make |
| C88 | Go's `ParseNetlinkMessage` on a slice of memory | round trip and decomposition by induction |
| C89 | product of the process LTS and the event server LTS (emission is a joint step) | projections onto both, invariant: shutdown only after the last event |
| C90 | the same | order invariant of the server when main has returned; counterexample schedule |
| C91 | the same, with stalled clients | decreasing measure plus draining; invariant over all continuations of a stalled state (counterexample) |
| C92 | `FileName.path`, `datePath` (`Model/Path.lean`) on the saver model | invariant over runs; calendar: `civil` against day-by-day counting (`Spec/Path.lean`) |
| C93 | `CsvRun` (`Model/CsvMain.lean`) on `csvtool` and the state machine of the zstd reader | what the scanner and `LoadAll` return once they have stopped does not depend on the rest |
| C94 | `Model/Ticker.lean`: `Run`, ticker and context with a clock | invariants over executions, also relative to an arbitrary state |
| C95 | `Model/SocketFile.lean`: file name, any number of servers | induction over histories; overlapping servers (counterexample) |
| C96 | `Model/ExampleMain.lean`: `main`, `MustRun`, `ProcessOpenEvents` | invariant over executions (counterexample in general); remaining calls as measure |
| C97 | `Model/SetBytes.lean` | store against the struct layout of the kernel (`fieldOf`) |
| C98 | `Model/Startup.lean`: `main` up to the first poll, with file names resolved | case analysis; composition with C92; counterexample for relative socket names |
| C99 | `Model/Histogram.lean`: buckets, `Observe`, scrape, with the sum as a rounded 53-bit number | induction over observations; composition with C46 and C83; counterexample past 2^56 bits |
| C100 | `Model/Disk.lean`: the command composed with the state machine of each zstd writer | invariant: every writer is in a state reachable by the calls made on it so far; composition with C39, C58, C74 |
| C101 | the same | number of steps bounded by those of C73 and C58; a goroutine that cannot move is in a call that can (C58), else C73 |
| C102 | the same | what is left when nothing but the hanging call can move; invariant over all continuations of a hanging `Close`; counterexample with 120 connections |
| C103 | `Model/Killed.lean`: the writers of `Model/Disk.lean` after the kernel has closed the descriptors of the command; compressors go on | invariant: calls the command has behind it have returned, so their data is in the pipe or read; after the kill read ++ pipe is constant; loader theorems for cut files; counterexample: compressor not started yet |
| C104 | `Model/Accesses.lean`: the steps of `Model/Process.lean` log sends, receives, closes, `Done`, `Wait` and the accesses to files and records; `Spec/HappensBefore.lean`: the Go memory model | invariant: each queued task has its send in the log, after the saver's uses of the file; a marshaller at work on a file knows of them; all tasks of a file go to one marshaller. Counterexample: kept record read by the saver while a marshaller overwrites its addresses (harmless under the conditions of C40) |
| C105 | `Env.now` is the monotonic clock, `Env.wall` the wall clock as an arbitrary function of it; the times of the polls are part of the input | leaving all times out of the state commutes with every step of the saver, function by function. Counterexample for the rates: none is exported until the wall clock has passed its highest reading (`C83_each_second`). The rates of a whole run in closed form (`C83_run`: one list, from the reports and from which polls begin a new second); hence they are the same for clocks that agree on this (`C105_rates_partial`) |
| C106 | `Model/ByteReads.lean`: the functions that read records, as programs whose only access to memory is reading single bytes | the programs refine the functions of the model; the bytes they read and the bytes `Anonymize` stores are in different places by the layout invariant of C87. Counterexample: tcp_info shorter than 168 bytes |
| C107 | `Model/PollTimes.lean`: `Run`, `collectDefaultNamespace` and `OneType` step by step, with monotonic and wall clock, ticker and channel | invariant: the log is a sequence of complete polls and the beginning of one; refinement of `Model/Ticker.lean`. Counterexample: times go back when the clock is set back |
| C108 | `Model/FileSystem.lean`: files by path over `Model/Disk.lean`; `os.Create` empties what is there, compressors write through descriptors with offsets | invariant: a path created once holds what its compressor put out; paths of different files differ unless the connection was announced twice (C36). Counterexamples: a connection that comes back replaces its first file, or the two are mixed |
| C109 | the same model, begun with any contents of the output directory | invariant: other paths are untouched; the first file of a connection has the same path in both runs if it starts on the same day (C92). Counterexample: the connection is still there when the command is started again |
| C110 | `Model/SnapshotMemory.lean`: `Decode`, `Reader.Next`, `LoadAll` with addresses in the memory of `Model/Memory.lean` | refinement: following the pointers gives the values of `Model/Snapshot.lean`; invariant: the structs of each snapshot are in an interval of addresses of its own |
| C111 | the same model | where each pointer leads, by induction over the attributes; so what is seen in the snapshot at any later time. Counterexample: the header of a snapshot is that of the record, and is anonymized with it |
| C112 | `Model/Flags.lean`: `flag.Parse` with the flags of main.go, `strconv.ParseInt`, `ParseBool`, `flagx.ArgsFromEnv`, `StringArray` | lists of options in any spelling are read back; induction over the arguments shows that every command line is of this form or refused; composed with C67. Counterexample: options behind an argument that is no option are ignored |
| C113 | the same model | which value counts, flag by flag; congruence for the environment. Counterexample: the error of `ArgsFromEnv` is dropped, so `REPS=1e3` polls without end |
| C114 | `Model/Duration.lean`: `Duration.Seconds`, the bounds and sums as `float64`, i.e. numbers of 53 significant bits in units of 2^-100 s; with the histograms of C99, the polls of C107 and the ticks of C94 | rounding is monotone, hence `Seconds` is; each bound is between the `Seconds` of two successive nanoseconds; the error of a sum by induction |
| C115 | the writers of `Model/Disk.lean` with their descriptors and processes (`Model/Zstd.lean`), the table of the saver, the queues of the marshallers | invariants of C38, C100 and C43 together: the calls of a writer are the program's up to what is queued; counting with lists without repetitions |
| C116 | the actions of the saver in order (`Model/Saver.lean`), carried out one by one while marshallers and compressors move (`Model/Disk.lean`) | order: induction over the run (first file) and over its steps with the invariant of C38 (end); moments: the calls of a writer are those of the actions carried out (C100) |
| C117 | two complete runs of the saver (`Model/Saver.lean`) with different polls and environments, in which the reports of one connection agree poll by poll | a projection of the history of reports to one connection commutes with `SavedFor` (C32) and `NotesFor` (C66), which determine their outputs; partial: files can be created, no cookie is 0, neither run crashes |
| C118 | complete runs of the saver before and after one more poll, and runs in which a connection does nothing | the projection of C117; the last report and the last saved record say the same (C86), and saying the same is an equivalence; idle connections by induction over the polls; counterexamples |
| C119 | pairs of runs of the saver, of the whole process and of the disk, whose inputs differ in address bytes only (`Spec/Privacy.lean`) | a simulation between the two savers up to addresses and memory behind attributes (`Lemmas/Hidden.lean`), then the results on disk contents (C100) and on killed processes (C74); counterexample: a short tcp_info is compared together with the address of the next message in the buffer |
| C120 | the attempts to create files, with their outcomes, in runs of the saver (`Model/Creations.lean`), next to the due reports of C32 | an induction over the reports that carries the attempts along; the file invariant of C06 at the moment of each attempt; counterexample: a connection that does nothing after its file could not be created is never recorded (the cache has its report, so it is not due again) |
| C121 | the trace of the saver; contents of the files (C39) | a property of traces that is kept by concatenation, shown for what one call of `queue` adds; counterexample: records of families other than 2 and 10 are queued, but dropped by the marshaller |

No property is outside the model altogether; where only part is covered the theorem is `_partial`.

## 4. Trusted base

* Lean 4.33.0 kernel; axioms used by theorems: at most `propext`, `Classical.choice`, `Quot.sound`. No own axioms,
  no `sorry`, no `native_decide`/`bv_decide`.
* The correspondence between model and Go code (by reading; every definition cites lines; simplifications are named in its comment).
* The Go language and stdlib semantics and the operating system behaviour listed in section 2.

Modelled, by package:
`inetdiag` (headers, socket IDs, addresses, route attributes, anonymization, structs and `MarshalCSV`), `netlink` (records, exclusion, `Compare`, stats,
raw reader and archive reader, JSON), `cache`, `collector` (requests, polling and its ticker, conversion), `saver` (all of it: queueing, rotation, events, statistics,
marshallers, shutdown, `LogCacheStats`), `snapshot` (decoding, reader), `tcp` (state names, layout of `LinuxTCPInfo`), `zstd` (writer, reader), `eventsocket` (server,
client, names), `main.go` (command line and environment, start-up, saver to event server, exclusion flags, collector to saver, shutdown), `cmd/example-eventsocket-client`, `cmd/csvtool`,
`metrics` (increments and observations, with their labels).

For C76-C80 additionally: what `gocsv` (not in /repo) does with the struct `Snapshot`, stated at the top of `Model/Csv.lean` (order of the columns, nested
structs in place, nil pointers as empty cells, `MarshalCSV`, decimal numbers). It agrees with the three column positions that `cmd/csvtool/main_test.go` checks.

For C87 and C88 additionally: `Receive` of `vishvananda/netlink` allocates a buffer for each datagram, Go's `syscall.ParseNetlinkMessage` is as stated in
`Model/Memory.lean`, and byte stores do not tear.

For C99 and C114 additionally: histograms and `LinearBuckets` of `prometheus/client_golang` and Go's `Duration.Seconds` (not in /repo) as stated at the top of `Model/Histogram.lean` and `Model/Duration.lean`.

For C108 and C109 additionally: files behave as stated at the top of `Model/FileSystem.lean`; nobody else touches the output directory during a run.

For C110 and C111 additionally: the allocator hands out only memory to which no pointer is left, `encoding/json` makes a new slice for each base64 text, and reading a Go struct
through `unsafe` gives the bytes at its address (the layouts are those of C26).

For C112 and C113 additionally: Go's `flag` and `strconv` and `m-lab/go`'s `flagx` (not in /repo) as defined in `Model/Flags.lean`; the flags of the libraries and
how a list is split are parameters.

Not modelled: logging (except the arguments of the summary line), kernel behaviour
behind netlink sockets, the zstd compression format, disk-full/partial write errors inside `zstd` (other than as a failure of the compressor process), the darwin variant of `collector.Run` (which does nothing; the one of `netlink` has the same parser), weak memory other than for files and records (C104, C106; the effects of the race on records are in C40 and C87), overflow of int64 counters of
messages.

## 5. Disagreements between code and expected property

Generated by `tools/mkmanifest.py` from the doc comments of the theorems. `_violated`: counterexample; `_partial`: what holds.

### C02: Every inet_diag_msg field is read from, and only from, its Linux offset

* `C02_violated_interface`: C02 violated: the interface index, which the kernel gives in the host's byte order, is read as if it were in network byte order: a socket bound to interface 3 is reported as bound to interface 50331648.
* `C02_parse_wire_partial`: C02 (partial: all fields but the interface index, see `C02_violated_interface`). Parsing the kernel's bytes gives every field of the kernel's structure; the interface index comes with its bytes in reversed order.

### C04: Address decoding and loopback/link-local/multicast/unspecified classification

* `C04_violated_missed`: C04 violated: the multicast address ff02:: (all last 12 bytes zero) of an AF_INET6 socket is not classified as local.
* `C04_violated_spurious`: C04 violated: the global unicast-space address 7f00:: of an AF_INET6 socket is classified as loopback.
* `C04_local_v6_partial`: C04 (partial: the missing case are IPv6 addresses whose last 12 bytes are zero, see `C04_violated_*`). An AF_INET6 address with some non-zero byte among the last 12 is local exactly as IPv6 says, IPv4-mapped addresses included.

### C09: ParseRouteAttr rejects bad lengths with an error and never crashes

* `C09_violated_panic`: C09 violated: a 5-byte attribute at the end of a 5-byte buffer makes the parser panic (`b[8:]` of 5 bytes).
* `C09_no_panic_partial`: C09 (partial: inputs whose length is a multiple of four, which is what the kernel sends). No panic.

### C12: Every valid source port given on the command line is excluded, and only those

* `C12_violated_high_port`: C12 violated: every valid port from 32768 up is rejected (`ParseInt` with 16 bits is signed), and the configuration stays as it was.
* `C12_violated_negative`: C12 violated: the string "-1" is accepted and excludes port 65535.
* `C12_add_port_partial`: C12 (partial: ports up to 32767; the property asks for 65535, see `C12_violated_high_port`). The decimal string of a port is accepted, and afterwards exactly the messages with that source port are excluded in addition.

### C13: An excluded destination IP excludes every connection to that IP

* `C13_violated_mapped`: C13 violated: after excluding 8.8.8.8, a dual-stack socket connected to 8.8.8.8 (::ffff:8.8.8.8) is still collected.
* `C13_violated_mapped_text`: C13 violated: even after excluding that very address, given as ::ffff:8.8.8.8.
* `C13_violated_alias`: C13 violated: after excluding 8.8.8.8, a connection to the IPv6 address 808:808:: is excluded, too.
* `C13_add_v4_partial`: C13 (partial: IPv4 peers of AF_INET sockets). Adding an IPv4 address, as dotted decimal text, excludes exactly, in addition, the messages whose destination field holds that address in its first four bytes and zeros behind. Missing: IPv4-mapped destinations, `C13_violated_mapped`.

### C15: Every change of a byte, segment or packet counter is significant

* `C15_violated`: C15 violated: whatever happens to the counters behind `tcpi_busy_time` (bytes sent, bytes retransmitted, delivered), it is not reported: two records that agree elsewhere and whose tcp_info agrees on its first 168 bytes compare as unchanged.
* `C15_counter_change_partial`: C15 (partial: the counters before `tcpi_busy_time`; the late ones are ignored, `C15_violated`). If such a counter differs, a change is reported.

### C17: Compare never crashes

* `C17_violated`: C17 violated: comparing a record of an old kernel (104-byte tcp_info as last attribute) with itself panics.
* `C17_violated_overread`: C17 violated: with other data behind the short attribute, the comparison silently reads that data: two records with the same visible attributes compare as different.
* `C17_no_panic_partial`: C17 (partial: records whose tcp_info, if present, has at least 168 bytes). No panic.

### C18: HasDiagInfo tells whether the record has a tcp_info attribute

* `C18_violated`: C18 violated: a message with attributes 4 and 8 but no INET_DIAG_INFO has `HasDiagInfo`.
* `C18_has_diag_info_partial`: C18 (partial: what `HasDiagInfo` really tells). It is true exactly when the message had some attribute of type 2 *or larger*; so it is true whenever there is an INET_DIAG_INFO (type 2) attribute, but not only then (`C18_violated`).

### C21: A truncated raw stream is reported as an error, not as a clean end

* `C21_violated`: C21 violated: a file cut right behind a header looks like a complete file with one message less.
* `C21_truncated_partial`: C21 (partial: the cut is not exactly behind a header). All complete messages, then an error that is not `io.EOF`.

### C23: Loading an archive either returns every record or an error

* `C23_violated_long`: C23 violated, in general: a line of 64 KiB or more (which `json.Marshal` may well have written) hides itself and everything behind it: the records before it are returned, and no error, by `LoadAllArchivalRecords`; `snapshot.LoadAll` cannot tell it from the end of the file either.
* `C23_violated_read_error`: C23 violated: an error of the reader is taken for the end of the file, wherever it happens.
* `C23_violated`: C23 violated: there are three records whose file is loaded as the first of them, without error. (The second one has an attribute of 64 KiB.)
* `C23_all_or_error_partial`: C23 (partial: the reader does not fail and no line has 64 KiB, see `C23_violated_*`). Loading returns one record for each line; or some line is not a record, then an error and the records of the lines before it.
* `C23_snapshots_partial`: C23 (partial, as above), for `snapshot.LoadAll`: a line that is not a record is an error.

### C25: Observed and NotFullyParsed report exactly what was present and what was understood

* `C25_violated_class_id`: C25 violated: the kernel's class id has four bytes; only the lowest is kept and nothing says so.
* `C25_violated_bbr`: C25 violated: a BBR attribute with one more 32-bit field than the known struct is not flagged, because Go pads the struct to 24 bytes.
* `C25_violated_alias`: C25 violated: an attribute in slot 257 sets the bit of attribute 1. (Only in archive files; records made from netlink messages have at most 39 slots.)
* `C25_observed_partial`: C25 (partial: at most 257 attribute slots). Bit `t - 1` of `Observed`, `1 ≤ t ≤ 32`, is set exactly if attribute `t` was present.
* `C25_not_fully_parsed_partial`: C25 (partial: at most 257 attribute slots, no 8-bit attribute longer than one byte, no BBR attribute of 21 to 24 bytes). Bit `t - 1` of `NotFullyParsed`, `1 ≤ t ≤ 32`, is set exactly if attribute `t` was present and not completely understood.

### C27: Decode never crashes

* `C27_violated`: C27 violated: an empty congestion algorithm attribute.
* `C27_no_crash_partial`: C27 (partial: the congestion algorithm attribute, if present, is not empty). Never a crash.

### C33: Open and close events alternate, one pair per connection

* `C33_violated_unsaved`: C33 violated, in general: if a connection is reported, but no file can be created for it, then it is announced once, however often it comes and goes, and is declared closed each time it disappears, and once more at the end.
* `C33_violated_create`: C33 violated: if the file cannot be created, the close event of the connection is sent twice (when it disappears and at shutdown), and no open event is sent when it comes back.
* `C33_violated_zero`: C33 violated: a connection with cookie 0 gets a close event but never an open event.
* `C33_opens_partial`: C33 (partial). In every run whatsoever (any faults, any messages), between two open events of a connection there is a close event.

### C34: File sequence numbers are consecutive and files rotate only after their age limit

* `C34_violated`: C34 violated in its strict form: with 25 minutes between clock readings, the second record is put into file number 1, whose time ended 5 minutes ago.
* `C34_busy_partial`: C34 (partial: busy connections). For a connection that never pauses for more than ten minutes the property holds in its strict form: the files are numbered 0, 1, 2, ..., file n ≥ 1 is opened only later than n times ten minutes after the connection was announced, and no record at all is put into file n later than n + 1 times ten minutes after that. (Missing: connections that pause for longer, `C34_violated`.)
* `C34_files_partial`: C34 (and the start time of C37). With a monotonic clock that does not go back (whatever the wall clock does), the trace of every run is accepted by the monitor for each cookie: from each `FlowCreated` on, files are numbered 0, 1, 2, ..., headers carry UUID, number and the event's time, file n ≥ 1 is opened only later than n times ten minutes after creation. The last part of the property holds only in the lenient form: a record that arrives after its file's time is put into the next file, which may be past its time, too (see `C34_violated`).

### C35: A connection is rotated at most once per age limit

* `C35_violated`: C35 violated: a connection that was silent for 35 minutes is rotated three times within seconds, once per new record.
* `C35_busy_partial`: C35 (partial: busy connections). If a connection never pauses for more than `d`, with `d` at most ten minutes, then two successive files of it are opened more than ten minutes less `d` apart. (Missing: connections that pause for longer, `C35_violated`.)
* `C35_average_partial`: C35. At least, on average: file number n of a connection is opened more than n times ten minutes after the connection was announced. (Missing: two successive rotations can be closer together than ten minutes, see `C35_violated`.)

### C36: No output file is ever overwritten

* `C36_violated`: C36 violated: a connection missing from one poll gets a second file with the same name as its first one; `os.Create` truncates the first.
* `C36_paths_partial`: C36 for the paths as text (partial like `C36_names_partial`): a path is created a second time only after the connection has been announced anew.
* `C36_names_partial`: C36. If two file creations use the same name, then in between the connection was announced anew: its cookie had vanished from the kernel's reports for a cycle and come back. (Missing from the full property: exactly this case, see `C36_violated`.)

### C39: File contents do not depend on goroutine scheduling

* `C39_violated`: C39 is violated for short tcp_info attributes (C40): the same blocks and clock, two executions that differ in the progress of the marshallers only, and a file with different contents.
* `C39_schedule_partial`: C39 (partial: the tcp_info attributes of all reports are absent or reach to `tcpi_busy_time`, see C40). Two executions on the same blocks, which differ in the schedule, and in what the saver sees of cached records that marshallers anonymize in place meanwhile, leave the same contents in every file.

### C40: Concurrent in-place anonymization never influences what is saved

* `C40_violated`: C40 violated: `Compare` reads tcp_info fields beyond the end of a short attribute, so what marshallers do to the memory behind it changes what is saved.
* `C40_memory_partial`: C40 (partial, as `C40_decisions_partial`). The run of the saver does not depend on what the marshallers do to the memory they share with it.
* `C40_decisions_partial`: C40 (partial: every tcp_info reported reaches at least to `tcpi_busy_time`, as on kernels from 4.10 on). The whole run of the saver (final state, trace of everything it does, or panic) does not depend on whether records in its cache have had their addresses overwritten by marshallers.

### C44: A saver with any number of marshallers handles every block without crashing

* `C44_violated`: C44 violated: without marshallers the saver survives while connections exist, but crashes when the first one disappears.
* `C44_violated_short`: C44 violated: with marshallers, a shortened tcp_info at the end of the receive buffer crashes the comparison.
* `C44_no_crash_partial`: C44 (partial: at least one marshaller, no message on which building the record panics (C09), tcp_info absent or reaching to `tcpi_busy_time`). The saver gets through every sequence of blocks, and the shutdown, without panicking, whatever happens to files and whatever the clock says; and the index of every queue it uses is in range.

### C45: Reported totals conserve bytes

* `C45_violated_flicker`: C45 violated: a connection that loses its tcp_info, regains it and loses it again is counted twice.
* `C45_violated_gap`: C45 violated: a connection that is missing in one poll is counted twice afterwards.
* `C45_violated_twice`: C45 violated: a connection that is listed twice in one poll is counted twice.
* `C45_violated_larger_attr`: C45 violated: the last message of a connection has no tcp_info but some attribute of a larger type, so the code takes its counters for 0 (and then skips the report, since the total has dropped).
* `C45_conserved_partial`: C45 (partial). Whenever a block leads to an observation, all observations so far add up to the sum, over all connections seen so far, of the last byte counter the kernel reported for the connection (modulo 2^64) — for histories that are `Tidy`. Missing: the others, see `C45_violated_*`, and `C45_exact` for what is exported then.

### C47: Throughput reporting recovers after an anomaly

* `C47_violated_stuck`: C47 violated, from any state on: when `O` bytes have been observed, and from then on the exported total is below `O` or more than 12.5e9 bytes above it in every poll, then nothing is ever observed again, however the traffic goes on.
* `C47_violated_forever`: C47 violated, in general: if the true total is above 12.5e9 bytes when the saver sees its first connections and does not fall below that, nothing is ever observed, however long it runs and however slowly the total grows.
* `C47_violated`: C47 violated, concretely.
* `C47_recovers_partial`: C47 (partial). Whatever was skipped before: in the first block of a new second, if the true total is not below what was observed so far and at most 12.5e9 bytes above it, the difference is observed. Missing: recovery when the difference has become larger than that (`C47_violated`); for histories that are not `Tidy` see `C47_observed_iff`.

### C50: A malformed message does not disturb the others

* `C50_violated`: C50 violated: a message with an attribute whose padding is cut off takes the whole process down.
* `C50_malformed_partial`: C50 (partial: the fourth kind of malformed message, an attribute whose padding is cut off, crashes the saver, see `C50_violated`). Removing any malformed messages from the blocks changes nothing at all.

### C53: Emitting events is safe at any time

* `C53_violated_always`: C53 violated, in general: once the server has closed its channel, the next event, whatever it is, crashes the process.
* `C53_violated`: C53 violated: shutdown (the context is cancelled, the server cleans up), and then the close event of a connection that was still open. (A program that uses the package can do this; `main` of this repository cancels its context only after the saver's last event, see `C89_no_crash`.)
* `C53_safe_partial`: C53 (partial: before the server is shut down; `C53_violated`). Emitting an event does not crash the process.

### C57: A failed poll does not close live connections

* `C57_violated`: C57 violated: connection 1 is alive in all three polls; the second v4 dump fails; its connection is closed and then opened again.
* `C57_violated_always`: C57 violated, in general (files can be created, cookies are not 0): whenever a dump of one family fails, every connection that was reported by the poll before and is not reported by the other family's dump is closed at once.
* `C57_reported_partial`: C57 (partial). A connection that is reported in a block is not closed by that block: the events of that block for it are at most opens. (Missing: a connection of the family whose dump failed is not reported, and `C57_violated`.)

### C58: Closing a zstd writer waits for the data to be on disk

* `C58_violated`: C58 violated: the compressor dies, yet all calls succeed, `Close` included, and the data is lost.
* `C58_violated_always`: C58 violated, in general: whatever has happened to the compressor, the first call of `Close` returns nil if it returns.
* `C58_on_disk_partial`: C58 (partial: the compressor was started and exits successfully; its failure is logged but not returned, `C58_violated`). In every schedule, when `Close` has returned nil the file has the complete compressed form of exactly the data written before `Close`.

### C59: A zstd writer releases its resources

* `C59_violated_file`: C59 violated: in every schedule, the descriptor of the output file is never closed (unless a finalizer does it later).
* `C59_violated_create`: C59 violated: if the file cannot be created, both ends of the pipe stay open (unless a finalizer closes them later).
* `C59_pipe_partial`: C59 (partial: the pipe; the file stays open, `C59_violated_file`). After `Close` has returned nil, both ends of the pipe are closed.

### C61: A client of the event socket that does not read holds up nobody

* `C61_violated_blocked`: C61 violated, in general: when the distribution of an event has reached a state in which a stalled client's turn is still to come, then as long as that client neither reads nor goes away: no further event is ever distributed to anybody, and the saver can emit at most as many further events as are free in the channel; then its next `FlowCreated` or `FlowDeleted` blocks, and with it the collection of data.
* `C61_violated`: C61 violated: the state of `C61_violated_blocked` is reached, with another client waiting.
* `C61_progress_partial`: C61 (partial: no client stalls). Before shutdown, while the saver has something to emit or events wait in the channel, some step of the server or the saver is possible: emission does not block for ever.

### C63: The address text of a connection denotes the connection's address

* `C63_violated`: C63 violated: the IPv6 address 2001:db8:: (zeros in the last 12 bytes; for instance a subnet-router anycast address) has the text of the IPv4 address 32.1.13.184.
* `C63_v6_partial`: C63 (partial: the missing case are IPv6 addresses whose last 12 bytes are zero, see `C63_violated`). AF_INET6: the text is a text of the address (and of no other, `C13_unambiguous`).
* `C63_csv_partial`: C63. In CSV output, too, an AF_INET address is in dotted decimal form and the text of any other address (partial as above: some non-zero byte among the last 12) reads back as the address.

### C64: Cancelling the context ends the event client quietly

* `C64_violated_always`: C64 violated, in general: if part of a line (any part that is neither empty nor complete) has been read when the connection is closed because the context is cancelled, that part is decoded as if it were a line, and the process ends. The same when the stream ends there.
* `C64_violated`: C64 violated: the connection is closed, because the context is cancelled, in the middle of the line of a close event.
* `C64_cancel_partial`: C64 (partial: what was read ends with a whole line; `C64_violated`). When the context is cancelled, so that the connection is closed, after any number of complete lines from the server, the handler has been called for these events and `MustRun` returns.

### C65: The saver forgets finished connections

* `C65_violated_create`: C65 violated: a connection whose file could not be created is never forgotten: it is in the saver's map after any number of further blocks that do not report it.
* `C65_violated_closing`: C65 violated: the closing statistics of a connection that lost its tcp_info and regained it are never forgotten (and count for ever).
* `C65_connections_partial`: C65 (partial: files can be created, see `C65_violated_create`, and cookies are not 0). After every block, the connections in the saver's map are exactly those reported in that block.
* `C65_closing_partial`: C65 (partial: no connection regains its tcp_info after losing it, see `C65_violated_closing`). After every block, the saver remembers closing statistics only of connections that were reported in that block, the last time without tcp_info.

### C67: The exclusion flags mean what they say

* `C67_violated_high_port`: C67 violated: `-exclude-srcport=p` has no effect for any valid port `p` from 32768 on, whatever the other flags are.
* `C67_violated_negative`: C67 violated: `-exclude-srcport=-1` is no port number but leaves out the connections from port 65535.
* `C67_flags_partial`: C67 (partial: listed ports are below 32768 or no port numbers, see `C67_violated_high_port` and `C67_violated_negative`). With the flags `-exclude-dstip` and `-exclude-srcport`, exactly the messages about unwanted connections are left out; flags that cannot be converted have no effect on the others.
* `C67_output_partial`: C67 (partial, as above), for the whole run of the saver: no record of an unwanted connection is written to any file, and a connection all of whose messages are unwanted has no file and no event.

### C68: The statistics logged while the saver is running are consistent

* `C68_violated`: C68 violated: the first call of `LogCacheStats` (iteration 0) while the first block is handled: it has read the total (0) when the first connection is counted; it logs -1 unchanged connections.
* `C68_same_partial`: C68 (partial: see `C68_violated`). The number of unchanged connections logged is negative by at most the number of reports the saver handled during the call; if it handled none it is not negative, and the four numbers logged belong together.

### C69: The collector reports what it has seen

* `C69_violated_results`: C69 violated: whatever happens, `Run` returns (0, 0), and passes (0, 0) to `LogCacheStats`: errors are never counted.
* `C69_violated_summary`: C69 violated: the messages of a dump that failed in the middle are counted in the summary, although none of them is submitted.
* `C69_summary_partial`: C69 (partial: only the summary line, and only if no dump failed; `C69_violated_*`). The number of sockets in the summary line is the number of messages submitted to the saver, and the average is that by the number of polls.

### C71: A zstd reader can be closed at any time without harm

* `C71_violated_always`: C71 violated, in general: once the reader is closed while the decompressor has more to write, the process will be ended, in every schedule: all steps that are possible lead to `log.Fatal`, after a bounded number of steps.
* `C71_violated`: C71 violated: a user that reads the first two of four bytes and closes the reader is ended by `log.Fatal`, although the file is good.
* `C71_harmless_partial`: C71 (partial: the user has read to the end; `C71_violated`). The reader never ends the process.

### C77: Every cell of the table is the kernel's value under the kernel's name

* `C77_violated_sign`: C77 violated: the number of segments sent is an unsigned 32-bit number in the kernel; from 2^31 on the table shows it as negative. (The same for the other columns with `signed`; those of 64 bits do not get that large in practice.)
* `C77_violated_duplicate`: C77 violated: two columns are called TCP.LastDataRecv (the second one is the kernel's tcpi_last_ack_recv), no column TCP.LastAckRecv; the size of the send buffer is in a column SKMemInfo.Sndbug.
* `C77_kernel_partial`: C77 (partial: `kernelColumns` lacks the fields whose column has a wrong name, see `C77_violated_duplicate`; signed columns are wrong for large values, see `C77_violated_sign`). For each of the 76 columns: it occurs exactly once in the header, and the cell is the decimal text of the kernel's field in the attribute of the record, empty if the record does not have the attribute.
* `C77_diag_partial`: C77 (partial: without the interface index, whose bytes are reversed, see `C02_violated_interface`). The cells for the kernel's inet_diag_msg `m` (the first 72 bytes of the record's raw message): numbers in decimal, the cookie in hexadecimal, the addresses as `C63_csv_partial` says.
* `C77_exact_partial`: C77. Exactly the number the kernel gave, unless its column is signed and the highest bit set.

### C79: Every row of the table is an observation of a connection

* `C79_violated_header`: C79 violated: the header record of a file (metadata, the zero time, no message) becomes a row like any other, dated 29 May 2009, without any value.
* `C79_observation_partial`: C79 (partial: see `C79_violated_header`). The rows that are observations of a connection are recognizable: their cells of the inet_diag header are not empty.

### C80: Every file that tcp-info writes can be converted to CSV

* `C80_violated`: C80 violated: one record with an empty congestion algorithm attribute, and csvtool crashes; the other records of the file are not converted either.

### C81: The snapshot counter counts the records saved

* `C81_violated`: C81 violated: when no file can be created, or the cookie is zero, a snapshot is counted although nothing is saved.
* `C81_saved_partial`: C81 (partial). When all files can be created and no cookie is zero, tcpinfo_snapshot_total is the number of records handed to the files. Missing: the other runs, see `C81_violated`.

### C82: File and flow counters agree with what happened

* `C82_violated`: C82 violated: in no run is any flow event counted other than "open", although close events are emitted.
* `C82_open_partial`: C82 (partial). In every run, the "open" flow events counted are the open events emitted to the event server, or none without one. Missing: the close events, see `C82_violated`.

### C84: Each dump exports its number of connections and counts its errors

* `C84_violated`: C84 violated: if `Receive` fails, no error is counted, and the number of connections exported is that of messages which were dropped; if an error message is too short or the socket cannot be set up, no error is counted either.
* `C84_errors_partial`: C84 (partial). If the socket works, a wrong sequence number or a wrong pid is counted exactly when the dump fails because of it, and netlink errors are counted once for each error message that is returned. Missing: errors of the socket and messages that are too short, see `C84_violated`.

### C85: Attributes that cannot be decoded completely are counted

* `C85_violated`: C85 violated: an MD5 signature, a mark of two bytes and an empty TOS are flagged as not fully parsed but not counted.
* `C85_counted_partial`: C85 (partial). For every record that is decoded, an attribute that is present and cannot be decoded completely is counted exactly once, under its own label, and one that is absent or completely decoded is not counted. Missing: the attributes of one byte, the mark and MD5 signatures, see `C85_violated`; BBR infos of 21 to 24 bytes.

### C86: The archive tells the state of every connection at every poll

* `C86_violated`: C86 violated: the bytes sent at the last poll (9) are not in the archive, in which the connection has sent 2 bytes at that time and for ever.
* `C86_polled_partial`: C86 (partial as `C86_archive_partial`), with the blocks that the collector has made: as long as nobody sets the clock back and the clock has advanced between polls, every poll whose block the saver has taken can be looked up in the archive. That the blocks are in the order of time need not be assumed.
* `C86_latest_partial`: C86 (partial: files can be created, no cookie is 0, every tcp_info reaches to `tcpi_busy_time`; the counters behind that are not among what agrees, see `C86_violated`). After a run with a clock that advances from poll to poll: for every poll, and every connection reported in it, the last record that was saved for the connection up to the time of the report agrees with the report.
* `C86_counters_partial`: C86 (partial, as above), for the counters: bytes acknowledged and received, segments in and out, retransmissions, ... at the time of any poll can be read off the archive.
* `C86_archive_partial`: C86 (partial as `C86_latest_partial`), for the whole system: `main` has returned after the polls. For every poll and every connection (IPv4 or IPv6) with a tcp_info reported in it, there are a file and a time such that, in whatever has been loaded from that file, there is a record of the connection with that time, TCP state and counters as reported; the time is not after the report, and no record of the connection that lies between the two is found in any loaded file.

### C90: At the end of a run every subscriber has received every event

* `C90_violated`: C90 violated: `main` does not wait for the event server. Two connections, four events, a client that was connected from the start and reads: when `main` returns it has received none of them.
* `C90_violated_most`: C90 violated as far as `C90_received_partial` allows, so that its bound cannot be improved: of 102 events, the client has received the first when `main` returns, and 101 are missing: a hundred in the channel and one about to be written.
* `C90_received_partial`: C90 (partial: up to 101 events can be missing; `C90_violated`). When `main` has returned, the saver has emitted all its events; a client that was added when `k` events had been distributed and to which no write has failed has received, in order and complete, the lines of all further events, except for the last ones, at most 101.

### C91: A subscriber cannot stop the collection

* `C91_violated_hangs`: C91 violated, in general: once the distribution of an event has reached a client that does not read, and more events are to come than fit into the channel, then as long as this client neither reads nor goes away `main` does not return, under any schedule, and nobody receives a further event. (By C73 the collector, the saver and the marshallers can make a finite number of steps only, so the whole process stands still.)
* `C91_violated`: C91 violated: sixty connections and one client that does not read. After nine steps the situation of `C91_violated_hangs` is there: whatever happens then, `main` never returns, unless that client goes away.
* `C91_can_return_partial`: C91 (partial: no client stalls; `C91_violated`). Whatever the clients do otherwise (connect, read, fail), under every schedule: the process does not crash, and from every state that can be reached `main` can still return.
* `C91_fits_partial`: C91 (partial: as many events as the channel has room for). If the events still to come fit into the server's channel, `main` can return, whatever the clients do or do not do: without a single step of the server or of a client.
* `C91_few_partial`: C91 (partial): with at most a hundred events in the whole run, no client can stop the collection.

### C95: Clients find the running event server under its file name

* `C95_violated`: C95 violated: a server is started while another one with the same file name is still running, for instance by a restart. When the old one ends in order, closing its listener removes the file of the new one: the new one goes on running, but no client can reach it.
* `C95_reached_partial`: C95 (partial: one server at a time; `C95_violated`). Whatever the history of starts, orderly ends and crashes: while a server is running, clients reach it; when none is, they get an error.

### C96: The example client ends when its connection ends

* `C96_violated_never`: C96 violated, in general: if the stream from tcp-info ends in order (the server has gone away), the example client does not end, under any schedule. It goes on without a connection and without a message.
* `C96_violated`: C96 violated: tcp-info has ended after one event. `MustRun` has returned, nothing but waiting is left to do, the program has not ended.
* `C96_fatal_partial`: C96 (partial: not when the stream ends in order, `C96_violated`). If the connection fails or a line cannot be decoded, the process ends, and only then: it ends in no other way, and under every schedule the handler has been called for every line before.

### C97: Setting a byte counter of a record changes that counter and nothing else

* `C97_violated_mid`: C97 violated between the lengths: with 136 to 207 bytes of tcp_info the received counter can be set, but `GetStats` still returns zeros.

### C98: The command polls only when it is set up, and puts its files where -output says

* `C98_violated_relative_socket`: C98 violated for relative socket names with `-output`: server and client, both started in /home/u with the same socket name, use different files.

### C99: The histograms scraped by Prometheus tell what was observed

* `C99_violated_stuck`: C99 violated: once the sum has reached 2^56 bits, rates of 8 bits (or 1 byte) per second no longer change it, however many are observed.
* `C99_rates_partial`: C99 (partial: the sum is exact up to 2^56 bits only, see `C99_violated_stuck`). In every run, the histogram of rates scraped for a direction: each bucket has the number of the observations (C45 to C47, C83) that are, in bits, up to its bound; the count is their number; and the sum, up to 2^56 bits (9 petabytes), is exactly eight times the bytes observed.

### C102: A compressor that hangs does not keep other connections from being recorded

* `C102_violated`: C102 violated: with one marshaller, the compressor of the file of the first connection hangs when the file is closed. Then, in every continuation in which it goes on hanging, `main` does not return and the file of the last of the 120 connections of the next poll (writer 121, which the complete run opens, writes and closes) is never even created.
* `C102_others_partial`: C102 (partial: while fewer than 100 tasks wait behind it, see `C102_violated`). The call in which marshaller `i` is does not return, whatever the reason (a compressor that is slow, hangs or is stopped): the schedule has gone on until nothing else can move. Then, if the queue of this marshaller is not full, all polls have been processed and the files of all other marshallers are complete on disk (or their own compressors failed).

### C103: A killed command loses nothing it had written

* `C103_violated`: C103 fails: header and first record of the second file had been written, with their newlines and without any error, when the command was killed. The compressor had not been started; nothing reaches the disk, whatever happens.
* `C103_left_partial`: C103 (partial: the compressor had been started, see `C103_violated`; it follows from its ending well). The command is killed at any moment of any schedule. Every compressor that ends without failing has then put on disk at least everything the command had written to the file in calls that had returned, and only a tail is missing from what the complete run would have written.
* `C103_archive_partial`: C103 (partial, as above). Read back: such a file is decompressed and loaded; the records are those of the complete run in order, a tail missing. Records whose text and newline had been written when the command was killed are not in that tail. If there is an error it is that the last line is cut off.

### C104: Goroutines hand over files and records without data races

* `C104_records_violated`: C104 violated for records: the saver reads a record kept from the previous cycle (to compare it with the new one) and a marshaller overwrites the addresses of the same record, and neither happens before the other.

### C105: Setting the machine's clock does not affect what is recorded

* `C105_violated`: C105 violated for the exported rates: one is exported for each second, but none any more after the clock has been set back by two days.
* `C105_recorded_partial`: C105 (partial: without the exported rates, see `C105_violated`). Two runs of the saver get the same replies of the kernel, at the same moments of the monotonic clock. Their wall clocks show whatever they like: the polls carry other times, and every reading gives another time and date. Then both do the same things in the same order at the same moments: they announce and end the same connections, create the same files with the same numbers and metadata, put the same records into the same files and close them; or both panic. Only the times in the records, metadata lines and events, and the date directories, differ.
* `C105_rates_partial`: C105 (partial: for polls that both clocks let begin a new second, or neither; see `C105_violated`). Two runs as in `C105_recorded_partial`, and the wall clocks, whatever they show, agree on which polls begin a new second, later than all before. Then the same rates are exported in both.

### C106: No byte is shared by saver and marshallers while it is being written

* `C106_violated`: C106 violated: with a tcp_info of 100 bytes, as old kernels send it, `Compare` reads on behind it, and there is the header of the next message of the datagram, whose addresses a marshaller may be overwriting at that time.
* `C106_kept_partial`: C106, partial: for records whose tcp_info, if there is one, has at least the 168 bytes that `Compare` assumes. Of a record it has kept (`p`), and of a new one when comparing (`pm`), the saver reads no byte that a marshaller stores when anonymizing any record (`q`), be it one of these two, whatever memory contains at any of these moments.

### C107: Records carry the time of the poll that reported them

* `C107_violated`: C107 violated when the clock is set back by two days between two polls: the second record of each connection is earlier than the first.
* `C107_increasing_partial`: C107 (partial: as long as nobody sets the clock back, see `C107_violated`). The times of the records increase from family to family and from poll to poll.
* `C107_later_partial`: C107 (partial, as above). So two different polls have different times (`Later`, as C86 takes for granted) if only the clock has advanced between them.
* `C107_rate_partial`: C107 (partial, as above). Block number `k` (from 0) does not have times before `k` times 10 ms after the start.

### C108: Under each path is what was written there

* `C108_violated`: C108 violated: a connection is missing in one poll and comes back. No compressor fails, `main` returns; what was recorded of the connection before is under no path.
* `C108_violated_mixed`: C108 violated further: if the first compressor is still writing when the file is created again, neither text is under any path: the file is a mixture.
* `C108_path_partial`: C108 (partial: no other file of this run has the same path, see `C108_violated`, `C108_overwritten`). `main` has returned, under any schedule. Under the path of every file that was created is a file that, unless the compressor failed, decompresses to the header line and all records queued for it, in order, anonymized.
* `C108_once_partial`: C108 (partial: for connections that are announced once; one that is missing from a poll and comes back is announced twice). All files of such a connection are found under their paths, complete unless their compressor failed.

### C109: A restarted command keeps the files of earlier runs

* `C109_violated_restart`: C109 violated, in general: the command is started again (on the same host since it was booted: the same UUIDs), and a connection is still there whose start in the second run falls on the same day as its start in the first run. Then its first file has the same path in both runs, and when the second run has ended nothing of the first run is left in it: it holds the records of the second run only, or what its failing compressor left.
* `C109_violated`: C109 violated: the command is stopped and started again an hour later. The first run ended well and its file held what was recorded. After the second run, which ended well too, that is under no path any more.
* `C109_ended_partial`: C109 (partial: connections that are gone when the command is started again; see `C109_violated`). The files of connection `k` from earlier runs, whatever their directories and numbers, are as they were if `k` is not reported any more.

### C111: A decoded snapshot does not depend on the record any more

* `C111_violated`: C111 is false in general: the address in a snapshot changes when the record that it was decoded from is anonymized.
* `C111_kept_partial`: C111. As long as nobody writes to the record, the snapshot has the value that `Decode` returned. Missing: that it has this value whatever is written to the record (`C111_violated`).

### C112: What is written on the command line takes effect

* `C112_violated`: C112 violated: an argument that is no option makes all options behind it ineffective, whatever they are, and the program starts without a word.
* `C112_violated_bool`: C112 violated: `tcp-info -trace false -exclude-srcport 80` traces, and excludes no port; the flags written `-trace=false` do what they say.
* `C112_options_partial`: C112 (partial: the options stand in front, see `C112_violated`). If the command line consists of valid options, in any order, number and spelling, then the program starts with the settings they stand for: the last value of an option counts, all values of the two lists; what is not given comes from the environment, otherwise it has its default. Missing: options behind an argument that is no option.

### C113: Variables of the environment stand for options

* `C113_violated`: C113 violated: for a value of `REPS` that is no number the program starts as if nothing had been said, and polls without end; on the command line the same value ends the program. For all such values and all command lines of valid options without `-reps`.
* `C113_violated_values`: C113 violated: `TRACE=yes` is not understood, and there is no trace; `REPS=1e3` polls without end.
* `C113_as_option_partial`: C113 (partial: the value is one that the option accepts, see `C113_violated`). A variable of the environment counts as the option it stands for would, if that option is not on the command line. Missing: values that are not accepted.

### C115: What the command holds follows the connections

* `C115_violated_files`: C115 violated, in general: at any moment of any schedule the descriptors of all output files that have been created are open, also of those that have been closed long ago, unless a finalizer has closed them (the model has no garbage collector).
* `C115_violated`: C115 violated: the connection of the second file is gone in the last poll; compressors and pipes are released, the file is still open when everything is over.
* `C115_in_use_partial`: C115 (partial: pipes and processes; the descriptors of the files themselves stay, `C115_violated`). At any moment of any schedule: if an end of the pipe of an output file is open, or its compressor is running, then a connection that the saver knows has this file, or the saver is about to queue the task to close it, or a marshaller has that task.
* `C115_bound_partial`: C115 (partial as `C115_in_use_partial`; files can be created, cookies are not 0). At any moment at which the saver has carried out everything for the polls it has received, the last of which is `b`: there are never more compressors running, and never more files with an open pipe, than connections in poll `b` and 101 for each marshaller, under any schedule and whatever the compressors do. (`ws`: any of the files in use.)

### C116: Who is told of a connection finds its files

* `C116_violated_start`: C116 violated, in general (files can be created). Under every schedule, when the saver announces a connection, its first file has not been created, neither before nor after the event is sent.
* `C116_violated_end`: C116 violated, in general. Under every schedule, when the saver announces the end of a connection, its open file (created, and the task to close it not queued) is not complete, neither before nor after the event is sent: its pipe is open and the compressor has not finished.
* `C116_start_partial`: C116 (partial: the order of what the saver does; nothing of this has happened yet when the event is sent, `C116_violated_start`, `C116_violated_end`). If files can be created: right after a connection is announced its first file is created, in the directory of the announced time.
* `C116_end_partial`: C116 (partial as `C116_start_partial`). Right after the end of a connection is announced the task to close its file is queued, if it has an open file; whatever fails.

### C117: Connections do not influence each other

* `C117_violated`: C117 violated: the reports of connection 1 are the same, but a report of connection 3 that cannot be parsed takes the whole process down, so that of connection 1 nothing more is recorded.
* `C117_saved_partial`: C117 (partial: files can be created, no cookie is 0, and neither process crashes; see `C117_violated`). Two daemons with different clocks, numbers of marshallers and other settings are given different polls; but poll by poll the reports of connection `k` are the same. Then the records of `k` queued for writing are the same, in the same order, whatever other connections there are.
* `C117_events_partial`: C117 (partial, as above). And it is announced and declared closed as often, in the same order, and each time it is announced with the same time.
* `C117_order_partial`: C117 (partial, as above). The order in which the kernel lists the connections of a poll, and whether it does so in its answer for IPv4 or for IPv6, plays no part: if poll by poll the same reports come in different orders, and `k` is reported at most once by each poll, then its records are the same.

### C118: Every record in the archive tells something new

* `C118_violated_twice`: C118 violated: a connection that a dump reports twice in the same way (which happens when the kernel's table changes during the dump) is recorded twice.
* `C118_violated_noinfo`: C118 violated: a connection without tcp_info is recorded again at every poll, although nothing changes.
* `C118_added_partial`: C118 (partial: the claim fails for connections reported several times by a poll, `C118_violated_twice`, and without tcp_info, `C118_violated_noinfo`; files can be created, no cookie is 0). One more poll `b`, which reports connection `k` as `r` and perhaps again (`more`): if the poll before did not report `k`, or if `r` does not say the same as the last record of `k` in the archive, then `r` is added to the archive, otherwise not; `more` is added in any case. So the decision can be read off the archive, although the saver compares with the last report.
* `C118_absent_partial`: C118 (partial, as above). A poll that does not report `k` adds no record of it.
* `C118_idle_partial`: C118 (partial, as above). However long a connection that does nothing is observed, it is recorded once: if every poll from its first one on reports it once, with tcp_info and without significant change, then its first report is its only record.

### C119: The archive tells nothing about addresses but their anonymized form

* `C119_violated`: C119 violated by a short tcp_info: it is compared together with the bytes that follow it in the receive buffer, which hold the address of the next connection. The two daemons see the same connections, except that in the second poll a connection comes from 10.1.2.99 instead of 10.1.2.3; both addresses are anonymized to 10.1.2.0. The one daemon saves two records, the other three: the archive tells whether the address has changed.
* `C119_saver_partial`: C119 (partial: every tcp_info reaches to `tcpi_busy_time`, see `C119_violated`). Two daemons with the same clocks and the same configuration, but marshallers that anonymize cached records at other times (`view`), whose kernels report the same except for addresses that are anonymized to the same. Either both crash, or both do the same at the same times, except for the addresses they announce on the event socket: the same files are created under the same names, the same lines are queued for them, the same numbers are exported.
* `C119_disk_partial`: C119 (partial, as `C119_saver_partial`). Both daemons' `main` have returned, each under its own schedule of collector, saver, marshallers, pipes and compressors: the same files have been opened, and what two compressors that did not fail have left on disk is the same, byte by byte.
* `C119_moment_partial`: C119 (partial, as above). At any two moments of the two daemons, under any schedules, so also when they are killed: what has been written to the file with number `w` is, in both cases, the beginning of one and the same text.

### C120: A file that cannot be created costs one record, and nothing after the disk works again

* `C120_violated`: C120 violated: connection 1 is reported by four polls, without change. The first attempt to create its file fails; all files of the later polls can be created (and are, for connection 2), but connection 1 is not recorded.
* `C120_exact_partial`: C120 (partial: the claim fails for idle connections, see `C120_idle` and `C120_violated`). At whichever moments files cannot be created: of the due reports (new or significantly changed ones, see C32) of the polls `bs'` that follow `bs`, exactly those marked as saved get into the files, in their order. The others are as many as attempts to create a file failed meanwhile, and of the same connections in the same order (leaving aside cookie 0, which is never recorded).
* `C120_resumes_partial`: C120 (partial, as above). A disk that works again: if after `bs` no attempt to create a file fails (whatever failed before), then all due reports of the polls after `bs` are saved.
* `C120_number_partial`: C120 (partial, as above). The number of records lost is the number of failed attempts.

### C121: No file of the archive is without a record

* `C121_violated`: C121 violated: a record of another family is queued, but its addresses cannot be anonymized; it is dropped then, and its file has nothing but the metadata line.
* `C121_text_partial`: C121 (partial: connections of families 2 and 10, which are those that are asked for; `C121_violated`). When `Done.Wait` returns, every file that was opened has its metadata line and at least one record: the first one that was queued for it.
