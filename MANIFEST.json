{
 "claims": [
  {
   "property": "C01",
   "status": "proved",
   "theorems": [
    "TcpInfo.C01_split_exact",
    "TcpInfo.C01_parse_total"
   ],
   "note": ""
  },
  {
   "property": "C02",
   "status": "partial",
   "theorems": [
    "TcpInfo.C02_parse_wire_partial",
    "TcpInfo.C02_interface_zero",
    "TcpInfo.C02_wire_parse",
    "TcpInfo.C02_violated_interface"
   ],
   "note": "[C02_parse_wire_partial] C02 (partial: all fields but the interface index, see `C02_violated_interface`). Parsing the kernel's bytes gives every field of the kernel's structure; the interface index comes with its bytes in reversed order. [C02_violated_interface] C02 violated: the interface index, which the kernel gives in the host's byte order, is read as if it were in network byte order: a socket bound to interface 3 is reported as bound to interface 50331648. The *_violated theorems are machine-checked counterexamples: the property as stated is false of the code."
  },
  {
   "property": "C03",
   "status": "proved",
   "theorems": [
    "TcpInfo.C03_cookie_roundtrip",
    "TcpInfo.C03_cookie_injective"
   ],
   "note": ""
  },
  {
   "property": "C04",
   "status": "partial",
   "theorems": [
    "TcpInfo.C04_local_v4",
    "TcpInfo.C04_local_v6_partial",
    "TcpInfo.C04_v6_zero_tail",
    "TcpInfo.C04_violated_missed",
    "TcpInfo.C04_violated_spurious"
   ],
   "note": "[C04_local_v6_partial] C04 (partial: the missing case are IPv6 addresses whose last 12 bytes are zero, see `C04_violated_*`). An AF_INET6 address with some non-zero byte among the last 12 is local exactly as IPv6 says, IPv4-mapped addresses included. [C04_violated_missed] C04 violated: the multicast address ff02:: (all last 12 bytes zero) of an AF_INET6 socket is not classified as local. [C04_violated_spurious] C04 violated: the global unicast-space address 7f00:: of an AF_INET6 socket is classified as loopback. The *_violated theorems are machine-checked counterexamples: the property as stated is false of the code."
  },
  {
   "property": "C05",
   "status": "proved",
   "theorems": [
    "TcpInfo.C05_anonymize_exact",
    "TcpInfo.C05_anonymize_error",
    "TcpInfo.C05_anonymize_keeps_identity"
   ],
   "note": ""
  },
  {
   "property": "C06",
   "status": "proved",
   "theorems": [
    "TcpInfo.C06_layout",
    "TcpInfo.C06_states",
    "TcpInfo.C06_extensions"
   ],
   "note": ""
  },
  {
   "property": "C07",
   "status": "proved",
   "theorems": [
    "TcpInfo.C07_roundtrip"
   ],
   "note": ""
  },
  {
   "property": "C08",
   "status": "proved",
   "theorems": [
    "TcpInfo.C08_terminates",
    "TcpInfo.C08_sound"
   ],
   "note": ""
  },
  {
   "property": "C09",
   "status": "partial",
   "theorems": [
    "TcpInfo.C09_error_iff",
    "TcpInfo.C09_panic_iff",
    "TcpInfo.C09_no_panic_partial",
    "TcpInfo.C09_violated_panic"
   ],
   "note": "[C09_no_panic_partial] C09 (partial: inputs whose length is a multiple of four, which is what the kernel sends). No panic. [C09_violated_panic] C09 violated: a 5-byte attribute at the end of a 5-byte buffer makes the parser panic (`b[8:]` of 5 bytes). The *_violated theorems are machine-checked counterexamples: the property as stated is false of the code."
  },
  {
   "property": "C10",
   "status": "proved",
   "theorems": [
    "TcpInfo.C10_table",
    "TcpInfo.C10_complete"
   ],
   "note": ""
  },
  {
   "property": "C11",
   "status": "proved",
   "theorems": [
    "TcpInfo.C11_excluded_iff",
    "TcpInfo.C11_errors",
    "TcpInfo.C11_otherwise_unaffected"
   ],
   "note": ""
  },
  {
   "property": "C12",
   "status": "partial",
   "theorems": [
    "TcpInfo.C12_add_port_partial",
    "TcpInfo.C12_add_port_frame",
    "TcpInfo.C12_texts",
    "TcpInfo.C12_violated_high_port",
    "TcpInfo.C12_violated_negative"
   ],
   "note": "[C12_add_port_partial] C12 (partial: ports up to 32767; the property asks for 65535, see `C12_violated_high_port`). The decimal string of a port is accepted, and afterwards exactly the messages with that source port are excluded in addition. [C12_violated_high_port] C12 violated: every valid port from 32768 up is rejected (`ParseInt` with 16 bits is signed), and the configuration stays as it was. [C12_violated_negative] C12 violated: the string \"-1\" is accepted and excludes port 65535. The *_violated theorems are machine-checked counterexamples: the property as stated is false of the code."
  },
  {
   "property": "C13",
   "status": "partial",
   "theorems": [
    "TcpInfo.C13_add_v4_partial",
    "TcpInfo.C13_add_v6",
    "TcpInfo.C13_add_v6_text",
    "TcpInfo.C13_add_frame",
    "TcpInfo.C13_v4_texts",
    "TcpInfo.C13_texts",
    "TcpInfo.C13_unambiguous",
    "TcpInfo.C13_violated_mapped",
    "TcpInfo.C13_violated_mapped_text",
    "TcpInfo.C13_violated_alias"
   ],
   "note": "[C13_add_v4_partial] C13 (partial: IPv4 peers of AF_INET sockets). Adding an IPv4 address, as dotted decimal text, excludes exactly, in addition, the messages whose destination field holds that address in its first four bytes and zeros behind. Missing: IPv4-mapped destinations, `C13_violated_mapped`. [C13_violated_mapped] C13 violated: after excluding 8.8.8.8, a dual-stack socket connected to 8.8.8.8 (::ffff:8.8.8.8) is still collected. [C13_violated_mapped_text] C13 violated: even after excluding that very address, given as ::ffff:8.8.8.8. [C13_violated_alias] C13 violated: after excluding 8.8.8.8, a connection to the IPv6 address 808:808:: is excluded, too. The *_violated theorems are machine-checked counterexamples: the property as stated is false of the code."
  },
  {
   "property": "C14",
   "status": "proved",
   "theorems": [
    "TcpInfo.C14_nochange_iff",
    "TcpInfo.C14_self",
    "TcpInfo.C14_no_info_is_change",
    "TcpInfo.C14_kind"
   ],
   "note": ""
  },
  {
   "property": "C15",
   "status": "partial",
   "theorems": [
    "TcpInfo.C15_counter_change_partial",
    "TcpInfo.C15_violated"
   ],
   "note": "[C15_counter_change_partial] C15 (partial: the counters before `tcpi_busy_time`; the late ones are ignored, `C15_violated`). If such a counter differs, a change is reported. [C15_violated] C15 violated: whatever happens to the counters behind `tcpi_busy_time` (bytes sent, bytes retransmitted, delivered), it is not reported: two records that agree elsewhere and whose tcp_info agrees on its first 168 bytes compare as unchanged. The *_violated theorems are machine-checked counterexamples: the property as stated is false of the code."
  },
  {
   "property": "C16",
   "status": "proved",
   "theorems": [
    "TcpInfo.C16_dual",
    "TcpInfo.C16_equivalence"
   ],
   "note": ""
  },
  {
   "property": "C17",
   "status": "partial",
   "theorems": [
    "TcpInfo.C17_panic_iff",
    "TcpInfo.C17_no_panic_partial",
    "TcpInfo.C17_violated",
    "TcpInfo.C17_violated_overread"
   ],
   "note": "[C17_no_panic_partial] C17 (partial: records whose tcp_info, if present, has at least 168 bytes). No panic. [C17_violated] C17 violated: comparing a record of an old kernel (104-byte tcp_info as last attribute) with itself panics. [C17_violated_overread] C17 violated: with other data behind the short attribute, the comparison silently reads that data: two records with the same visible attributes compare as different. The *_violated theorems are machine-checked counterexamples: the property as stated is false of the code."
  },
  {
   "property": "C18",
   "status": "partial",
   "theorems": [
    "TcpInfo.C18_has_diag_info_partial",
    "TcpInfo.C18_violated"
   ],
   "note": "[C18_has_diag_info_partial] C18 (partial: what `HasDiagInfo` really tells). It is true exactly when the message had some attribute of type 2 *or larger*; so it is true whenever there is an INET_DIAG_INFO (type 2) attribute, but not only then (`C18_violated`). [C18_violated] C18 violated: a message with attributes 4 and 8 but no INET_DIAG_INFO has `HasDiagInfo`. The *_violated theorems are machine-checked counterexamples: the property as stated is false of the code."
  },
  {
   "property": "C19",
   "status": "proved",
   "theorems": [
    "TcpInfo.C19_stats",
    "TcpInfo.C19_stats_zero",
    "TcpInfo.C19_no_panic"
   ],
   "note": ""
  },
  {
   "property": "C20",
   "status": "proved",
   "theorems": [
    "TcpInfo.C20_roundtrip",
    "TcpInfo.C20_read_error",
    "TcpInfo.C20_complete"
   ],
   "note": ""
  },
  {
   "property": "C21",
   "status": "partial",
   "theorems": [
    "TcpInfo.C21_truncated_exact",
    "TcpInfo.C21_truncated_partial",
    "TcpInfo.C21_violated"
   ],
   "note": "[C21_truncated_partial] C21 (partial: the cut is not exactly behind a header). All complete messages, then an error that is not `io.EOF`. [C21_violated] C21 violated: a file cut right behind a header looks like a complete file with one message less. The *_violated theorems are machine-checked counterexamples: the property as stated is false of the code."
  },
  {
   "property": "C22",
   "status": "proved",
   "theorems": [
    "TcpInfo.C22_roundtrip",
    "TcpInfo.C22_one_line",
    "TcpInfo.C22_marshals"
   ],
   "note": ""
  },
  {
   "property": "C23",
   "status": "partial",
   "theorems": [
    "TcpInfo.C23_all_or_error_partial",
    "TcpInfo.C23_exact",
    "TcpInfo.C23_silent_iff",
    "TcpInfo.C23_snapshots_partial",
    "TcpInfo.C23_violated_long",
    "TcpInfo.C23_violated_read_error",
    "TcpInfo.C23_violated"
   ],
   "note": "[C23_all_or_error_partial] C23 (partial: the reader does not fail and no line has 64 KiB, see `C23_violated_*`). Loading returns one record for each line; or some line is not a record, then an error and the records of the lines before it. [C23_snapshots_partial] C23 (partial, as above), for `snapshot.LoadAll`: a line that is not a record is an error. [C23_violated_long] C23 violated, in general: a line of 64 KiB or more (which `json.Marshal` may well have written) hides itself and everything behind it: the records before it are returned, and no error, by `LoadAllArchivalRecords`; `snapshot.LoadAll` cannot tell it from the end of the file either. [C23_violated_read_error] C23 violated: an error of the reader is taken for the end of the file, wherever it happens. [C23_violated] C23 violated: there are three records whose file is loaded as the first of them, without error. (The second one has an attribute of 64 KiB.) The *_violated theorems are machine-checked counterexamples: the property as stated is false of the code."
  },
  {
   "property": "C24",
   "status": "proved",
   "theorems": [
    "TcpInfo.C24_cut",
    "TcpInfo.C24_written_before"
   ],
   "note": ""
  },
  {
   "property": "C25",
   "status": "partial",
   "theorems": [
    "TcpInfo.C25_observed_partial",
    "TcpInfo.C25_not_fully_parsed_partial",
    "TcpInfo.C25_exact",
    "TcpInfo.C25_violated_class_id",
    "TcpInfo.C25_violated_bbr",
    "TcpInfo.C25_violated_alias",
    "TcpInfo.C25_observed_netlink"
   ],
   "note": "[C25_observed_partial] C25 (partial: at most 257 attribute slots). Bit `t - 1` of `Observed`, `1 \u2264 t \u2264 32`, is set exactly if attribute `t` was present. [C25_not_fully_parsed_partial] C25 (partial: at most 257 attribute slots, no 8-bit attribute longer than one byte, no BBR attribute of 21 to 24 bytes). Bit `t - 1` of `NotFullyParsed`, `1 \u2264 t \u2264 32`, is set exactly if attribute `t` was present and not completely understood. [C25_violated_class_id] C25 violated: the kernel's class id has four bytes; only the lowest is kept and nothing says so. [C25_violated_bbr] C25 violated: a BBR attribute with one more 32-bit field than the known struct is not flagged, because Go pads the struct to 24 bytes. [C25_violated_alias] C25 violated: an attribute in slot 257 sets the bit of attribute 1. (Only in archive files; records made from netlink messages have at most 39 slots.) The *_violated theorems are machine-checked counterexamples: the property as stated is false of the code."
  },
  {
   "property": "C26",
   "status": "proved",
   "theorems": [
    "TcpInfo.C26_structs",
    "TcpInfo.C26_image",
    "TcpInfo.C26_scalars",
    "TcpInfo.C26_independent"
   ],
   "note": ""
  },
  {
   "property": "C27",
   "status": "partial",
   "theorems": [
    "TcpInfo.C27_error_iff",
    "TcpInfo.C27_panic_iff",
    "TcpInfo.C27_no_crash_partial",
    "TcpInfo.C27_violated"
   ],
   "note": "[C27_no_crash_partial] C27 (partial: the congestion algorithm attribute, if present, is not empty). Never a crash. [C27_violated] C27 violated: an empty congestion algorithm attribute. The *_violated theorems are machine-checked counterexamples: the property as stated is false of the code."
  },
  {
   "property": "C28",
   "status": "proved",
   "theorems": [
    "TcpInfo.C28_all",
    "TcpInfo.C28_bad_record",
    "TcpInfo.C28_reader_error"
   ],
   "note": ""
  },
  {
   "property": "C29",
   "status": "proved",
   "theorems": [
    "TcpInfo.C29_update",
    "TcpInfo.C29_incomplete"
   ],
   "note": ""
  },
  {
   "property": "C30",
   "status": "proved",
   "theorems": [
    "TcpInfo.C30_endCycle"
   ],
   "note": ""
  },
  {
   "property": "C31",
   "status": "proved",
   "theorems": [
    "TcpInfo.C31_cycleCount"
   ],
   "note": ""
  },
  {
   "property": "C32",
   "status": "proved",
   "theorems": [
    "TcpInfo.C32_saved",
    "TcpInfo.C32_only_due",
    "TcpInfo.C32_unique"
   ],
   "note": ""
  },
  {
   "property": "C33",
   "status": "partial",
   "theorems": [
    "TcpInfo.C33_closed",
    "TcpInfo.C33_violated_unsaved",
    "TcpInfo.C33_events",
    "TcpInfo.C33_alternate",
    "TcpInfo.C33_opens_partial",
    "TcpInfo.C33_violated_create",
    "TcpInfo.C33_violated_zero"
   ],
   "note": "[C33_opens_partial] C33 (partial). In every run whatsoever (any faults, any messages), between two open events of a connection there is a close event. [C33_violated_unsaved] C33 violated, in general: if a connection is reported, but no file can be created for it, then it is announced once, however often it comes and goes, and is declared closed each time it disappears, and once more at the end. [C33_violated_create] C33 violated: if the file cannot be created, the close event of the connection is sent twice (when it disappears and at shutdown), and no open event is sent when it comes back. [C33_violated_zero] C33 violated: a connection with cookie 0 gets a close event but never an open event. The *_violated theorems are machine-checked counterexamples: the property as stated is false of the code."
  },
  {
   "property": "C34",
   "status": "partial",
   "theorems": [
    "TcpInfo.C34_busy_partial",
    "TcpInfo.C34_files_partial",
    "TcpInfo.C34_violated"
   ],
   "note": "[C34_busy_partial] C34 (partial: busy connections). For a connection that never pauses for more than ten minutes the property holds in its strict form: the files are numbered 0, 1, 2, ..., file n \u2265 1 is opened only later than n times ten minutes after the connection was announced, and no record at all is put into file n later than n + 1 times ten minutes after that. (Missing: connections that pause for longer, `C34_violated`.) [C34_files_partial] C34 (and the start time of C37). With a monotonic clock that does not go back (whatever the wall clock does), the trace of every run is accepted by the monitor for each cookie: from each `FlowCreated` on, files are numbered 0, 1, 2, ..., headers carry UUID, number and the event's time, file n \u2265 1 is opened only later than n times ten minutes after creation. The last part of the property holds only in the lenient form: a record that arrives after its file's time is put into the next file, which may be past its time, too (see `C34_violated`). [C34_violated] C34 violated in its strict form: with 25 minutes between clock readings, the second record is put into file number 1, whose time ended 5 minutes ago. The *_violated theorems are machine-checked counterexamples: the property as stated is false of the code."
  },
  {
   "property": "C35",
   "status": "partial",
   "theorems": [
    "TcpInfo.C35_busy_partial",
    "TcpInfo.C35_violated",
    "TcpInfo.C35_average_partial"
   ],
   "note": "[C35_busy_partial] C35 (partial: busy connections). If a connection never pauses for more than `d`, with `d` at most ten minutes, then two successive files of it are opened more than ten minutes less `d` apart. (Missing: connections that pause for longer, `C35_violated`.) [C35_average_partial] C35. At least, on average: file number n of a connection is opened more than n times ten minutes after the connection was announced. (Missing: two successive rotations can be closer together than ten minutes, see `C35_violated`.) [C35_violated] C35 violated: a connection that was silent for 35 minutes is rotated three times within seconds, once per new record. The *_violated theorems are machine-checked counterexamples: the property as stated is false of the code."
  },
  {
   "property": "C36",
   "status": "partial",
   "theorems": [
    "TcpInfo.C36_paths_partial",
    "TcpInfo.C36_exact",
    "TcpInfo.C36_names_partial",
    "TcpInfo.C36_violated"
   ],
   "note": "[C36_paths_partial] C36 for the paths as text (partial like `C36_names_partial`): a path is created a second time only after the connection has been announced anew. [C36_names_partial] C36. If two file creations use the same name, then in between the connection was announced anew: its cookie had vanished from the kernel's reports for a cycle and come back. (Missing from the full property: exactly this case, see `C36_violated`.) [C36_violated] C36 violated: a connection missing from one poll gets a second file with the same name as its first one; `os.Create` truncates the first. The *_violated theorems are machine-checked counterexamples: the property as stated is false of the code."
  },
  {
   "property": "C37",
   "status": "proved",
   "theorems": [
    "TcpInfo.C37_file_text",
    "TcpInfo.C37_contents",
    "TcpInfo.C37_start_time",
    "TcpInfo.C37_order"
   ],
   "note": ""
  },
  {
   "property": "C38",
   "status": "proved",
   "theorems": [
    "TcpInfo.C38_schedule",
    "TcpInfo.C38_all_closed",
    "TcpInfo.C38_closed_once",
    "TcpInfo.C38_during"
   ],
   "note": ""
  },
  {
   "property": "C39",
   "status": "partial",
   "theorems": [
    "TcpInfo.C39_contents",
    "TcpInfo.C39_schedule_partial",
    "TcpInfo.C39_violated"
   ],
   "note": "[C39_schedule_partial] C39 (partial: the tcp_info attributes of all reports are absent or reach to `tcpi_busy_time`, see C40). Two executions on the same blocks, which differ in the schedule, and in what the saver sees of cached records that marshallers anonymize in place meanwhile, leave the same contents in every file. [C39_violated] C39 is violated for short tcp_info attributes (C40): the same blocks and clock, two executions that differ in the progress of the marshallers only, and a file with different contents. The *_violated theorems are machine-checked counterexamples: the property as stated is false of the code."
  },
  {
   "property": "C40",
   "status": "partial",
   "theorems": [
    "TcpInfo.C40_memory_partial",
    "TcpInfo.C40_decisions_partial",
    "TcpInfo.C40_violated"
   ],
   "note": "[C40_memory_partial] C40 (partial, as `C40_decisions_partial`). The run of the saver does not depend on what the marshallers do to the memory they share with it. [C40_decisions_partial] C40 (partial: every tcp_info reported reaches at least to `tcpi_busy_time`, as on kernels from 4.10 on). The whole run of the saver (final state, trace of everything it does, or panic) does not depend on whether records in its cache have had their addresses overwritten by marshallers. [C40_violated] C40 violated: `Compare` reads tcp_info fields beyond the end of a short attribute, so what marshallers do to the memory behind it changes what is saved. The *_violated theorems are machine-checked counterexamples: the property as stated is false of the code."
  },
  {
   "property": "C41",
   "status": "proved",
   "theorems": [
    "TcpInfo.C41_anonymized",
    "TcpInfo.C41_addresses"
   ],
   "note": ""
  },
  {
   "property": "C42",
   "status": "proved",
   "theorems": [
    "TcpInfo.C42_terminates",
    "TcpInfo.C42_can_finish",
    "TcpInfo.C42_wait"
   ],
   "note": ""
  },
  {
   "property": "C43",
   "status": "proved",
   "theorems": [
    "TcpInfo.C43_tasks",
    "TcpInfo.C43_same_queue"
   ],
   "note": ""
  },
  {
   "property": "C44",
   "status": "partial",
   "theorems": [
    "TcpInfo.C44_message_iff",
    "TcpInfo.C44_crash_iff",
    "TcpInfo.C44_memory_iff",
    "TcpInfo.C44_no_crash_partial",
    "TcpInfo.C44_violated",
    "TcpInfo.C44_violated_short"
   ],
   "note": "[C44_no_crash_partial] C44 (partial: at least one marshaller, no message on which building the record panics (C09), tcp_info absent or reaching to `tcpi_busy_time`). The saver gets through every sequence of blocks, and the shutdown, without panicking, whatever happens to files and whatever the clock says; and the index of every queue it uses is in range. [C44_violated] C44 violated: without marshallers the saver survives while connections exist, but crashes when the first one disappears. [C44_violated_short] C44 violated: with marshallers, a shortened tcp_info at the end of the receive buffer crashes the comparison. The *_violated theorems are machine-checked counterexamples: the property as stated is false of the code."
  },
  {
   "property": "C45",
   "status": "partial",
   "theorems": [
    "TcpInfo.C45_exact",
    "TcpInfo.C45_conserved_partial",
    "TcpInfo.C45_violated_flicker",
    "TcpInfo.C45_violated_gap",
    "TcpInfo.C45_violated_twice",
    "TcpInfo.C45_violated_larger_attr"
   ],
   "note": "[C45_conserved_partial] C45 (partial). Whenever a block leads to an observation, all observations so far add up to the sum, over all connections seen so far, of the last byte counter the kernel reported for the connection (modulo 2^64) \u2014 for histories that are `Tidy`. Missing: the others, see `C45_violated_*`, and `C45_exact` for what is exported then. [C45_violated_flicker] C45 violated: a connection that loses its tcp_info, regains it and loses it again is counted twice. [C45_violated_gap] C45 violated: a connection that is missing in one poll is counted twice afterwards. [C45_violated_twice] C45 violated: a connection that is listed twice in one poll is counted twice. [C45_violated_larger_attr] C45 violated: the last message of a connection has no tcp_info but some attribute of a larger type, so the code takes its counters for 0 (and then skips the report, since the total has dropped). The *_violated theorems are machine-checked counterexamples: the property as stated is false of the code."
  },
  {
   "property": "C46",
   "status": "proved",
   "theorems": [
    "TcpInfo.C46_bounded",
    "TcpInfo.C46_sum",
    "TcpInfo.C46_monotone",
    "TcpInfo.C46_per_second"
   ],
   "note": ""
  },
  {
   "property": "C47",
   "status": "partial",
   "theorems": [
    "TcpInfo.C47_observed_iff",
    "TcpInfo.C47_violated_stuck",
    "TcpInfo.C47_recovers_partial",
    "TcpInfo.C47_violated_forever",
    "TcpInfo.C47_violated"
   ],
   "note": "[C47_recovers_partial] C47 (partial). Whatever was skipped before: in the first block of a new second, if the true total is not below what was observed so far and at most 12.5e9 bytes above it, the difference is observed. Missing: recovery when the difference has become larger than that (`C47_violated`); for histories that are not `Tidy` see `C47_observed_iff`. [C47_violated_stuck] C47 violated, from any state on: when `O` bytes have been observed, and from then on the exported total is below `O` or more than 12.5e9 bytes above it in every poll, then nothing is ever observed again, however the traffic goes on. [C47_violated_forever] C47 violated, in general: if the true total is above 12.5e9 bytes when the saver sees its first connections and does not fall below that, nothing is ever observed, however long it runs and however slowly the total grows. [C47_violated] C47 violated, concretely. The *_violated theorems are machine-checked counterexamples: the property as stated is false of the code."
  },
  {
   "property": "C48",
   "status": "proved",
   "theorems": [
    "TcpInfo.C48_total",
    "TcpInfo.C48_counts",
    "TcpInfo.C48_logged",
    "TcpInfo.C48_logged_args"
   ],
   "note": ""
  },
  {
   "property": "C49",
   "status": "proved",
   "theorems": [
    "TcpInfo.C49_events",
    "TcpInfo.C49_local",
    "TcpInfo.C49_no_effect",
    "TcpInfo.C49_records",
    "TcpInfo.C49_only_reported",
    "TcpInfo.C49_no_output"
   ],
   "note": ""
  },
  {
   "property": "C50",
   "status": "partial",
   "theorems": [
    "TcpInfo.C50_malformed_partial",
    "TcpInfo.C50_violated"
   ],
   "note": "[C50_malformed_partial] C50 (partial: the fourth kind of malformed message, an attribute whose padding is cut off, crashes the saver, see `C50_violated`). Removing any malformed messages from the blocks changes nothing at all. [C50_violated] C50 violated: a message with an attribute whose padding is cut off takes the whole process down. The *_violated theorems are machine-checked counterexamples: the property as stated is false of the code."
  },
  {
   "property": "C51",
   "status": "proved",
   "theorems": [
    "TcpInfo.C51_order",
    "TcpInfo.C51_emitted",
    "TcpInfo.C51_received",
    "TcpInfo.C51_received_failed",
    "TcpInfo.C51_not_before"
   ],
   "note": ""
  },
  {
   "property": "C52",
   "status": "proved",
   "theorems": [
    "TcpInfo.C52_independent",
    "TcpInfo.C52_removed"
   ],
   "note": ""
  },
  {
   "property": "C53",
   "status": "partial",
   "theorems": [
    "TcpInfo.C53_safe_partial",
    "TcpInfo.C53_violated_always",
    "TcpInfo.C53_exact",
    "TcpInfo.C53_violated"
   ],
   "note": "[C53_safe_partial] C53 (partial: before the server is shut down; `C53_violated`). Emitting an event does not crash the process. [C53_violated_always] C53 violated, in general: once the server has closed its channel, the next event, whatever it is, crashes the process. [C53_violated] C53 violated: shutdown (the context is cancelled, the server cleans up), and then the close event of a connection that was still open. (A program that uses the package can do this; `main` of this repository cancels its context only after the saver's last event, see `C89_no_crash`.) The *_violated theorems are machine-checked counterexamples: the property as stated is false of the code."
  },
  {
   "property": "C54",
   "status": "proved",
   "theorems": [
    "TcpInfo.C54_roundtrip",
    "TcpInfo.C54_one_line",
    "TcpInfo.C54_fits",
    "TcpInfo.C54_dispatch",
    "TcpInfo.C54_bad_line",
    "TcpInfo.C54_end_to_end",
    "TcpInfo.C54_failed_client"
   ],
   "note": ""
  },
  {
   "property": "C55",
   "status": "proved",
   "theorems": [
    "TcpInfo.C55_kind_total",
    "TcpInfo.C55_dump",
    "TcpInfo.C55_receive_error",
    "TcpInfo.C55_waits",
    "TcpInfo.C55_setup"
   ],
   "note": ""
  },
  {
   "property": "C56",
   "status": "proved",
   "theorems": [
    "TcpInfo.C56_reps",
    "TcpInfo.C56_until_cancel",
    "TcpInfo.C56_reps_cancel",
    "TcpInfo.C56_forever",
    "TcpInfo.C56_block"
   ],
   "note": ""
  },
  {
   "property": "C57",
   "status": "partial",
   "theorems": [
    "TcpInfo.C57_violated",
    "TcpInfo.C57_violated_always",
    "TcpInfo.C57_reported_partial"
   ],
   "note": "[C57_reported_partial] C57 (partial). A connection that is reported in a block is not closed by that block: the events of that block for it are at most opens. (Missing: a connection of the family whose dump failed is not reported, and `C57_violated`.) [C57_violated] C57 violated: connection 1 is alive in all three polls; the second v4 dump fails; its connection is closed and then opened again. [C57_violated_always] C57 violated, in general (files can be created, cookies are not 0): whenever a dump of one family fails, every connection that was reported by the poll before and is not reported by the other family's dump is closed at once. The *_violated theorems are machine-checked counterexamples: the property as stated is false of the code."
  },
  {
   "property": "C58",
   "status": "partial",
   "theorems": [
    "TcpInfo.C58_exited",
    "TcpInfo.C58_order",
    "TcpInfo.C58_on_disk_partial",
    "TcpInfo.C58_no_deadlock",
    "TcpInfo.C58_terminates",
    "TcpInfo.C58_violated",
    "TcpInfo.C58_exact",
    "TcpInfo.C58_write_error",
    "TcpInfo.C58_violated_always"
   ],
   "note": "[C58_on_disk_partial] C58 (partial: the compressor was started and exits successfully; its failure is logged but not returned, `C58_violated`). In every schedule, when `Close` has returned nil the file has the complete compressed form of exactly the data written before `Close`. [C58_violated] C58 violated: the compressor dies, yet all calls succeed, `Close` included, and the data is lost. [C58_violated_always] C58 violated, in general: whatever has happened to the compressor, the first call of `Close` returns nil if it returns. The *_violated theorems are machine-checked counterexamples: the property as stated is false of the code."
  },
  {
   "property": "C59",
   "status": "partial",
   "theorems": [
    "TcpInfo.C59_pipe_partial",
    "TcpInfo.C59_no_pipe",
    "TcpInfo.C59_violated_file",
    "TcpInfo.C59_violated_create"
   ],
   "note": "[C59_pipe_partial] C59 (partial: the pipe; the file stays open, `C59_violated_file`). After `Close` has returned nil, both ends of the pipe are closed. [C59_violated_file] C59 violated: in every schedule, the descriptor of the output file is never closed (unless a finalizer does it later). [C59_violated_create] C59 violated: if the file cannot be created, both ends of the pipe stay open (unless a finalizer closes them later). The *_violated theorems are machine-checked counterexamples: the property as stated is false of the code."
  },
  {
   "property": "C60",
   "status": "proved",
   "theorems": [
    "TcpInfo.C60_state_names",
    "TcpInfo.C60_state_known",
    "TcpInfo.C60_event_total",
    "TcpInfo.C60_event_names",
    "TcpInfo.C60_port_csv",
    "TcpInfo.C60_port_unique",
    "TcpInfo.C60_interface_csv",
    "TcpInfo.C60_interface_unique",
    "TcpInfo.C60_cookie_csv",
    "TcpInfo.C60_cookie_unique"
   ],
   "note": ""
  },
  {
   "property": "C61",
   "status": "partial",
   "theorems": [
    "TcpInfo.C61_progress_partial",
    "TcpInfo.C61_violated_blocked",
    "TcpInfo.C61_violated"
   ],
   "note": "[C61_progress_partial] C61 (partial: no client stalls). Before shutdown, while the saver has something to emit or events wait in the channel, some step of the server or the saver is possible: emission does not block for ever. [C61_violated_blocked] C61 violated, in general: when the distribution of an event has reached a state in which a stalled client's turn is still to come, then as long as that client neither reads nor goes away: no further event is ever distributed to anybody, and the saver can emit at most as many further events as are free in the channel; then its next `FlowCreated` or `FlowDeleted` blocks, and with it the collection of data. [C61_violated] C61 violated: the state of `C61_violated_blocked` is reached, with another client waiting. The *_violated theorems are machine-checked counterexamples: the property as stated is false of the code."
  },
  {
   "property": "C62",
   "status": "proved",
   "theorems": [
    "TcpInfo.C62_files_load",
    "TcpInfo.C62_input"
   ],
   "note": ""
  },
  {
   "property": "C63",
   "status": "partial",
   "theorems": [
    "TcpInfo.C63_v4",
    "TcpInfo.C63_v6_partial",
    "TcpInfo.C63_same_text",
    "TcpInfo.C63_sockid",
    "TcpInfo.C63_csv_partial",
    "TcpInfo.C63_violated"
   ],
   "note": "[C63_v6_partial] C63 (partial: the missing case are IPv6 addresses whose last 12 bytes are zero, see `C63_violated`). AF_INET6: the text is a text of the address (and of no other, `C13_unambiguous`). [C63_csv_partial] C63. In CSV output, too, an AF_INET address is in dotted decimal form and the text of any other address (partial as above: some non-zero byte among the last 12) reads back as the address. [C63_violated] C63 violated: the IPv6 address 2001:db8:: (zeros in the last 12 bytes; for instance a subnet-router anycast address) has the text of the IPv4 address 32.1.13.184. The *_violated theorems are machine-checked counterexamples: the property as stated is false of the code."
  },
  {
   "property": "C64",
   "status": "partial",
   "theorems": [
    "TcpInfo.C64_cancel_partial",
    "TcpInfo.C64_errors",
    "TcpInfo.C64_too_long",
    "TcpInfo.C64_violated_always",
    "TcpInfo.C64_violated"
   ],
   "note": "[C64_cancel_partial] C64 (partial: what was read ends with a whole line; `C64_violated`). When the context is cancelled, so that the connection is closed, after any number of complete lines from the server, the handler has been called for these events and `MustRun` returns. [C64_violated_always] C64 violated, in general: if part of a line (any part that is neither empty nor complete) has been read when the connection is closed because the context is cancelled, that part is decoded as if it were a line, and the process ends. The same when the stream ends there. [C64_violated] C64 violated: the connection is closed, because the context is cancelled, in the middle of the line of a close event. The *_violated theorems are machine-checked counterexamples: the property as stated is false of the code."
  },
  {
   "property": "C65",
   "status": "partial",
   "theorems": [
    "TcpInfo.C65_exact",
    "TcpInfo.C65_connections_partial",
    "TcpInfo.C65_closing_partial",
    "TcpInfo.C65_violated_create",
    "TcpInfo.C65_violated_closing"
   ],
   "note": "[C65_connections_partial] C65 (partial: files can be created, see `C65_violated_create`, and cookies are not 0). After every block, the connections in the saver's map are exactly those reported in that block. [C65_closing_partial] C65 (partial: no connection regains its tcp_info after losing it, see `C65_violated_closing`). After every block, the saver remembers closing statistics only of connections that were reported in that block, the last time without tcp_info. [C65_violated_create] C65 violated: a connection whose file could not be created is never forgotten: it is in the saver's map after any number of further blocks that do not report it. [C65_violated_closing] C65 violated: the closing statistics of a connection that lost its tcp_info and regained it are never forgotten (and count for ever). The *_violated theorems are machine-checked counterexamples: the property as stated is false of the code."
  },
  {
   "property": "C66",
   "status": "partial",
   "theorems": [
    "TcpInfo.C66_exact",
    "TcpInfo.C66_subscriber",
    "TcpInfo.C66_events_partial",
    "TcpInfo.C66_close_time",
    "TcpInfo.C66_subscriber_partial"
   ],
   "note": "[C66_events_partial] C66 (partial: files can be created and no cookie is 0; otherwise see C33). The saver's events about connection `k`: it is announced at its first report, with that report's time, ports, cookie and addresses, and closed after the first block without it, or at the end. [C66_subscriber_partial] C66 (partial: files can be created and no cookie is 0, otherwise see `C66_subscriber` and C33; times in the years 0 to 9999). From end to end: what the handler of a client, connected before the first event and not cut off, has been told about each connection `k`, at any time, under any schedule of the server, is an initial part of `NotesOfRun`, and all of it when the server has distributed everything; and the client never fails."
  },
  {
   "property": "C67",
   "status": "partial",
   "theorems": [
    "TcpInfo.C67_exact",
    "TcpInfo.C67_flags_partial",
    "TcpInfo.C67_order",
    "TcpInfo.C67_output_partial",
    "TcpInfo.C67_violated_high_port",
    "TcpInfo.C67_violated_negative"
   ],
   "note": "[C67_flags_partial] C67 (partial: listed ports are below 32768 or no port numbers, see `C67_violated_high_port` and `C67_violated_negative`). With the flags `-exclude-dstip` and `-exclude-srcport`, exactly the messages about unwanted connections are left out; flags that cannot be converted have no effect on the others. [C67_output_partial] C67 (partial, as above), for the whole run of the saver: no record of an unwanted connection is written to any file, and a connection all of whose messages are unwanted has no file and no event. [C67_violated_high_port] C67 violated: `-exclude-srcport=p` has no effect for any valid port `p` from 32768 on, whatever the other flags are. [C67_violated_negative] C67 violated: `-exclude-srcport=-1` is no port number but leaves out the connections from port 65535. The *_violated theorems are machine-checked counterexamples: the property as stated is false of the code."
  },
  {
   "property": "C68",
   "status": "partial",
   "theorems": [
    "TcpInfo.C68_increments",
    "TcpInfo.C68_each",
    "TcpInfo.C68_same_partial",
    "TcpInfo.C68_violated"
   ],
   "note": "[C68_same_partial] C68 (partial: see `C68_violated`). The number of unchanged connections logged is negative by at most the number of reports the saver handled during the call; if it handled none it is not negative, and the four numbers logged belong together. [C68_violated] C68 violated: the first call of `LogCacheStats` (iteration 0) while the first block is handled: it has read the total (0) when the first connection is counted; it logs -1 unchanged connections. The *_violated theorems are machine-checked counterexamples: the property as stated is false of the code."
  },
  {
   "property": "C69",
   "status": "partial",
   "theorems": [
    "TcpInfo.C69_summary_partial",
    "TcpInfo.C69_exact",
    "TcpInfo.C69_calls",
    "TcpInfo.C69_violated_results",
    "TcpInfo.C69_violated_summary"
   ],
   "note": "[C69_summary_partial] C69 (partial: only the summary line, and only if no dump failed; `C69_violated_*`). The number of sockets in the summary line is the number of messages submitted to the saver, and the average is that by the number of polls. [C69_violated_results] C69 violated: whatever happens, `Run` returns (0, 0), and passes (0, 0) to `LogCacheStats`: errors are never counted. [C69_violated_summary] C69 violated: the messages of a dump that failed in the middle are counted in the summary, although none of them is submitted. The *_violated theorems are machine-checked counterexamples: the property as stated is false of the code."
  },
  {
   "property": "C70",
   "status": "proved",
   "theorems": [
    "TcpInfo.C70_prefix",
    "TcpInfo.C70_eof",
    "TcpInfo.C70_progress",
    "TcpInfo.C70_terminates",
    "TcpInfo.C70_released"
   ],
   "note": ""
  },
  {
   "property": "C71",
   "status": "partial",
   "theorems": [
    "TcpInfo.C71_harmless_partial",
    "TcpInfo.C71_violated_always",
    "TcpInfo.C71_violated"
   ],
   "note": "[C71_harmless_partial] C71 (partial: the user has read to the end; `C71_violated`). The reader never ends the process. [C71_violated_always] C71 violated, in general: once the reader is closed while the decompressor has more to write, the process will be ended, in every schedule: all steps that are possible lead to `log.Fatal`, after a bounded number of steps. [C71_violated] C71 violated: a user that reads the first two of four bytes and closes the reader is ended by `log.Fatal`, although the file is good. The *_violated theorems are machine-checked counterexamples: the property as stated is false of the code."
  },
  {
   "property": "C72",
   "status": "proved",
   "theorems": [
    "TcpInfo.C72_never_blocks",
    "TcpInfo.C72_logged",
    "TcpInfo.C72_processed"
   ],
   "note": ""
  },
  {
   "property": "C73",
   "status": "proved",
   "theorems": [
    "TcpInfo.C73_returns",
    "TcpInfo.C73_can_return",
    "TcpInfo.C73_complete"
   ],
   "note": ""
  },
  {
   "property": "C74",
   "status": "proved",
   "theorems": [
    "TcpInfo.C74_archive",
    "TcpInfo.C74_killed"
   ],
   "note": ""
  },
  {
   "property": "C75",
   "status": "proved",
   "theorems": [
    "TcpInfo.C75_bounded",
    "TcpInfo.C75_delay"
   ],
   "note": ""
  },
  {
   "property": "C76",
   "status": "proved",
   "theorems": [
    "TcpInfo.C76_table",
    "TcpInfo.C76_row_independent"
   ],
   "note": ""
  },
  {
   "property": "C77",
   "status": "partial",
   "theorems": [
    "TcpInfo.C77_kernel_partial",
    "TcpInfo.C77_diag_partial",
    "TcpInfo.C77_other",
    "TcpInfo.C77_exact_partial",
    "TcpInfo.C77_violated_sign",
    "TcpInfo.C77_violated_duplicate"
   ],
   "note": "[C77_kernel_partial] C77 (partial: `kernelColumns` lacks the fields whose column has a wrong name, see `C77_violated_duplicate`; signed columns are wrong for large values, see `C77_violated_sign`). For each of the 76 columns: it occurs exactly once in the header, and the cell is the decimal text of the kernel's field in the attribute of the record, empty if the record does not have the attribute. [C77_diag_partial] C77 (partial: without the interface index, whose bytes are reversed, see `C02_violated_interface`). The cells for the kernel's inet_diag_msg `m` (the first 72 bytes of the record's raw message): numbers in decimal, the cookie in hexadecimal, the addresses as `C63_csv_partial` says. [C77_exact_partial] C77. Exactly the number the kernel gave, unless its column is signed and the highest bit set. [C77_violated_sign] C77 violated: the number of segments sent is an unsigned 32-bit number in the kernel; from 2^31 on the table shows it as negative. (The same for the other columns with `signed`; those of 64 bits do not get that large in practice.) [C77_violated_duplicate] C77 violated: two columns are called TCP.LastDataRecv (the second one is the kernel's tcpi_last_ack_recv), no column TCP.LastAckRecv; the size of the send buffer is in a column SKMemInfo.Sndbug. The *_violated theorems are machine-checked counterexamples: the property as stated is false of the code."
  },
  {
   "property": "C78",
   "status": "proved",
   "theorems": [
    "TcpInfo.C78_absent",
    "TcpInfo.C78_observed"
   ],
   "note": ""
  },
  {
   "property": "C79",
   "status": "partial",
   "theorems": [
    "TcpInfo.C79_observation_partial",
    "TcpInfo.C79_violated_header"
   ],
   "note": "[C79_observation_partial] C79 (partial: see `C79_violated_header`). The rows that are observations of a connection are recognizable: their cells of the inet_diag header are not empty. [C79_violated_header] C79 violated: the header record of a file (metadata, the zero time, no message) becomes a row like any other, dated 29 May 2009, without any value. The *_violated theorems are machine-checked counterexamples: the property as stated is false of the code."
  },
  {
   "property": "C80",
   "status": "partial",
   "theorems": [
    "TcpInfo.C80_converts",
    "TcpInfo.C80_archive",
    "TcpInfo.C80_violated"
   ],
   "note": "[C80_violated] C80 violated: one record with an empty congestion algorithm attribute, and csvtool crashes; the other records of the file are not converted either. The *_violated theorems are machine-checked counterexamples: the property as stated is false of the code."
  },
  {
   "property": "C81",
   "status": "partial",
   "theorems": [
    "TcpInfo.C81_counted",
    "TcpInfo.C81_due",
    "TcpInfo.C81_saved_partial",
    "TcpInfo.C81_violated"
   ],
   "note": "[C81_saved_partial] C81 (partial). When all files can be created and no cookie is zero, tcpinfo_snapshot_total is the number of records handed to the files. Missing: the other runs, see `C81_violated`. [C81_violated] C81 violated: when no file can be created, or the cookie is zero, a snapshot is counted although nothing is saved. The *_violated theorems are machine-checked counterexamples: the property as stated is false of the code."
  },
  {
   "property": "C82",
   "status": "partial",
   "theorems": [
    "TcpInfo.C82_files",
    "TcpInfo.C82_open_partial",
    "TcpInfo.C82_violated"
   ],
   "note": "[C82_open_partial] C82 (partial). In every run, the \"open\" flow events counted are the open events emitted to the event server, or none without one. Missing: the close events, see `C82_violated`. [C82_violated] C82 violated: in no run is any flow event counted other than \"open\", although close events are emitted. The *_violated theorems are machine-checked counterexamples: the property as stated is false of the code."
  },
  {
   "property": "C83",
   "status": "proved",
   "theorems": [
    "TcpInfo.C83_which",
    "TcpInfo.C83_tidy_total",
    "TcpInfo.C83_rates",
    "TcpInfo.C83_each_second",
    "TcpInfo.C83_which_tidy",
    "TcpInfo.C83_cache",
    "TcpInfo.C83_run"
   ],
   "note": ""
  },
  {
   "property": "C84",
   "status": "partial",
   "theorems": [
    "TcpInfo.C84_count",
    "TcpInfo.C84_waiting",
    "TcpInfo.C84_errors_partial",
    "TcpInfo.C84_exact",
    "TcpInfo.C84_violated"
   ],
   "note": "[C84_errors_partial] C84 (partial). If the socket works, a wrong sequence number or a wrong pid is counted exactly when the dump fails because of it, and netlink errors are counted once for each error message that is returned. Missing: errors of the socket and messages that are too short, see `C84_violated`. [C84_violated] C84 violated: if `Receive` fails, no error is counted, and the number of connections exported is that of messages which were dropped; if an error message is too short or the socket cannot be set up, no error is counted either. The *_violated theorems are machine-checked counterexamples: the property as stated is false of the code."
  },
  {
   "property": "C85",
   "status": "partial",
   "theorems": [
    "TcpInfo.C85_counted_partial",
    "TcpInfo.C85_exact",
    "TcpInfo.C85_only",
    "TcpInfo.C85_violated"
   ],
   "note": "[C85_counted_partial] C85 (partial). For every record that is decoded, an attribute that is present and cannot be decoded completely is counted exactly once, under its own label, and one that is absent or completely decoded is not counted. Missing: the attributes of one byte, the mark and MD5 signatures, see `C85_violated`; BBR infos of 21 to 24 bytes. [C85_violated] C85 violated: an MD5 signature, a mark of two bytes and an empty TOS are flagged as not fully parsed but not counted. The *_violated theorems are machine-checked counterexamples: the property as stated is false of the code."
  },
  {
   "property": "C86",
   "status": "partial",
   "theorems": [
    "TcpInfo.C86_polled_partial",
    "TcpInfo.C86_latest_partial",
    "TcpInfo.C86_counters_partial",
    "TcpInfo.C86_violated",
    "TcpInfo.C86_archive_partial"
   ],
   "note": "[C86_polled_partial] C86 (partial as `C86_archive_partial`), with the blocks that the collector has made: as long as nobody sets the clock back and the clock has advanced between polls, every poll whose block the saver has taken can be looked up in the archive. That the blocks are in the order of time need not be assumed. [C86_latest_partial] C86 (partial: files can be created, no cookie is 0, every tcp_info reaches to `tcpi_busy_time`; the counters behind that are not among what agrees, see `C86_violated`). After a run with a clock that advances from poll to poll: for every poll, and every connection reported in it, the last record that was saved for the connection up to the time of the report agrees with the report. [C86_counters_partial] C86 (partial, as above), for the counters: bytes acknowledged and received, segments in and out, retransmissions, ... at the time of any poll can be read off the archive. [C86_archive_partial] C86 (partial as `C86_latest_partial`), for the whole system: `main` has returned after the polls. For every poll and every connection (IPv4 or IPv6) with a tcp_info reported in it, there are a file and a time such that, in whatever has been loaded from that file, there is a record of the connection with that time, TCP state and counters as reported; the time is not after the report, and no record of the connection that lies between the two is found in any loaded file. [C86_violated] C86 violated: the bytes sent at the last poll (9) are not in the archive, in which the connection has sent 2 bytes at that time and for ever. The *_violated theorems are machine-checked counterexamples: the property as stated is false of the code."
  },
  {
   "property": "C87",
   "status": "proved",
   "theorems": [
    "TcpInfo.C87_value",
    "TcpInfo.C87_reread",
    "TcpInfo.C87_isolated",
    "TcpInfo.C87_anonymized",
    "TcpInfo.C87_view",
    "TcpInfo.C87_room"
   ],
   "note": ""
  },
  {
   "property": "C88",
   "status": "proved",
   "theorems": [
    "TcpInfo.C88_roundtrip",
    "TcpInfo.C88_sound"
   ],
   "note": ""
  },
  {
   "property": "C89",
   "status": "proved",
   "theorems": [
    "TcpInfo.C89_no_crash",
    "TcpInfo.C89_parts"
   ],
   "note": ""
  },
  {
   "property": "C90",
   "status": "partial",
   "theorems": [
    "TcpInfo.C90_received_partial",
    "TcpInfo.C90_violated",
    "TcpInfo.C90_violated_most"
   ],
   "note": "[C90_received_partial] C90 (partial: up to 101 events can be missing; `C90_violated`). When `main` has returned, the saver has emitted all its events; a client that was added when `k` events had been distributed and to which no write has failed has received, in order and complete, the lines of all further events, except for the last ones, at most 101. [C90_violated] C90 violated: `main` does not wait for the event server. Two connections, four events, a client that was connected from the start and reads: when `main` returns it has received none of them. [C90_violated_most] C90 violated as far as `C90_received_partial` allows, so that its bound cannot be improved: of 102 events, the client has received the first when `main` returns, and 101 are missing: a hundred in the channel and one about to be written. The *_violated theorems are machine-checked counterexamples: the property as stated is false of the code."
  },
  {
   "property": "C91",
   "status": "partial",
   "theorems": [
    "TcpInfo.C91_can_return_partial",
    "TcpInfo.C91_violated_hangs",
    "TcpInfo.C91_fits_partial",
    "TcpInfo.C91_exact",
    "TcpInfo.C91_few_partial",
    "TcpInfo.C91_violated"
   ],
   "note": "[C91_can_return_partial] C91 (partial: no client stalls; `C91_violated`). Whatever the clients do otherwise (connect, read, fail), under every schedule: the process does not crash, and from every state that can be reached `main` can still return. [C91_fits_partial] C91 (partial: as many events as the channel has room for). If the events still to come fit into the server's channel, `main` can return, whatever the clients do or do not do: without a single step of the server or of a client. [C91_few_partial] C91 (partial): with at most a hundred events in the whole run, no client can stop the collection. [C91_violated_hangs] C91 violated, in general: once the distribution of an event has reached a client that does not read, and more events are to come than fit into the channel, then as long as this client neither reads nor goes away `main` does not return, under any schedule, and nobody receives a further event. (By C73 the collector, the saver and the marshallers can make a finite number of steps only, so the whole process stands still.) [C91_violated] C91 violated: sixty connections and one client that does not read. After nine steps the situation of `C91_violated_hangs` is there: whatever happens then, `main` never returns, unless that client goes away. The *_violated theorems are machine-checked counterexamples: the property as stated is false of the code."
  },
  {
   "property": "C92",
   "status": "proved",
   "theorems": [
    "TcpInfo.C92_directory",
    "TcpInfo.C92_files",
    "TcpInfo.C92_date",
    "TcpInfo.C92_name",
    "TcpInfo.C92_unambiguous"
   ],
   "note": ""
  },
  {
   "property": "C93",
   "status": "proved",
   "theorems": [
    "TcpInfo.C93_suffix",
    "TcpInfo.C93_saved",
    "TcpInfo.C93_same",
    "TcpInfo.C93_damaged",
    "TcpInfo.C93_can_end",
    "TcpInfo.C93_damaged_long",
    "TcpInfo.C93_arguments"
   ],
   "note": ""
  },
  {
   "property": "C94",
   "status": "proved",
   "theorems": [
    "TcpInfo.C94_rate",
    "TcpInfo.C94_window",
    "TcpInfo.C94_ticks",
    "TcpInfo.C94_reps",
    "TcpInfo.C94_cancel",
    "TcpInfo.C94_not_stuck",
    "TcpInfo.C94_histogram"
   ],
   "note": ""
  },
  {
   "property": "C95",
   "status": "partial",
   "theorems": [
    "TcpInfo.C95_start",
    "TcpInfo.C95_error",
    "TcpInfo.C95_violated",
    "TcpInfo.C95_reached_partial",
    "TcpInfo.C95_exact"
   ],
   "note": "[C95_reached_partial] C95 (partial: one server at a time; `C95_violated`). Whatever the history of starts, orderly ends and crashes: while a server is running, clients reach it; when none is, they get an error. [C95_violated] C95 violated: a server is started while another one with the same file name is still running, for instance by a restart. When the old one ends in order, closing its listener removes the file of the new one: the new one goes on running, but no client can reach it. The *_violated theorems are machine-checked counterexamples: the property as stated is false of the code."
  },
  {
   "property": "C96",
   "status": "partial",
   "theorems": [
    "TcpInfo.C96_violated_never",
    "TcpInfo.C96_violated",
    "TcpInfo.C96_fatal_partial"
   ],
   "note": "[C96_fatal_partial] C96 (partial: not when the stream ends in order, `C96_violated`). If the connection fails or a line cannot be decoded, the process ends, and only then: it ends in no other way, and under every schedule the handler has been called for every line before. [C96_violated_never] C96 violated, in general: if the stream from tcp-info ends in order (the server has gone away), the example client does not end, under any schedule. It goes on without a connection and without a message. [C96_violated] C96 violated: tcp-info has ended after one event. `MustRun` has returned, nothing but waiting is left to do, the program has not ended. The *_violated theorems are machine-checked counterexamples: the property as stated is false of the code."
  },
  {
   "property": "C97",
   "status": "partial",
   "theorems": [
    "TcpInfo.C97_tests_only",
    "TcpInfo.C97_set",
    "TcpInfo.C97_too_short",
    "TcpInfo.C97_stats",
    "TcpInfo.C97_violated_mid"
   ],
   "note": "[C97_violated_mid] C97 violated between the lengths: with 136 to 207 bytes of tcp_info the received counter can be set, but `GetStats` still returns zeros. The *_violated theorems are machine-checked counterexamples: the property as stated is false of the code."
  },
  {
   "property": "C98",
   "status": "partial",
   "theorems": [
    "TcpInfo.C98_started_iff",
    "TcpInfo.C98_order",
    "TcpInfo.C98_failure",
    "TcpInfo.C98_files",
    "TcpInfo.C98_places",
    "TcpInfo.C98_client",
    "TcpInfo.C98_violated_relative_socket"
   ],
   "note": "[C98_violated_relative_socket] C98 violated for relative socket names with `-output`: server and client, both started in /home/u with the same socket name, use different files. The *_violated theorems are machine-checked counterexamples: the property as stated is false of the code."
  },
  {
   "property": "C99",
   "status": "partial",
   "theorems": [
    "TcpInfo.C99_sum",
    "TcpInfo.C99_buckets",
    "TcpInfo.C99_registered",
    "TcpInfo.C99_rates_partial",
    "TcpInfo.C99_cache",
    "TcpInfo.C99_connections",
    "TcpInfo.C99_violated_stuck"
   ],
   "note": "[C99_rates_partial] C99 (partial: the sum is exact up to 2^56 bits only, see `C99_violated_stuck`). In every run, the histogram of rates scraped for a direction: each bucket has the number of the observations (C45 to C47, C83) that are, in bits, up to its bound; the count is their number; and the sum, up to 2^56 bits (9 petabytes), is exactly eight times the bytes observed. [C99_violated_stuck] C99 violated: once the sum has reached 2^56 bits, rates of 8 bits (or 1 byte) per second no longer change it, however many are observed. The *_violated theorems are machine-checked counterexamples: the property as stated is false of the code."
  },
  {
   "property": "C100",
   "status": "proved",
   "theorems": [
    "TcpInfo.C100_on_disk",
    "TcpInfo.C100_archive"
   ],
   "note": ""
  },
  {
   "property": "C101",
   "status": "proved",
   "theorems": [
    "TcpInfo.C101_finite",
    "TcpInfo.C101_no_deadlock",
    "TcpInfo.C101_can_return"
   ],
   "note": ""
  },
  {
   "property": "C102",
   "status": "partial",
   "theorems": [
    "TcpInfo.C102_others_partial",
    "TcpInfo.C102_hangs",
    "TcpInfo.C102_violated"
   ],
   "note": "[C102_others_partial] C102 (partial: while fewer than 100 tasks wait behind it, see `C102_violated`). The call in which marshaller `i` is does not return, whatever the reason (a compressor that is slow, hangs or is stopped): the schedule has gone on until nothing else can move. Then, if the queue of this marshaller is not full, all polls have been processed and the files of all other marshallers are complete on disk (or their own compressors failed). [C102_violated] C102 violated: with one marshaller, the compressor of the file of the first connection hangs when the file is closed. Then, in every continuation in which it goes on hanging, `main` does not return and the file of the last of the 120 connections of the next poll (writer 121, which the complete run opens, writes and closes) is never even created. The *_violated theorems are machine-checked counterexamples: the property as stated is false of the code."
  },
  {
   "property": "C103",
   "status": "partial",
   "theorems": [
    "TcpInfo.C103_left_partial",
    "TcpInfo.C103_ends",
    "TcpInfo.C103_archive_partial",
    "TcpInfo.C103_unstarted",
    "TcpInfo.C103_violated"
   ],
   "note": "[C103_left_partial] C103 (partial: the compressor had been started, see `C103_violated`; it follows from its ending well). The command is killed at any moment of any schedule. Every compressor that ends without failing has then put on disk at least everything the command had written to the file in calls that had returned, and only a tail is missing from what the complete run would have written. [C103_archive_partial] C103 (partial, as above). Read back: such a file is decompressed and loaded; the records are those of the complete run in order, a tail missing. Records whose text and newline had been written when the command was killed are not in that tail. If there is an error it is that the last line is cut off. [C103_violated] C103 fails: header and first record of the second file had been written, with their newlines and without any error, when the command was killed. The compressor had not been started; nothing reaches the disk, whatever happens. The *_violated theorems are machine-checked counterexamples: the property as stated is false of the code."
  },
  {
   "property": "C104",
   "status": "partial",
   "theorems": [
    "TcpInfo.C104_log",
    "TcpInfo.C104_files",
    "TcpInfo.C104_return",
    "TcpInfo.C104_records",
    "TcpInfo.C104_records_violated"
   ],
   "note": "[C104_records_violated] C104 violated for records: the saver reads a record kept from the previous cycle (to compare it with the new one) and a marshaller overwrites the addresses of the same record, and neither happens before the other. The *_violated theorems are machine-checked counterexamples: the property as stated is false of the code."
  },
  {
   "property": "C105",
   "status": "partial",
   "theorems": [
    "TcpInfo.C105_recorded_partial",
    "TcpInfo.C105_violated",
    "TcpInfo.C105_rates_partial"
   ],
   "note": "[C105_recorded_partial] C105 (partial: without the exported rates, see `C105_violated`). Two runs of the saver get the same replies of the kernel, at the same moments of the monotonic clock. Their wall clocks show whatever they like: the polls carry other times, and every reading gives another time and date. Then both do the same things in the same order at the same moments: they announce and end the same connections, create the same files with the same numbers and metadata, put the same records into the same files and close them; or both panic. Only the times in the records, metadata lines and events, and the date directories, differ. [C105_rates_partial] C105 (partial: for polls that both clocks let begin a new second, or neither; see `C105_violated`). Two runs as in `C105_recorded_partial`, and the wall clocks, whatever they show, agree on which polls begin a new second, later than all before. Then the same rates are exported in both. [C105_violated] C105 violated for the exported rates: one is exported for each second, but none any more after the clock has been set back by two days. The *_violated theorems are machine-checked counterexamples: the property as stated is false of the code."
  },
  {
   "property": "C106",
   "status": "partial",
   "theorems": [
    "TcpInfo.C106_depends",
    "TcpInfo.C106_programs",
    "TcpInfo.C106_kept_partial",
    "TcpInfo.C106_message",
    "TcpInfo.C106_violated"
   ],
   "note": "[C106_kept_partial] C106, partial: for records whose tcp_info, if there is one, has at least the 168 bytes that `Compare` assumes. Of a record it has kept (`p`), and of a new one when comparing (`pm`), the saver reads no byte that a marshaller stores when anonymizing any record (`q`), be it one of these two, whatever memory contains at any of these moments. [C106_violated] C106 violated: with a tcp_info of 100 bytes, as old kernels send it, `Compare` reads on behind it, and there is the header of the next message of the datagram, whose addresses a marshaller may be overwriting at that time. The *_violated theorems are machine-checked counterexamples: the property as stated is false of the code."
  },
  {
   "property": "C107",
   "status": "partial",
   "theorems": [
    "TcpInfo.C107_polls",
    "TcpInfo.C107_block",
    "TcpInfo.C107_channel",
    "TcpInfo.C107_ticks",
    "TcpInfo.C107_not_stuck",
    "TcpInfo.C107_latency",
    "TcpInfo.C107_increasing_partial",
    "TcpInfo.C107_later_partial",
    "TcpInfo.C107_rate_partial",
    "TcpInfo.C107_recorded",
    "TcpInfo.C107_violated"
   ],
   "note": "[C107_increasing_partial] C107 (partial: as long as nobody sets the clock back, see `C107_violated`). The times of the records increase from family to family and from poll to poll. [C107_later_partial] C107 (partial, as above). So two different polls have different times (`Later`, as C86 takes for granted) if only the clock has advanced between them. [C107_rate_partial] C107 (partial, as above). Block number `k` (from 0) does not have times before `k` times 10 ms after the start. [C107_violated] C107 violated when the clock is set back by two days between two polls: the second record of each connection is earlier than the first. The *_violated theorems are machine-checked counterexamples: the property as stated is false of the code."
  },
  {
   "property": "C108",
   "status": "partial",
   "theorems": [
    "TcpInfo.C108_growing",
    "TcpInfo.C108_path_partial",
    "TcpInfo.C108_once_partial",
    "TcpInfo.C108_overwritten",
    "TcpInfo.C108_violated",
    "TcpInfo.C108_violated_mixed"
   ],
   "note": "[C108_path_partial] C108 (partial: no other file of this run has the same path, see `C108_violated`, `C108_overwritten`). `main` has returned, under any schedule. Under the path of every file that was created is a file that, unless the compressor failed, decompresses to the header line and all records queued for it, in order, anonymized. [C108_once_partial] C108 (partial: for connections that are announced once; one that is missing from a poll and comes back is announced twice). All files of such a connection are found under their paths, complete unless their compressor failed. [C108_violated] C108 violated: a connection is missing in one poll and comes back. No compressor fails, `main` returns; what was recorded of the connection before is under no path. [C108_violated_mixed] C108 violated further: if the first compressor is still writing when the file is created again, neither text is under any path: the file is a mixture. The *_violated theorems are machine-checked counterexamples: the property as stated is false of the code."
  },
  {
   "property": "C109",
   "status": "partial",
   "theorems": [
    "TcpInfo.C109_kept",
    "TcpInfo.C109_ended_partial",
    "TcpInfo.C109_violated_restart",
    "TcpInfo.C109_violated"
   ],
   "note": "[C109_ended_partial] C109 (partial: connections that are gone when the command is started again; see `C109_violated`). The files of connection `k` from earlier runs, whatever their directories and numbers, are as they were if `k` is not reported any more. [C109_violated_restart] C109 violated, in general: the command is started again (on the same host since it was booted: the same UUIDs), and a connection is still there whose start in the second run falls on the same day as its start in the first run. Then its first file has the same path in both runs, and when the second run has ended nothing of the first run is left in it: it holds the records of the second run only, or what its failing compressor left. [C109_violated] C109 violated: the command is stopped and started again an hour later. The first run ended well and its file held what was recorded. After the second run, which ended well too, that is under no path any more. The *_violated theorems are machine-checked counterexamples: the property as stated is false of the code."
  },
  {
   "property": "C110",
   "status": "proved",
   "theorems": [
    "TcpInfo.C110_next",
    "TcpInfo.C110_load_all",
    "TcpInfo.C110_independent"
   ],
   "note": ""
  },
  {
   "property": "C111",
   "status": "partial",
   "theorems": [
    "TcpInfo.C111_value",
    "TcpInfo.C111_later",
    "TcpInfo.C111_kept_partial",
    "TcpInfo.C111_anonymized",
    "TcpInfo.C111_violated"
   ],
   "note": "[C111_kept_partial] C111. As long as nobody writes to the record, the snapshot has the value that `Decode` returned. Missing: that it has this value whatever is written to the record (`C111_violated`). [C111_violated] C111 is false in general: the address in a snapshot changes when the record that it was decoded from is anonymized. The *_violated theorems are machine-checked counterexamples: the property as stated is false of the code."
  },
  {
   "property": "C112",
   "status": "partial",
   "theorems": [
    "TcpInfo.C112_options_partial",
    "TcpInfo.C112_every",
    "TcpInfo.C112_refused",
    "TcpInfo.C112_number",
    "TcpInfo.C112_literal",
    "TcpInfo.C112_numbers",
    "TcpInfo.C112_switch",
    "TcpInfo.C112_switches",
    "TcpInfo.C112_excluded",
    "TcpInfo.C112_violated",
    "TcpInfo.C112_violated_bool"
   ],
   "note": "[C112_options_partial] C112 (partial: the options stand in front, see `C112_violated`). If the command line consists of valid options, in any order, number and spelling, then the program starts with the settings they stand for: the last value of an option counts, all values of the two lists; what is not given comes from the environment, otherwise it has its default. Missing: options behind an argument that is no option. [C112_violated] C112 violated: an argument that is no option makes all options behind it ineffective, whatever they are, and the program starts without a word. [C112_violated_bool] C112 violated: `tcp-info -trace false -exclude-srcport 80` traces, and excludes no port; the flags written `-trace=false` do what they say. The *_violated theorems are machine-checked counterexamples: the property as stated is false of the code."
  },
  {
   "property": "C113",
   "status": "partial",
   "theorems": [
    "TcpInfo.C113_as_option_partial",
    "TcpInfo.C113_only",
    "TcpInfo.C113_violated",
    "TcpInfo.C113_violated_values",
    "TcpInfo.C113_client"
   ],
   "note": "[C113_as_option_partial] C113 (partial: the value is one that the option accepts, see `C113_violated`). A variable of the environment counts as the option it stands for would, if that option is not on the command line. Missing: values that are not accepted. [C113_violated] C113 violated: for a value of `REPS` that is no number the program starts as if nothing had been said, and polls without end; on the command line the same value ends the program. For all such values and all command lines of valid options without `-reps`. [C113_violated_values] C113 violated: `TRACE=yes` is not understood, and there is no trace; `REPS=1e3` polls without end. The *_violated theorems are machine-checked counterexamples: the property as stated is false of the code."
  },
  {
   "property": "C114",
   "status": "proved",
   "theorems": [
    "TcpInfo.C114_registered",
    "TcpInfo.C114_dumps",
    "TcpInfo.C114_labels",
    "TcpInfo.C114_intervals"
   ],
   "note": ""
  },
  {
   "property": "C115",
   "status": "partial",
   "theorems": [
    "TcpInfo.C115_in_use_partial",
    "TcpInfo.C115_returned",
    "TcpInfo.C115_bound_partial",
    "TcpInfo.C115_violated_files",
    "TcpInfo.C115_violated"
   ],
   "note": "[C115_in_use_partial] C115 (partial: pipes and processes; the descriptors of the files themselves stay, `C115_violated`). At any moment of any schedule: if an end of the pipe of an output file is open, or its compressor is running, then a connection that the saver knows has this file, or the saver is about to queue the task to close it, or a marshaller has that task. [C115_bound_partial] C115 (partial as `C115_in_use_partial`; files can be created, cookies are not 0). At any moment at which the saver has carried out everything for the polls it has received, the last of which is `b`: there are never more compressors running, and never more files with an open pipe, than connections in poll `b` and 101 for each marshaller, under any schedule and whatever the compressors do. (`ws`: any of the files in use.) [C115_violated_files] C115 violated, in general: at any moment of any schedule the descriptors of all output files that have been created are open, also of those that have been closed long ago, unless a finalizer has closed them (the model has no garbage collector). [C115_violated] C115 violated: the connection of the second file is gone in the last poll; compressors and pipes are released, the file is still open when everything is over. The *_violated theorems are machine-checked counterexamples: the property as stated is false of the code."
  },
  {
   "property": "C116",
   "status": "partial",
   "theorems": [
    "TcpInfo.C116_start_partial",
    "TcpInfo.C116_end_partial",
    "TcpInfo.C116_violated_start",
    "TcpInfo.C116_violated_end",
    "TcpInfo.C116_not_before"
   ],
   "note": "[C116_start_partial] C116 (partial: the order of what the saver does; nothing of this has happened yet when the event is sent, `C116_violated_start`, `C116_violated_end`). If files can be created: right after a connection is announced its first file is created, in the directory of the announced time. [C116_end_partial] C116 (partial as `C116_start_partial`). Right after the end of a connection is announced the task to close its file is queued, if it has an open file; whatever fails. [C116_violated_start] C116 violated, in general (files can be created). Under every schedule, when the saver announces a connection, its first file has not been created, neither before nor after the event is sent. [C116_violated_end] C116 violated, in general. Under every schedule, when the saver announces the end of a connection, its open file (created, and the task to close it not queued) is not complete, neither before nor after the event is sent: its pipe is open and the compressor has not finished. The *_violated theorems are machine-checked counterexamples: the property as stated is false of the code."
  },
  {
   "property": "C117",
   "status": "partial",
   "theorems": [
    "TcpInfo.C117_saved_partial",
    "TcpInfo.C117_events_partial",
    "TcpInfo.C117_order_partial",
    "TcpInfo.C117_violated"
   ],
   "note": "[C117_saved_partial] C117 (partial: files can be created, no cookie is 0, and neither process crashes; see `C117_violated`). Two daemons with different clocks, numbers of marshallers and other settings are given different polls; but poll by poll the reports of connection `k` are the same. Then the records of `k` queued for writing are the same, in the same order, whatever other connections there are. [C117_events_partial] C117 (partial, as above). And it is announced and declared closed as often, in the same order, and each time it is announced with the same time. [C117_order_partial] C117 (partial, as above). The order in which the kernel lists the connections of a poll, and whether it does so in its answer for IPv4 or for IPv6, plays no part: if poll by poll the same reports come in different orders, and `k` is reported at most once by each poll, then its records are the same. [C117_violated] C117 violated: the reports of connection 1 are the same, but a report of connection 3 that cannot be parsed takes the whole process down, so that of connection 1 nothing more is recorded. The *_violated theorems are machine-checked counterexamples: the property as stated is false of the code."
  },
  {
   "property": "C118",
   "status": "partial",
   "theorems": [
    "TcpInfo.C118_added_partial",
    "TcpInfo.C118_absent_partial",
    "TcpInfo.C118_idle_partial",
    "TcpInfo.C118_violated_twice",
    "TcpInfo.C118_violated_noinfo"
   ],
   "note": "[C118_added_partial] C118 (partial: the claim fails for connections reported several times by a poll, `C118_violated_twice`, and without tcp_info, `C118_violated_noinfo`; files can be created, no cookie is 0). One more poll `b`, which reports connection `k` as `r` and perhaps again (`more`): if the poll before did not report `k`, or if `r` does not say the same as the last record of `k` in the archive, then `r` is added to the archive, otherwise not; `more` is added in any case. So the decision can be read off the archive, although the saver compares with the last report. [C118_absent_partial] C118 (partial, as above). A poll that does not report `k` adds no record of it. [C118_idle_partial] C118 (partial, as above). However long a connection that does nothing is observed, it is recorded once: if every poll from its first one on reports it once, with tcp_info and without significant change, then its first report is its only record. [C118_violated_twice] C118 violated: a connection that a dump reports twice in the same way (which happens when the kernel's table changes during the dump) is recorded twice. [C118_violated_noinfo] C118 violated: a connection without tcp_info is recorded again at every poll, although nothing changes. The *_violated theorems are machine-checked counterexamples: the property as stated is false of the code."
  },
  {
   "property": "C119",
   "status": "partial",
   "theorems": [
    "TcpInfo.C119_saver_partial",
    "TcpInfo.C119_disk_partial",
    "TcpInfo.C119_moment_partial",
    "TcpInfo.C119_violated"
   ],
   "note": "[C119_saver_partial] C119 (partial: every tcp_info reaches to `tcpi_busy_time`, see `C119_violated`). Two daemons with the same clocks and the same configuration, but marshallers that anonymize cached records at other times (`view`), whose kernels report the same except for addresses that are anonymized to the same. Either both crash, or both do the same at the same times, except for the addresses they announce on the event socket: the same files are created under the same names, the same lines are queued for them, the same numbers are exported. [C119_disk_partial] C119 (partial, as `C119_saver_partial`). Both daemons' `main` have returned, each under its own schedule of collector, saver, marshallers, pipes and compressors: the same files have been opened, and what two compressors that did not fail have left on disk is the same, byte by byte. [C119_moment_partial] C119 (partial, as above). At any two moments of the two daemons, under any schedules, so also when they are killed: what has been written to the file with number `w` is, in both cases, the beginning of one and the same text. [C119_violated] C119 violated by a short tcp_info: it is compared together with the bytes that follow it in the receive buffer, which hold the address of the next connection. The two daemons see the same connections, except that in the second poll a connection comes from 10.1.2.99 instead of 10.1.2.3; both addresses are anonymized to 10.1.2.0. The one daemon saves two records, the other three: the archive tells whether the address has changed. The *_violated theorems are machine-checked counterexamples: the property as stated is false of the code."
  },
  {
   "property": "C120",
   "status": "partial",
   "theorems": [
    "TcpInfo.C120_exact_partial",
    "TcpInfo.C120_resumes_partial",
    "TcpInfo.C120_number_partial",
    "TcpInfo.C120_closed",
    "TcpInfo.C120_idle",
    "TcpInfo.C120_violated",
    "TcpInfo.C120_files"
   ],
   "note": "[C120_exact_partial] C120 (partial: the claim fails for idle connections, see `C120_idle` and `C120_violated`). At whichever moments files cannot be created: of the due reports (new or significantly changed ones, see C32) of the polls `bs'` that follow `bs`, exactly those marked as saved get into the files, in their order. The others are as many as attempts to create a file failed meanwhile, and of the same connections in the same order (leaving aside cookie 0, which is never recorded). [C120_resumes_partial] C120 (partial, as above). A disk that works again: if after `bs` no attempt to create a file fails (whatever failed before), then all due reports of the polls after `bs` are saved. [C120_number_partial] C120 (partial, as above). The number of records lost is the number of failed attempts. [C120_violated] C120 violated: connection 1 is reported by four polls, without change. The first attempt to create its file fails; all files of the later polls can be created (and are, for connection 2), but connection 1 is not recorded. The *_violated theorems are machine-checked counterexamples: the property as stated is false of the code."
  },
  {
   "property": "C121",
   "status": "partial",
   "theorems": [
    "TcpInfo.C121_first",
    "TcpInfo.C121_number",
    "TcpInfo.C121_text_partial",
    "TcpInfo.C121_violated"
   ],
   "note": "[C121_text_partial] C121 (partial: connections of families 2 and 10, which are those that are asked for; `C121_violated`). When `Done.Wait` returns, every file that was opened has its metadata line and at least one record: the first one that was queued for it. [C121_violated] C121 violated: a record of another family is queued, but its addresses cannot be anonymized; it is dropped then, and its file has nothing but the metadata line. The *_violated theorems are machine-checked counterexamples: the property as stated is false of the code."
  }
 ]
}