{"id": "C01", "title": "Splitting a diag payload loses and invents nothing", "statement": "SplitInetDiagMsg of a payload of at least 72 bytes returns the first 72 bytes as the raw message and exactly the remaining bytes as attribute data; of a shorter payload it returns nil, nil. Parse accepts a raw message exactly when it has at least 72 bytes, and never panics.", "quantifier": "every byte string", "why_tests_cant": "The payload comes from the kernel or a file; tests sample a couple of lengths, the boundary and content preservation must hold for every length and content.", "anchors": ["inetdiag/structs.go: SplitInetDiagMsg, RawInetDiagMsg.Parse, rtaAlignOf"]}
{"id": "C02", "title": "Every inet_diag_msg field is read from, and only from, its Linux offset", "statement": "Laying out any inet_diag_msg (family, state, timer, retrans, ports, addresses, interface, cookie, expires, queues, uid, inode) in the Linux byte format and parsing it gives back every field unchanged, and re-serialising any parsed 72-byte message gives back the same bytes.", "quantifier": "every assignment of the header fields; every 72-byte string", "why_tests_cant": "A wrong offset or endianness shows only for values that differ in the confused bytes.", "anchors": ["inetdiag/structs.go: InetDiagMsg, LinuxSockID, RawInetDiagMsg.Parse, LinuxSockID.SPort/DPort/Interface/Cookie"]}
{"id": "C03", "title": "A socket cookie survives the signed/unsigned round trip", "statement": "For every 64-bit cookie, the SockID obtained from the socket id reports, through CookieUint64, exactly the kernel's cookie, and two different cookies never give equal SockIDs.", "quantifier": "every 64-bit cookie", "why_tests_cant": "Cookies above 2^63 become negative int64 values; tests check one of 2^64.", "anchors": ["inetdiag/structs.go: LinuxSockID.GetSockID, SockID.CookieUint64, LinuxSockID.Cookie"]}
{"id": "C04", "title": "Address decoding and loopback/link-local/multicast/unspecified classification", "statement": "For an AF_INET socket (address in the first 4 bytes, the other 12 zero) the connection counts as local exactly when the IPv4 address is in 127/8, 169.254/16, 224/4 or is 0.0.0.0. For an AF_INET6 socket it counts as local exactly when the IPv6 address is ::, ::1, in fe80::/10 or ff00::/8, or is an IPv4-mapped address whose IPv4 part is local.", "quantifier": "every 16-byte address of both families", "why_tests_cant": "2^128 addresses; the code guesses the family from the zero bytes rather than from the family field.", "anchors": ["inetdiag/structs.go: ip, isIpv6, ipv4, ipv6, SrcIP, DstIP", "netlink/archival-record.go: isLocal"]}
{"id": "C05", "title": "Anonymizing a record touches the two address fields and nothing else", "statement": "Anonymize either returns an error and leaves the message bytes unchanged, or replaces the source and destination address (all 16 bytes each for AF_INET6, the first 4 for AF_INET) by the anonymizer's output and leaves every other byte, in particular the cookie, the ports and the state, unchanged. It returns an error exactly for short messages and unknown address families.", "quantifier": "every raw message and every anonymizer that works in place on the address it is given", "why_tests_cant": "In-place mutation through an unsafe pointer; an off-by-one would corrupt other fields only for some contents.", "anchors": ["inetdiag/structs.go: RawInetDiagMsg.Anonymize"]}
{"id": "C06", "title": "The netlink request asks for exactly the intended states and extensions", "statement": "The dump request built for a family is 56 bytes, carries that family and TCP, selects every TCP state except SYN_RECV, TIME_WAIT and CLOSE, and requests exactly the extensions MEMINFO, INFO, VEGASINFO, CONG, TOS, TCLASS, SKMEMINFO and SHUTDOWN.", "quantifier": "every family byte, every TCP state and every extension number", "why_tests_cant": "The kernel silently ignores wrong masks; nothing in the test-suite looks at the mask.", "anchors": ["collector/socket-monitor_linux.go: makeReq", "inetdiag/structs.go: ReqV2, NewReqV2, Serialize, Len", "tcp/tcpinfo.go: AllFlags, State"]}
{"id": "C07", "title": "Route attributes encoded by the kernel's rules are parsed back exactly", "statement": "For every list of attributes (type, value) laid out with the netlink rules (length, type, value, padding to 4 bytes), ParseRouteAttr returns exactly that list, in order, with exactly those values.", "quantifier": "every list of attributes with values up to 65531 bytes, every padding content", "why_tests_cant": "Unbounded list length and value lengths; all alignments matter.", "anchors": ["netlink/archival-record.go: ParseRouteAttr", "netlink/netlink_linux.go: netlinkRouteAttrAndValue, rtaAlignOf"]}
{"id": "C08", "title": "Parsed attributes are disjoint, ordered pieces of the input", "statement": "For every input on which ParseRouteAttr succeeds, the input is the concatenation of one block per returned attribute (4-byte header, its value, at most 3 padding bytes) and a tail shorter than a header; ParseRouteAttr always terminates.", "quantifier": "every byte string", "why_tests_cant": "Arbitrary garbage must not make the parser read outside, overlap or loop.", "anchors": ["netlink/archival-record.go: ParseRouteAttr", "netlink/netlink_linux.go: netlinkRouteAttrAndValue"]}
{"id": "C09", "title": "ParseRouteAttr rejects bad lengths with an error and never crashes", "statement": "ParseRouteAttr never panics: on every input it returns attributes or an error; it returns the error exactly when it meets an attribute whose length field is below 4 or exceeds the bytes left. For inputs whose length is a multiple of 4 this must hold without exception.", "quantifier": "every byte string", "why_tests_cant": "Crash inputs are specific alignments at the end of the buffer that a sample test does not hit.", "anchors": ["netlink/archival-record.go: ParseRouteAttr", "netlink/netlink_linux.go: netlinkRouteAttrAndValue"]}
{"id": "C10", "title": "A record's attribute table holds the last value of each type", "statement": "When MakeArchivalRecord succeeds, entry t of Attributes is the value of the last attribute of type t in the message, is nil when the message has none, the table has 1 + min(largest type, 38) entries, and attributes of a larger type are dropped; RawIDM is the first 72 bytes of the payload.", "quantifier": "every message whose attributes parse", "why_tests_cant": "Types, duplicates and order range over unbounded inputs.", "anchors": ["netlink/archival-record.go: MakeArchivalRecord"]}
{"id": "C11", "title": "The exclusion decision is exactly the configured one", "statement": "MakeArchivalRecord returns nil, nil exactly when the message is a type-20 message with a complete header and an exclude config is given and (its source port is listed, or Local is set and source or destination is local, or its destination address key is listed). Wrong types and short payloads are errors whatever the config, and without a config nothing is excluded.", "quantifier": "every message and every exclude config", "why_tests_cant": "The interplay of three filters, error cases and nil maps over all messages.", "anchors": ["netlink/archival-record.go: MakeArchivalRecord, ExcludeConfig"]}
{"id": "C12", "title": "Every valid source port given on the command line is excluded, and only those", "statement": "AddSrcPort accepts exactly the decimal strings of the ports 0 to 65535, and after it a message with that source port is excluded while messages with ports never added are not affected.", "quantifier": "every string, every port number", "why_tests_cant": "65536 ports and all malformed strings; the test uses one of each.", "anchors": ["netlink/archival-record.go: ExcludeConfig.AddSrcPort, MakeArchivalRecord", "main.go: exclude-srcport handling"]}
{"id": "C13", "title": "An excluded destination IP excludes every connection to that IP", "statement": "After AddDstIP succeeds for an address, every connection whose destination is that address is excluded, whether the socket is AF_INET, AF_INET6, or an AF_INET6 socket talking to an IPv4 peer (IPv4-mapped address), and connections to other addresses are not.", "quantifier": "every address and every message", "why_tests_cant": "Depends on byte placement of v4 addresses inside 16-byte keys for all addresses.", "anchors": ["netlink/archival-record.go: ExcludeConfig.AddDstIP, MakeArchivalRecord"]}
{"id": "C14", "title": "Compare ignores exactly the fields it documents as insignificant", "statement": "For two records with complete tcp_info, Compare returns NoMajorChange exactly when the TCP state, the tcp_info bytes outside the four last_* fields and before the busy-time field, and every other attribute (presence, length and content) are identical; in particular comparing a record with itself is NoMajorChange. In all other cases the kind of change returned says which of these comparisons, in a fixed order, was the first to fail.", "quantifier": "every pair of records", "why_tests_cant": "The decision depends on hundreds of bytes; tests flip three of them.", "anchors": ["netlink/archival-record.go: ArchivalRecord.Compare"]}
{"id": "C15", "title": "Every change of a byte, segment or packet counter is significant", "statement": "If two consecutive records of a connection differ in any tcp_info byte, segment or packet counter (bytes acked/received/sent/retransmitted, segments in/out, delivered), Compare does not return NoMajorChange.", "quantifier": "every pair of records with complete tcp_info", "why_tests_cant": "Each counter is a 32/64-bit field; every position must be covered.", "anchors": ["netlink/archival-record.go: ArchivalRecord.Compare", "tcp/tcpinfo.go: LinuxTCPInfo"]}
{"id": "C16", "title": "Compare is symmetric up to gained/lost attributes", "statement": "Swapping the two records gives the same result with NewAttribute and LostAttribute exchanged; so NoMajorChange is symmetric, and on records without missing tcp_info it is an equivalence relation.", "quantifier": "every pair (triple) of records", "why_tests_cant": "A relation over all pairs of records.", "anchors": ["netlink/archival-record.go: ArchivalRecord.Compare"]}
{"id": "C17", "title": "Compare never crashes", "statement": "Compare returns a change type or an error for every pair of records, including records whose tcp_info is shorter than the current struct (older kernels); for records with tcp_info of at least 168 bytes, or none, this must hold without exception.", "quantifier": "every pair of records", "why_tests_cant": "Slicing beyond the end of a short attribute panics only for specific lengths and capacities.", "anchors": ["netlink/archival-record.go: ArchivalRecord.Compare"]}
{"id": "C18", "title": "HasDiagInfo tells whether the record has a tcp_info attribute", "statement": "HasDiagInfo is true exactly when the message contained an INET_DIAG_INFO attribute.", "quantifier": "every message", "why_tests_cant": "Depends on which attribute types occur together.", "anchors": ["netlink/archival-record.go: HasDiagInfo, MakeArchivalRecord"]}
{"id": "C19", "title": "GetStats returns the kernel's byte counters or zeros", "statement": "GetStats returns the little-endian 64-bit values at the tcp_info offsets of bytes sent (200) and bytes received (128) when tcp_info has at least 208 bytes, and (0, 0) otherwise; it never panics.", "quantifier": "every record", "why_tests_cant": "Unsafe pointer reads; all lengths around the boundary and all values.", "anchors": ["netlink/archival-record.go: GetStats", "tcp/tcpinfo.go: LinuxTCPInfo"]}
{"id": "C20", "title": "A stream of raw netlink messages is read back message by message", "statement": "Writing any list of netlink messages (header, data) one after the other and reading the stream with LoadRawNetlinkMessage yields exactly those messages in order and then io.EOF.", "quantifier": "every list of messages with consistent length fields", "why_tests_cant": "Unbounded streams, all lengths including empty data.", "anchors": ["netlink/archival-record.go: LoadRawNetlinkMessage, rawReader.Next"]}
{"id": "C21", "title": "A truncated raw stream is reported as an error, not as a clean end", "statement": "If the stream is cut inside a message, reading returns all complete messages and then an error different from io.EOF.", "quantifier": "every stream and every cut point", "why_tests_cant": "One crash point (exactly between header and data) behaves differently from all others.", "anchors": ["netlink/archival-record.go: LoadRawNetlinkMessage"]}
{"id": "C22", "title": "Archived records are read back exactly as they were written", "statement": "For every list of records, marshalling each to one JSON line and loading the file returns the same records in the same order, distinguishing absent attributes from empty ones, and no record's JSON contains a newline.", "quantifier": "every list of records (all timestamps in range, raw messages, attribute tables, metadata) whose lines are shorter than the reader's line limit", "why_tests_cant": "Round trip through base64 and JSON for all byte values, lengths and presence patterns.", "anchors": ["netlink/archival-record.go: ArchivalRecord (json tags), archiveReader.Next, LoadAllArchivalRecords", "saver/saver.go: runMarshaller, writeHeader"]}
{"id": "C23", "title": "Loading an archive either returns every record or an error", "statement": "LoadAllArchivalRecords and snapshot.LoadAll never silently return a strict prefix of the file's records: if some line could not be read or decoded, an error is returned.", "quantifier": "every input stream, including over-long lines and read errors", "why_tests_cant": "Needs a line beyond the scanner's buffer limit or a failing reader at an arbitrary point.", "anchors": ["netlink/archival-record.go: archiveReader.Next, LoadAllArchivalRecords", "snapshot/snapshot.go: LoadAll"]}
{"id": "C24", "title": "A crash while writing loses at most the last, incomplete record", "statement": "For every prefix of an archive file's text, loading returns exactly the records whose lines are completely contained in the prefix, and reports an error if and only if a non-empty incomplete line is left.", "quantifier": "every list of records and every cut point", "why_tests_cant": "Every byte position is a crash point.", "anchors": ["netlink/archival-record.go: archiveReader.Next, LoadAllArchivalRecords", "saver/saver.go: runMarshaller"]}
{"id": "C25", "title": "Observed and NotFullyParsed report exactly what was present and what was understood", "statement": "In a decoded snapshot, bit t-1 of Observed is set exactly when attribute t was present, and bit t-1 of NotFullyParsed exactly when attribute t was present but larger than the known struct, of the wrong size, or of a type that is not decoded; no other bits are set.", "quantifier": "every record and every attribute type 1..32", "why_tests_cant": "2^n presence patterns and all lengths.", "anchors": ["snapshot/snapshot.go: Decode, maybeCopy"]}
{"id": "C26", "title": "Struct attributes decode byte-exactly, with missing tails read as zero", "statement": "Each struct attribute (tcp_info, meminfo, skmeminfo, vegas, dctcp, bbr) shorter than the struct decodes to its bytes followed by zeros, of equal size to exactly its bytes, and longer to its leading bytes; every field therefore equals the little-endian value at its Linux offset. Attributes never influence each other's decoded values.", "quantifier": "every attribute content and length", "why_tests_cant": "All lengths and contents; unsafe casts.", "anchors": ["snapshot/snapshot.go: Decode, maybeCopy, toLinuxTCPInfo, toMemInfo, toSockMemInfo, toVegasInfo, toDCTCPInfo, toBBRInfo, toMark, toUint8", "tcp/tcpinfo.go: LinuxTCPInfo", "inetdiag/structs.go: SocketMemInfo, MemInfo, VegasInfo, DCTCPInfo, BBRInfo"]}
{"id": "C27", "title": "Decode never crashes", "statement": "Decode returns a snapshot or an error for every record; it returns an error exactly for a record with neither metadata nor raw message, or with a present but short raw message.", "quantifier": "every record", "why_tests_cant": "Crash inputs are particular empty attributes.", "anchors": ["snapshot/snapshot.go: Decode, CongestionAlgorithm"]}
{"id": "C28", "title": "LoadAll returns one snapshot per record, in order, and the last metadata", "statement": "If every record decodes, LoadAll returns exactly one snapshot per record in file order, together with the last non-nil metadata (or nil); if some record does not decode it returns only that error.", "quantifier": "every sequence of records", "why_tests_cant": "Unbounded sequences and positions of metadata and errors.", "anchors": ["snapshot/snapshot.go: LoadAll, Reader.Next"]}
{"id": "C29", "title": "The cache hands back the record of the same connection from the previous cycle", "statement": "Update returns the last record stored for that cookie in the previous cycle if this is the first update of the cookie in the current cycle, and nil otherwise; a record that cannot be parsed changes nothing and is an error.", "quantifier": "every sequence of Update and EndCycle calls", "why_tests_cant": "Depends on the whole history of updates and cycle ends.", "anchors": ["cache/cache.go: Update, EndCycle, NewCache"]}
{"id": "C30", "title": "EndCycle returns exactly the connections that disappeared", "statement": "The map returned by EndCycle contains exactly the cookies updated in the previous cycle and not in the cycle just ended, each with its last record; no cookie is ever lost or returned twice for one disappearance.", "quantifier": "every sequence of Update and EndCycle calls", "why_tests_cant": "Depends on the whole history.", "anchors": ["cache/cache.go: Update, EndCycle"]}
{"id": "C31", "title": "CycleCount counts the completed cycles", "statement": "CycleCount equals the number of EndCycle calls so far.", "quantifier": "every sequence of calls", "why_tests_cant": "History property.", "anchors": ["cache/cache.go: CycleCount, EndCycle"]}
{"id": "C32", "title": "A snapshot is saved exactly when it is new or significantly changed", "statement": "Provided files can be created and cookies are not zero: a record is queued for writing exactly when its connection was not present in the previous cycle (or was already updated in this one) or when it differs significantly from the connection's record of the previous cycle; nothing else is ever queued, and every queued record reaches its connection's file.", "quantifier": "every sequence of message blocks", "why_tests_cant": "History property over unbounded sequences of blocks and connections.", "anchors": ["saver/saver.go: swapAndQueue, queue, handleType, MessageSaverLoop"]}
{"id": "C33", "title": "Open and close events alternate, one pair per connection", "statement": "For every cookie the event stream is open, close, open, close, ...; every close is preceded by its open, an open is sent at the connection's first saved record, and after a complete run every connection has been closed exactly as often as it was opened.", "quantifier": "every sequence of message blocks, every shutdown point", "why_tests_cant": "History and crash/shutdown-point property, including file creation errors.", "anchors": ["saver/saver.go: queue, endConn, MessageSaverLoop, Close"]}
{"id": "C34", "title": "File sequence numbers are consecutive and files rotate only after their age limit", "statement": "The files of one connection get sequence numbers 0, 1, 2, ... without gaps or repeats; file k+1 is opened only when the clock is later than k+1 times ten minutes after the connection was first seen, and no record is put into file k after that time.", "quantifier": "every sequence of message blocks and every non-decreasing clock", "why_tests_cant": "Depends on all histories and clock values, including long idle periods.", "anchors": ["saver/saver.go: Connection.Rotate, queue, newConnection"]}
{"id": "C35", "title": "A connection is rotated at most once per age limit", "statement": "Two rotations of the same connection are at least ten minutes apart.", "quantifier": "every sequence of message blocks and every non-decreasing clock", "why_tests_cant": "Needs a long idle period followed by activity.", "anchors": ["saver/saver.go: Connection.Rotate, queue"]}
{"id": "C36", "title": "No output file is ever overwritten", "statement": "Two file creations never use the same file name, so no recorded data is truncated away.", "quantifier": "every sequence of message blocks, including connections that vanish from one poll and return", "why_tests_cant": "Needs a connection to vanish from a single poll (e.g. a failed netlink dump) and come back.", "anchors": ["saver/saver.go: Rotate, endConn, queue", "collector/collector_linux.go: collectDefaultNamespace", "zstd/zstd.go: NewWriter"]}
{"id": "C37", "title": "Every file starts with its metadata line and contains only its connection's records in order", "statement": "Each file's first line is the metadata record with that connection's UUID, the file's sequence number and the connection's start time; all other lines are records with that connection's cookie, in the order in which the kernel reported them.", "quantifier": "every sequence of blocks, any number of marshallers, every interleaving of them", "why_tests_cant": "Schedules of several marshalling goroutines.", "anchors": ["saver/saver.go: Rotate, writeHeader, queue, runMarshaller"]}
{"id": "C38", "title": "Every file is closed exactly once, after its last write", "statement": "For every schedule, each opened writer receives exactly one close, no write follows it, and when Done.Wait returns every writer has been closed.", "quantifier": "every sequence of blocks, any number of marshallers, every interleaving of them", "why_tests_cant": "Schedule property.", "anchors": ["saver/saver.go: queue, endConn, Close, runMarshaller"]}
{"id": "C39", "title": "File contents do not depend on goroutine scheduling", "statement": "For a given sequence of blocks and clock values, every schedule of the marshalling goroutines produces the same contents in every file.", "quantifier": "all interleavings", "why_tests_cant": "Schedule property; races with in-place anonymization of cached records.", "anchors": ["saver/saver.go: queue, runMarshaller, swapAndQueue", "inetdiag/structs.go: Anonymize", "cache/cache.go: Update"]}
{"id": "C40", "title": "Concurrent in-place anonymization never influences what is saved", "statement": "The saver's decisions (what is saved, where, which events, which statistics) are the same whether or not the cached previous records have already been anonymized in place.", "quantifier": "every history and every moment of anonymization", "why_tests_cant": "A race between the marshaller goroutine and the change detector on shared records.", "anchors": ["inetdiag/structs.go: Anonymize", "netlink/archival-record.go: Compare, GetStats, HasDiagInfo", "saver/saver.go: swapAndQueue, runMarshaller"]}
{"id": "C41", "title": "Nothing reaches a file before it is anonymized", "statement": "Every record line written to any file carries source and destination addresses produced by the configured anonymizer; records whose family is unknown are never written.", "quantifier": "every record, every schedule", "why_tests_cant": "Privacy guarantee over all records and schedules.", "anchors": ["saver/saver.go: runMarshaller", "inetdiag/structs.go: Anonymize"]}
{"id": "C42", "title": "Shutdown always completes", "statement": "Provided calls to the event server and to the writers return: after the input channel is closed, under every schedule the saver and all marshallers finish (no deadlock on full queues, no livelock), every queued task is processed and Done.Wait returns.", "quantifier": "every state reachable, every schedule", "why_tests_cant": "Deadlocks depend on schedules and full channels.", "anchors": ["saver/saver.go: MessageSaverLoop, Close, runMarshaller, newMarshaller"]}
{"id": "C43", "title": "The marshaller never hits its fatal or nil-writer paths", "statement": "No task with a record and a nil writer, and no close task with a nil writer, is ever queued; each task goes to an existing marshaller, always the same one for a connection.", "quantifier": "every sequence of message blocks", "why_tests_cant": "Invariant over all histories; a violation kills the process.", "anchors": ["saver/saver.go: queue, endConn, runMarshaller"]}
{"id": "C44", "title": "A saver with any number of marshallers handles every block without crashing", "statement": "For any numMarshaller, processing message blocks never panics.", "quantifier": "every block sequence and numMarshaller >= 0", "why_tests_cant": "Division by the number of marshallers happens on the expiry path only.", "anchors": ["saver/saver.go: queue, endConn, NewSaver"]}
{"id": "C45", "title": "Reported totals conserve bytes", "statement": "At every report, the total bytes sent (received) equals the sum, over every connection seen so far, of the last byte counter the kernel reported for it.", "quantifier": "every history of blocks", "why_tests_cant": "Bookkeeping over connections that lose tcp_info while closing, vanish, and reappear.", "anchors": ["saver/saver.go: MessageSaverLoop, swapAndQueue, handleType"]}
{"id": "C46", "title": "Throughput observations are sane", "statement": "Each observation is between 0 and 1e11 bits, the reported totals never decrease, the observations add up to 8 times the final reported total, and at most one observation per direction is made per wall-clock second of the v4 timestamps.", "quantifier": "every history of blocks", "why_tests_cant": "History property on 64-bit wrap-around arithmetic.", "anchors": ["saver/saver.go: MessageSaverLoop"]}
{"id": "C47", "title": "Throughput reporting recovers after an anomaly", "statement": "After a skipped report, later reports are made again once traffic is normal.", "quantifier": "every history of blocks", "why_tests_cant": "Needs a long history after one anomalous total (e.g. start-up on a machine that already moved more than 12.5 GB).", "anchors": ["saver/saver.go: MessageSaverLoop"]}
{"id": "C48", "title": "Saver counters add up", "statement": "The total counter counts every record that reached the change detector; new + changed <= total, the difference being the unchanged ones; the expired counter counts every connection that disappeared.", "quantifier": "every history of blocks", "why_tests_cant": "History property.", "anchors": ["saver/saver.go: stats, swapAndQueue, MessageSaverLoop, LogCacheStats"]}
{"id": "C49", "title": "Excluded connections leave no trace", "statement": "With an exclude config, no event, file or record is ever produced for a message that the config excludes; with Local no output mentions a loopback, link-local, multicast or unspecified IPv4 address.", "quantifier": "every history of blocks and config", "why_tests_cant": "Must hold for every message of every history.", "anchors": ["netlink/archival-record.go: MakeArchivalRecord", "saver/saver.go: handleType"]}
{"id": "C50", "title": "A malformed message does not disturb the others", "statement": "Nil messages, messages of another type, and messages whose header or attributes are malformed have no effect: the saver's outputs are the same as if they had been removed from the block.", "quantifier": "every block and every set of such messages", "why_tests_cant": "Any position, any combination.", "anchors": ["saver/saver.go: handleType", "netlink/archival-record.go: MakeArchivalRecord"]}
{"id": "C51", "title": "An event-socket client receives a gapless, ordered part of the event stream", "statement": "Each client receives exactly the events distributed between its registration and its first failed write, each once, in the order in which the saver emitted them.", "quantifier": "every interleaving of event production, client connects, failures and removals", "why_tests_cant": "Schedule property.", "anchors": ["eventsocket/server.go: notifyClients, sendToAllListeners, addClient, removeClient, FlowCreated, FlowDeleted"]}
{"id": "C52", "title": "A failing client does not affect the others", "statement": "The bytes delivered to a client do not depend on the failures of other clients, and a failed client is eventually removed from the set.", "quantifier": "every schedule", "why_tests_cant": "Schedule property.", "anchors": ["eventsocket/server.go: sendToAllListeners, removeClient"]}
{"id": "C53", "title": "Emitting events is safe at any time", "statement": "FlowCreated and FlowDeleted never crash the process, in particular not during or after server shutdown.", "quantifier": "every interleaving of shutdown and event production", "why_tests_cant": "Needs a send after the cleanup goroutine closed the channel.", "anchors": ["eventsocket/server.go: FlowCreated, FlowDeleted, Serve"]}
{"id": "C54", "title": "The event client dispatches each line once, to the right callback", "statement": "MustRun calls Open once per open line and Close once per close line, in order, ignores unknown event types, and a line produced by the server decodes to the event that was sent.", "quantifier": "every sequence of events", "why_tests_cant": "Unbounded sequences, all field values.", "anchors": ["eventsocket/client.go: MustRun", "eventsocket/server.go: notifyClients, FlowEvent"]}
{"id": "C55", "title": "A netlink dump returns exactly the messages before the terminator", "statement": "OneType returns, in order, all messages received before the first terminating message (NLMSG_DONE, a zero-error ack, or a non-multipart message, the latter included), and returns an error if any message before it has the wrong sequence number or pid or is a truncated error message.", "quantifier": "every sequence of received batches", "why_tests_cant": "All batchings and positions of terminators and errors.", "anchors": ["collector/socket-monitor_linux.go: OneType, processSingleMessage"]}
{"id": "C56", "title": "The collector submits one block per poll", "statement": "Run with reps = n > 0 and no cancellation submits exactly n blocks; with reps = 0 it submits blocks until cancelled; after cancellation it submits at most the block in progress.", "quantifier": "every n and every cancellation moment", "why_tests_cant": "Loop property for all n.", "anchors": ["collector/collector_linux.go: Run, collectDefaultNamespace"]}
{"id": "C57", "title": "A failed poll does not close live connections", "statement": "If a netlink dump fails in one cycle, the connections of that family keep their files open and no close events are sent for them.", "quantifier": "every history with a failed dump", "why_tests_cant": "Needs fault injection at an arbitrary poll.", "anchors": ["collector/collector_linux.go: collectDefaultNamespace", "saver/saver.go: MessageSaverLoop"]}
{"id": "C58", "title": "Closing a zstd writer waits for the data to be on disk", "statement": "When Close returns nil the compressor has consumed everything written and has exited, for every schedule of the compressor; writes are delivered in order.", "quantifier": "every sequence of writes and every schedule of the external process", "why_tests_cant": "Process interleavings.", "anchors": ["zstd/zstd.go: NewWriter, waitingWriteCloser.Close"]}
{"id": "C59", "title": "A zstd writer releases its resources", "statement": "After NewWriter fails, or after a successful NewWriter and Close, no file descriptor opened by NewWriter stays open in this process.", "quantifier": "every failure point", "why_tests_cant": "Leaks are invisible to functional tests.", "anchors": ["zstd/zstd.go: NewWriter"]}
{"id": "C60", "title": "State, event and field names are total and unambiguous", "statement": "String of every TCP state and of every event value returns a name without panicking, different values have different names; MarshalCSV of ports, interfaces and cookies is injective and decodes back to the value.", "quantifier": "every int32 state, every int event value, every field value", "why_tests_cant": "The unknown-value branch ranges over 2^32 values.", "anchors": ["tcp/tcpinfo.go: State.String", "eventsocket/tcpevent_string.go: TCPEvent.String", "inetdiag/structs.go: MarshalCSV methods"]}
{"id": "C61", "title": "A client of the event socket that does not read holds up nobody", "statement": "A connected client that neither reads nor disconnects delays neither the delivery of events to other clients nor FlowCreated and FlowDeleted, and thereby the collection of data.", "quantifier": "every schedule and every set of clients that stop reading", "why_tests_cant": "Blocking needs a full socket buffer and a full channel in a particular interleaving.", "anchors": ["eventsocket/server.go: sendToAllListeners, notifyClients, FlowCreated, FlowDeleted, New"]}
{"id": "C62", "title": "What the saver writes, the loader reads", "statement": "After a complete run, loading the (decompressed) contents of any output file with LoadAllArchivalRecords returns no error and exactly the header record followed by the records saved for that connection, in order, with anonymized addresses.", "quantifier": "every sequence of blocks, every schedule of the marshallers, every file", "why_tests_cant": "Composition of scheduling, JSON encoding and line scanning for all histories.", "anchors": ["saver/saver.go: MessageSaverLoop, runMarshaller, writeHeader", "netlink/archival-record.go: LoadAllArchivalRecords"]}
{"id": "C63", "title": "The address text of a connection denotes the connection's address", "statement": "The source and destination address texts in a SockID (events) and in CSV output denote the kernel's addresses: for an AF_INET socket the dotted decimal form, for an AF_INET6 socket a text that parses back to exactly the 16 bytes; different addresses of one family have different texts.", "quantifier": "every 16-byte address field of both families", "why_tests_cant": "2^128 addresses; zero compression and the guess of the family from zero bytes.", "anchors": ["inetdiag/structs.go: LinuxSockID.GetSockID, SrcIP, DstIP, ip, ipType.MarshalCSV"]}
{"id": "C64", "title": "Cancelling the context ends the event client quietly", "statement": "When the context of MustRun is cancelled while it is connected, MustRun returns and the process goes on; the handler has been called for the complete lines received, and only for them. Any other error while reading ends the process and is not hidden.", "quantifier": "every sequence of events, every moment of cancellation, every partition of the stream into reads", "why_tests_cant": "The outcome depends on how much of a line happens to be buffered when the connection is closed.", "anchors": ["eventsocket/client.go: MustRun"]}
{"id": "C65", "title": "The saver forgets finished connections", "statement": "After every block of messages, the saver's map of connections holds exactly the connections reported in that block, and its map of closing statistics holds only connections that were reported in that block without tcp_info: memory does not grow with the number of connections that ever existed.", "quantifier": "every sequence of blocks, every cookie", "why_tests_cant": "A leak shows only over long histories with particular orders of losing and regaining attributes.", "anchors": ["saver/saver.go: Saver.Connections, Saver.ClosingStats, MessageSaverLoop, endConn, swapAndQueue", "cache/cache.go: EndCycle"]}
{"id": "C66", "title": "A subscriber is told of every connection, with its addresses", "statement": "A client of the event socket that is connected from the start and keeps reading has its handler called, for every connection, once with Open at the first poll that reports it (with that poll's time, and the connection's ports, addresses and cookie) and once with Close after the first poll that does not report it any more, or at shutdown, with the time at which that is noticed; and again for every later period of existence. At any moment it has been told an initial part of this.", "quantifier": "every sequence of polls, every schedule of saver, server and client, every connection", "why_tests_cant": "Composition of netlink parsing, cache, saver, event server, JSON and client, over all histories and schedules.", "anchors": ["main.go: main", "saver/saver.go: queue, endConn, MessageSaverLoop", "eventsocket/server.go", "eventsocket/client.go: MustRun"]}
{"id": "C67", "title": "The exclusion flags mean what they say", "statement": "With any list of -exclude-dstip and -exclude-srcport values, exactly the connections with a local address, a listed source port or a listed destination are left out of the files and events; values that are no port or no address are skipped without effect on the others; order and repetition do not matter.", "quantifier": "every list of flag values, every message, every sequence of polls", "why_tests_cant": "Any valid port number or address text may be given; effects must be absent over the whole run.", "anchors": ["main.go: main", "netlink/archival-record.go: AddSrcPort, AddDstIP, MakeArchivalRecord", "saver/saver.go: MessageSaverLoop"]}
{"id": "C68", "title": "The statistics logged while the saver is running are consistent", "statement": "The numbers logged by LogCacheStats, called by the collector while the saver is working, are values the counters had during the call; unchanged, changed and new add up to the total, and none of them is negative.", "quantifier": "every sequence of blocks, every interleaving of the four loads with the saver's increments", "why_tests_cant": "The four counters are loaded one after the other; only particular interleavings show a torn copy.", "anchors": ["saver/saver.go: LogCacheStats, stats.Copy, swapAndQueue", "collector/collector_linux.go: Run"]}
{"id": "C69", "title": "The collector reports what it has seen", "statement": "Run returns, and passes to the cache logger in the first poll and every 6000th one after it, the numbers of local connections and of errors that occurred; its summary line has the number of sockets submitted and their average number per poll.", "quantifier": "every sequence of poll results, with and without errors", "why_tests_cant": "Ranges over all sequences of polls and all errors in them.", "anchors": ["collector/collector_linux.go: Run, collectDefaultNamespace"]}
{"id": "C70", "title": "Reading a zstd file gives its contents or no end of file", "statement": "A user of zstd.NewReader reads a prefix of the decompressed contents at any time, and end of file only after all of it: a damaged or truncated file or a failing decompressor never looks like a clean end. Reading cannot get stuck, and after the end and Close no descriptor, process or goroutine is left.", "quantifier": "every file, every schedule of user, goroutine and decompressor, every partition into reads and writes, every failure of the decompressor", "why_tests_cant": "Depends on the interleaving of three parties and on when the decompressor dies.", "anchors": ["zstd/zstd.go: NewReader"]}
{"id": "C71", "title": "A zstd reader can be closed at any time without harm", "statement": "Closing the reader returned by zstd.NewReader, at whatever point, does not end the process.", "quantifier": "every file, every schedule, every moment of Close", "why_tests_cant": "Whether the decompressor has more to write when the pipe is closed depends on buffer sizes and timing.", "anchors": ["zstd/zstd.go: NewReader"]}
{"id": "C72", "title": "The example client never holds up tcp-info", "statement": "The handler of the example client returns from every call whatever its other goroutine does; every open event is logged once, as sent or skipped, and the events processed are exactly those logged as sent, in order.", "quantifier": "every sequence of events, every schedule of the two goroutines, every moment of cancellation", "why_tests_cant": "Which events are skipped depends on the schedule.", "anchors": ["cmd/example-eventsocket-client/main.go: handler.Open, handler.Close, ProcessOpenEvents, main"]}
{"id": "C73", "title": "A run with a given number of polls ends, with nothing left to do", "statement": "tcp-info -reps=n returns from main after finitely many steps of its goroutines, without deadlock or crash, and main returns only after every block submitted has been processed, all saver calls have been made and every marshaller has emptied its queue; if the saver panics main does not return normally.", "quantifier": "every list of blocks, every schedule of collector, saver and marshallers, any number of marshallers", "why_tests_cant": "Deadlocks between bounded channels and early returns occur only under particular schedules.", "anchors": ["main.go: main", "collector/collector_linux.go: Run, collectDefaultNamespace", "saver/saver.go: MessageSaverLoop, Close, runMarshaller"]}
{"id": "C74", "title": "From poll to loaded archive", "statement": "When main has returned (kernel messages of at most 48000 bytes, times in the years 0 to 9999), every file that was opened and whose compressor did not fail decompresses to an archive that LoadAllArchivalRecords reads without error as the header and exactly the records queued for it, in order, anonymized. When the process is killed at any moment, what has been written to a file, and given to its compressor, is the beginning of that text.", "quantifier": "every list of blocks, every schedule of collector, saver, marshallers, compressor and decompressor, every moment of a kill", "why_tests_cant": "Composition of five concurrent parties over all schedules and crash points.", "anchors": ["main.go: main", "saver/saver.go", "zstd/zstd.go: NewWriter, NewReader", "netlink/archival-record.go: LoadAllArchivalRecords"]}
{"id": "C75", "title": "Memory between the stages is bounded and nothing is dropped there", "statement": "At any moment at most two polls wait for the saver and at most 100 tasks for each marshaller; a slow stage delays the one before it, and what has been taken, what waits and what is still to come is always the input in order, nothing lost, repeated or overtaken.", "quantifier": "every list of blocks, every schedule", "why_tests_cant": "Overload appears only under particular speeds of the stages.", "anchors": ["main.go: main", "saver/saver.go: newMarshaller, MessageSaverLoop", "collector/collector_linux.go: collectDefaultNamespace"]}
{"id": "C76", "title": "csvtool writes a table with one row for each record", "statement": "Whatever csvtool writes without failing is CSV by RFC 4180: the header with the 105 column names, then one row of 105 cells for each record of the archive, in the archive's order; a row depends only on its record.", "quantifier": "every archive, every text in it (quotes, commas, newlines in the name of the congestion algorithm), every time zone", "why_tests_cant": "Quoting goes wrong only for particular texts; rows must be aligned for every archive.", "anchors": ["cmd/csvtool/main.go: toCSV, main", "snapshot/snapshot.go: Snapshot, LoadAll"]}
{"id": "C77", "title": "Every cell of the table is the kernel's value under the kernel's name", "statement": "In the row for a record, each column named after a field of tcp_info, meminfo, skmeminfo, vegas, dctcp, bbr or inet_diag_msg occurs once and has the number the kernel gave for that field (the address, the cookie in hexadecimal), the time column has the record's time, TOS, TClass, Shutdown, Protocol, ClassID, Mark and CongestionAlgorithm have the values of their attributes.", "quantifier": "every record, every value of every field, attributes of every length, every time zone", "why_tests_cant": "A wrong tag, offset or signedness shows only for particular fields and values.", "anchors": ["tcp/tcpinfo.go: LinuxTCPInfo", "inetdiag/structs.go: InetDiagMsg, LinuxSockID, SocketMemInfo, MemInfo, VegasInfo, DCTCPInfo, BBRInfo, MarshalCSV", "snapshot/snapshot.go: Snapshot, Decode", "cmd/csvtool/main.go: toCSV"]}
{"id": "C78", "title": "The table distinguishes absent values from zeros", "statement": "A cell for a field of a kernel struct is empty exactly if the record lacks the attribute; for every attribute the column Observed tells whether it was present.", "quantifier": "every record, every combination of attributes", "why_tests_cant": "There are 2^19 combinations of attributes, with all values.", "anchors": ["snapshot/snapshot.go: Decode, setObserved, Snapshot", "cmd/csvtool/main.go: toCSV"]}
{"id": "C79", "title": "Every row of the table is an observation of a connection", "statement": "Each row csvtool writes comes from a message of the kernel about a connection and has its header fields and time.", "quantifier": "every archive", "why_tests_cant": "Ranges over all archives, including their first records.", "anchors": ["cmd/csvtool/main.go: main", "snapshot/snapshot.go: Reader.Next, LoadAll", "saver/saver.go: Rotate"]}
{"id": "C80", "title": "Every file that tcp-info writes can be converted to CSV", "statement": "After main has returned, csvtool converts every file whose compressor did not fail, without error or crash, to a table with a row for each record queued for that file, in order.", "quantifier": "every list of blocks, every schedule of collector, saver, marshallers, compressor and decompressor, every time zone of writer and csvtool", "why_tests_cant": "Composition of the whole pipeline over all schedules and inputs.", "anchors": ["main.go: main", "saver/saver.go", "zstd/zstd.go: NewWriter, NewReader", "netlink/archival-record.go", "snapshot/snapshot.go: LoadAll", "cmd/csvtool/main.go: main"]}
{"id": "C81", "title": "The snapshot counter counts the records saved", "statement": "tcpinfo_snapshot_total is the number of reports taken as new or changed, and equals the number of records handed to the files.", "quantifier": "every sequence of polls, every outcome of file creation", "why_tests_cant": "The counter and the files must agree over all histories, also when files cannot be created.", "anchors": ["metrics/metrics.go: SnapshotCount", "saver/saver.go: swapAndQueue, queue"]}
{"id": "C82", "title": "File and flow counters agree with what happened", "statement": "tcpinfo_new_file_total is the number of files created, tcpinfo_flow_events_total counts the open and the close events given to the event server.", "quantifier": "every sequence of polls, every outcome of file creation, with and without an event server", "why_tests_cant": "The counters must agree with the effects over all histories.", "anchors": ["metrics/metrics.go: NewFileCount, FlowEventsCounter", "saver/saver.go: Rotate, queue, endConn", "eventsocket/server.go: FlowCreated, FlowDeleted"]}
{"id": "C83", "title": "One rate is exported for each second, one cache size for each poll", "statement": "For each direction, each poll that begins a new second gives exactly one observation of the rate histogram or one counted error: the growth of the total since the last observation, or an error if the total fell or grew by more than 12.5e9 bytes (or is near 2^64). The total is made of the counters in this poll and of the last counters of connections before they were missing or without tcp_info. Each poll gives one cache size, the number of different connections reported in it.", "quantifier": "every sequence of polls, every clock", "why_tests_cant": "Observations are cumulative; a lost or doubled one shows only over particular histories.", "anchors": ["metrics/metrics.go: SendRateHistogram, ReceiveRateHistogram, CacheSizeHistogram, ErrorCount", "saver/saver.go: MessageSaverLoop"]}
{"id": "C84", "title": "Each dump exports its number of connections and counts its errors", "statement": "Each dump of a family that returns exports exactly one number of connections, labelled with the family, which is the number of messages it returned; each failure is counted once under its kind.", "quantifier": "every sequence of receives, every content of the netlink messages", "why_tests_cant": "Depends on where in the sequence of messages the dump ends.", "anchors": ["metrics/metrics.go: ConnectionCountHistogram, ErrorCount", "collector/socket-monitor_linux.go: OneType, processSingleMessage"]}
{"id": "C85", "title": "Attributes that cannot be decoded completely are counted", "statement": "Decoding a record counts each attribute that is present and not decoded completely exactly once, under the label of its type, and nothing else.", "quantifier": "every record, every attribute, every length", "why_tests_cant": "All combinations of attributes and lengths.", "anchors": ["metrics/metrics.go: NetlinkNotDecoded, LargeNetlinkMsgTotal", "snapshot/snapshot.go: Decode, maybeCopy"]}
{"id": "C86", "title": "The archive tells the state of every connection at every poll", "statement": "Although unchanged snapshots are not written, nothing is lost: for every poll and every connection reported in it, the last record in the connection's files with a time up to the report has the TCP state and the byte, segment and packet counters of the report.", "quantifier": "every sequence of polls, every poll and connection in it, every schedule of collector, saver, marshallers, compressor and decompressor", "why_tests_cant": "Unchanged reports are skipped one after the other; drift adds up over long histories.", "anchors": ["saver/saver.go: swapAndQueue, queue", "netlink/archival-record.go: Compare, LoadAllArchivalRecords", "cache/cache.go: Update, EndCycle", "main.go: main"]}
{"id": "C87", "title": "Anonymizing in place alters nothing but addresses", "statement": "The marshallers anonymize records in the receive buffers, which the saver goes on reading. Whatever has been received and anonymized in the meantime, completely or in part, a record the saver keeps still has its time, its header except for the addresses, and its attributes; anonymizing one message alters no byte of another one.", "quantifier": "every sequence of datagrams and their contents, every anonymizer, every interleaving of single byte stores with the saver's reads", "why_tests_cant": "Needs a marshaller to be interrupted between two particular stores, and messages that lie next to each other.", "anchors": ["inetdiag/structs.go: Anonymize, SplitInetDiagMsg", "netlink/archival-record.go: MakeArchivalRecord, ParseRouteAttr", "saver/saver.go: runMarshaller, swapAndQueue"]}
{"id": "C88", "title": "Every message of a datagram is delivered", "statement": "Each message of a netlink datagram is delivered once, in order, with its header and exactly its data; a datagram that does not consist of messages gives an error.", "quantifier": "every datagram, of any number of messages of any sizes, with any padding", "why_tests_cant": "Ranges over all byte strings.", "anchors": ["collector/socket-monitor_linux.go: OneType", "netlink/netlink.go: MessageBlock"]}
{"id": "C89", "title": "The event server neither crashes the process nor changes the archive", "statement": "In the process as main builds it the saver can always emit its events without a crash, also at the end, and with the event server the collector, the saver and the marshallers do only what they can do without it.", "quantifier": "every sequence of polls, every behaviour of the subscribers, every schedule of all goroutines", "why_tests_cant": "The order of the shutdown of two goroutines; a race at the end of a run.", "anchors": ["main.go: main", "eventsocket/server.go: Serve, FlowCreated, FlowDeleted", "saver/saver.go: MessageSaverLoop, Close"]}
{"id": "C90", "title": "At the end of a run every subscriber has received every event", "statement": "When main returns, a subscriber that was connected and reading has received all events emitted since it was added.", "quantifier": "every sequence of polls, every schedule of all goroutines, every subscriber", "why_tests_cant": "Events still in the channel when main returns are lost only under particular schedules.", "anchors": ["main.go: main", "eventsocket/server.go: notifyClients, New"]}
{"id": "C91", "title": "A subscriber cannot stop the collection", "statement": "Whatever the subscribers of the event socket do, polling and archiving go on and main returns after the last poll.", "quantifier": "every sequence of polls, every behaviour of the subscribers, every schedule", "why_tests_cant": "Needs a subscriber that stops reading, full socket buffers and more events than fit into the channel.", "anchors": ["eventsocket/server.go: sendToAllListeners, FlowCreated, FlowDeleted", "saver/saver.go: swapAndQueue, endConn", "main.go: main"]}
{"id": "C92", "title": "Where the files of a connection are found", "statement": "The first file of a connection lies in the directory yyyy/mm/dd of the UTC date of the connection's start, a later one in that of the date on which it was created; the path of a file determines directory, connection and number.", "quantifier": "every sequence of polls and every clock; every time from 1970 on; every pair of file names", "why_tests_cant": "All dates, including leap days and year ends, and runs that go on past midnight.", "anchors": ["saver/saver.go: newConnection, Rotate"]}
{"id": "C93", "title": "csvtool converts compressed and uncompressed files alike", "statement": "A name ending in .zst, as all files of the saver have, is decompressed; the table printed for it is the one printed for the decompressed data on standard input. A damaged or truncated file gives no table (unless a line of 64 KiB or more comes before the damage, which ends the conversion as if the file ended there). Several arguments or a missing file give an error.", "quantifier": "every file, every way the decompressor cuts the data into pieces or fails, every schedule", "why_tests_cant": "The pieces in which data come through the pipe and the moment at which the decompressor fails depend on the schedule.", "anchors": ["cmd/csvtool/main.go: main, openFile", "zstd/zstd.go: NewReader", "snapshot/snapshot.go: LoadAll"]}
{"id": "C94", "title": "Polls take place at most every 10 ms on average", "statement": "Poll number k begins at least k times 10 ms after the start, and in any stretch of d ms at most d/10 + 4 polls begin; no tick is forgotten except while an earlier one is still to be served; after cancellation no further poll begins and Run comes to its end. Each poll gives one value in the histogram of intervals, the time since the previous poll ended.", "quantifier": "every duration of every poll, every delay of the ticker, every moment of cancellation, every number of repetitions", "why_tests_cant": "Durations of polls and delays of the ticker are not under a test's control.", "anchors": ["collector/collector_linux.go: Run", "metrics/metrics.go: PollingHistogram"]}
{"id": "C95", "title": "Clients find the running event server under its file name", "statement": "A new server can be started after any history of servers that ended in order or crashed, or are still running, and clients reach it; while a server is running clients reach it, and when none is they get an error; if the socket cannot be made Listen returns an error.", "quantifier": "every history of starts, orderly ends and crashes of servers with the same file name, every initial contents of the directory", "why_tests_cant": "Needs crashes, leftover files and overlapping processes in all orders.", "anchors": ["eventsocket/server.go: Listen, Serve", "eventsocket/client.go: MustRun"]}
{"id": "C96", "title": "The example client ends when its connection ends", "statement": "When the connection to tcp-info ends, the example client handles the events received so far and ends.", "quantifier": "every stream of bytes from the server, every way it ends, every schedule of the goroutines", "why_tests_cant": "Termination under all schedules.", "anchors": ["cmd/example-eventsocket-client/main.go: main, ProcessOpenEvents", "eventsocket/client.go: MustRun"]}
{"id": "C97", "title": "Setting a byte counter of a record changes that counter and nothing else", "statement": "SetBytesSent and SetBytesReceived, which tests use, put the value where GetStats reads it and return the previous value; all other fields of tcp_info, the other attributes and the rest of the record stay as they were. Without the counter in tcp_info they do nothing. In programs other than tests they panic.", "quantifier": "every record, every value, every length of tcp_info", "why_tests_cant": "Every position in every record.", "anchors": ["netlink/archival-record.go: SetBytesSent, SetBytesReceived, GetStats"]}
{"id": "C98", "title": "The command polls only when it is set up, and puts its files where -output says", "statement": "Polling begins exactly if the output directory, the metrics server, the trace and the event socket, as far as asked for, could all be provided; otherwise the command ends at the first failure. All output files and the trace lie below the output directory. A client started in the same directory with the same socket name finds the server.", "quantifier": "every combination of flags, every failure, every directory the command is started in, every run of the saver", "why_tests_cant": "Every set of failures and every file of every run.", "anchors": ["main.go: main", "saver/saver.go: Rotate", "eventsocket/server.go: Listen", "eventsocket/client.go: MustRun"]}
{"id": "C99", "title": "The histograms scraped by Prometheus tell what was observed", "statement": "The program starts with the buckets it defines. Each bucket of the histograms of rates and of connection counts has the number of observations up to its bound, the count is the number of observations, and the sum is the total: of the bits sent or received, of the connections reported in the polls.", "quantifier": "every sequence of observations, every strictly increasing list of buckets, every run of the saver", "why_tests_cant": "Sequences of observations are unbounded, and the sum is a float64 that loses precision only after petabytes.", "anchors": ["metrics/metrics.go: SendRateHistogram, ReceiveRateHistogram, CacheSizeHistogram, ConnectionCountHistogram", "saver/saver.go: MessageSaverLoop", "cache/cache.go: EndCycle"]}
{"id": "C100", "title": "When the command returns, the files are on disk", "statement": "When main has returned, every output file that was opened has had its Close return and its compressor process is over; unless that compressor failed, the file holds the complete compressed form of the header and of all records queued for it, and loads back as these. The failure of one compressor affects no other file.", "quantifier": "all inputs; all schedules of collector, saver, marshallers, pipes and compressor processes, with any compressors failing to start or dying at any point", "why_tests_cant": "the interleavings of goroutines with as many external processes cannot be enumerated, nor the points at which a process can die", "anchors": ["main.go:main", "saver/saver.go:runMarshaller,Connection.Rotate", "zstd/zstd.go:NewWriter,Close"]}
{"id": "C101", "title": "Saver, marshallers and compressors do not deadlock", "statement": "With writers whose Write blocks on a full pipe and whose Close waits for the compressor, the command still ends: no execution is infinite, none gets stuck before main has returned, whatever compressors have failed.", "quantifier": "all inputs; all schedules; all pipe capacities", "why_tests_cant": "absence of deadlock is a statement about all interleavings", "anchors": ["main.go:main", "saver/saver.go:runMarshaller,MessageSaverLoop", "zstd/zstd.go:NewWriter,Close"]}
{"id": "C102", "title": "A compressor that hangs does not keep other connections from being recorded", "statement": "If the compressor of one file hangs, the connections handled by other marshallers are still recorded completely.", "quantifier": "all inputs; all schedules; every point at which a compressor can hang", "why_tests_cant": "it is about everything that can happen after an external process stops responding, for any amount of further input", "anchors": ["saver/saver.go:runMarshaller,Connection,queue", "zstd/zstd.go:Close"]}
{"id": "C103", "title": "A killed command loses nothing it had written", "statement": "If the command is killed at any moment, its compressors read what is left in their pipes and end; each file then holds at least everything the command had written to it in calls that had returned, a prefix of what a complete run writes, and loads back as all records written completely, in order.", "quantifier": "all inputs; all schedules of collector, saver, marshallers, pipes and compressor processes; every moment at which the command can be killed; every way the compressors go on", "why_tests_cant": "crash points and the state of every pipe at each of them cannot be enumerated", "anchors": ["saver/saver.go:runMarshaller,writeHeader", "zstd/zstd.go:NewWriter", "netlink/archival-record.go:LoadAllArchivalRecords"]}
{"id": "C104", "title": "Goroutines hand over files and records without data races", "statement": "Operations on one output file by whichever goroutines are ordered by the happens-before relation of the Go memory model; so are operations of different goroutines on one record; and everything that any goroutine has done has happened before the command returns.", "quantifier": "all inputs; all schedules of collector, saver and marshallers; all pairs of operations on a file or record", "why_tests_cant": "a race detector sees only the executions it is run on; the order must follow from the synchronization in every execution", "anchors": ["saver/saver.go:runMarshaller,Connection.Rotate,queue,endConn,swapAndQueue,MessageSaverLoop,Close", "main.go:main", "inetdiag/structs.go:Anonymize"]}
{"id": "C105", "title": "Setting the machine's clock does not affect what is recorded", "statement": "For the same replies of the kernel at the same moments, it makes no difference what the wall clock shows, or when and how far it is set: the same connections are announced and ended, the same files with the same numbers are created at the same moments and hold the same records, and the rates go on being exported. Only times and date directories follow the wall clock.", "quantifier": "all inputs; all pairs of wall clocks, which may be set forward or back at any time", "why_tests_cant": "tests run with the wall clock of the test machine, which agrees with its monotonic clock", "anchors": ["saver/saver.go:newConnection,Rotate,queue,endConn,MessageSaverLoop", "collector/collector_linux.go:collectDefaultNamespace"]}
{"id": "C106", "title": "No byte is shared by saver and marshallers while it is being written", "statement": "Saver and marshallers work in the same receive buffers at the same time. Of a record it has kept, and of a new record that it compares with it, the saver reads only bytes that no marshaller ever writes. Everything else that a goroutine reads or writes lies within the message it is working on, and no marshaller that works on another message writes there.", "quantifier": "every sequence of datagrams and their contents, all records made from them, every anonymizer, every moment", "why_tests_cant": "depends on how messages lie in memory and on how far the compared slices reach; a race detector sees only the messages it is run with", "anchors": ["netlink/archival-record.go:Compare,GetStats,MakeArchivalRecord,ParseRouteAttr", "inetdiag/structs.go:Anonymize,Parse", "saver/saver.go:runMarshaller,swapAndQueue,queue,MessageSaverLoop"]}
{"id": "C107", "title": "Records carry the time of the poll that reported them", "statement": "In a poll, IPv6 and then IPv4 connections are asked for; the time that a saved record carries is what the wall clock showed directly after the kernel's answer with that record, before anything else was asked. The times of records increase from family to family and from poll to poll. The duration of each dump, failing or not, is exported once. The saver gets all blocks in the order of the polls.", "quantifier": "every duration of every dump, every answer of the kernel, every delay of ticker, saver and collector, every number of polls", "why_tests_cant": "durations of dumps and delays are not under a test's control, nor is the machine's clock", "anchors": ["collector/collector_linux.go: Run, collectDefaultNamespace", "collector/socket-monitor_linux.go: OneType", "metrics/metrics.go: SyscallTimeHistogram", "main.go: main"]}
{"id": "C108", "title": "Under each path is what was written there", "statement": "When main has returned, the file under the path of each output file that was created holds, decompressed, its header and everything queued for it, unless its compressor failed. Nothing that was recorded is replaced by other files, or mixed with them.", "quantifier": "all inputs; all schedules of collector, saver, marshallers, pipes and compressor processes; any way the compressors put out their data; whatever the output directory held before", "why_tests_cant": "two files meet under one path only for certain histories of connections and certain interleavings with compressor processes", "anchors": ["saver/saver.go:Connection.Rotate,newConnection", "zstd/zstd.go:NewWriter", "main.go:main"]}
{"id": "C109", "title": "A restarted command keeps the files of earlier runs", "statement": "When the command is started again with the same output directory, the files of earlier runs stay as they are.", "quantifier": "all contents of the output directory; all inputs of the new run, all its schedules, every moment of it", "why_tests_cant": "depends on which connections outlive a run and on the days on which runs begin; tests begin with an empty directory", "anchors": ["saver/saver.go:Connection.Rotate,newConnection", "zstd/zstd.go:NewWriter", "main.go:main"]}
{"id": "C110", "title": "Snapshots read from an archive are independent of each other", "statement": "A snapshot that was read from an archive keeps the value it had when it was read: reading further records does not change it, and whoever writes to the structs of one snapshot changes no other snapshot.", "quantifier": "all archives, all numbers of records, everything that may be written to the structs of one snapshot", "why_tests_cant": "the structs are reached through pointers into buffers obtained with unsafe; a test that compares right after reading does not see a buffer that is used again", "anchors": ["snapshot/snapshot.go:Reader.Next,LoadAll,Decode,maybeCopy", "netlink/archival-record.go:archiveReader.Next", "inetdiag/structs.go:RawInetDiagMsg.Parse"]}
{"id": "C111", "title": "A decoded snapshot does not depend on the record any more", "statement": "What Decode returns keeps its value whatever is done to the record afterwards, for instance when the record is anonymized; and Decode does not change the record.", "quantifier": "all records wherever their slices are in memory, everything that may be written to them afterwards", "why_tests_cant": "whether a struct is a copy or part of the record depends on the length of each attribute", "anchors": ["snapshot/snapshot.go:Decode,maybeCopy", "inetdiag/structs.go:RawInetDiagMsg.Parse,RawInetDiagMsg.Anonymize", "netlink/archival-record.go:ArchivalRecord"]}
{"id": "C112", "title": "What is written on the command line takes effect", "statement": "Each option of tcp-info, in any of its spellings, takes effect: the last value of an option counts, all values of the lists of excluded ports and addresses; -reps means the number written (decimal, octal, binary or hexadecimal, as in Go source text), -trace is on or off as written; exactly the connections listed are left out. If an option does not exist, lacks its value or has a value that cannot be read, the program ends with status 2 before it does anything.", "quantifier": "all lists of arguments, all environments, all further flags of the libraries, all netlink messages", "why_tests_cant": "options can be combined, repeated and ordered in unboundedly many ways", "anchors": ["main.go:init,main", "eventsocket/client.go:Filename", "netlink/archival-record.go:ExcludeConfig"]}
{"id": "C113", "title": "Variables of the environment stand for options", "statement": "A variable of the environment counts as the option it stands for, if that option is not on the command line: an acceptable value takes effect, one that is not acceptable is refused. No other variable plays a part. The example client ends with an error if it has no socket.", "quantifier": "all lists of arguments, all environments, all further flags of the libraries", "why_tests_cant": "every combination of options and variables is a case of its own; values that are refused are refused silently", "anchors": ["main.go:main", "cmd/example-eventsocket-client/main.go:main", "eventsocket/client.go:Filename"]}
{"id": "C114", "title": "The histograms of durations tell how long dumps and polls took", "statement": "Scraped at any time, the histogram of dumps under an address family shows the durations of exactly the dumps of that family made so far, from the request until after the answer, and the histogram of polling intervals the times between the ends of successive polls: each bucket has the number of durations up to its bound, exact to the nanosecond, the count is their number, and the sum is right up to rounding.", "quantifier": "all executions of the collector, all durations of dumps and waits, all numbers of polls; sums up to 2^50 durations", "why_tests_cant": "durations and bounds are floating-point numbers, some bounds are results of repeated additions; whether a duration on a bound is counted there depends on rounding, for each of infinitely many durations", "anchors": ["metrics/metrics.go: SyscallTimeHistogram, PollingHistogram", "collector/socket-monitor_linux.go: OneType", "collector/collector_linux.go: Run"]}
{"id": "C115", "title": "What the command holds follows the connections", "statement": "At any moment the pipes that are open, the compressor processes that run and the output files that are open belong to connections that are being followed, or to files whose closing is on its way; their number is limited by the number of connections and of marshallers. When main has returned nothing is open and no process is left.", "quantifier": "all inputs, all schedules of collector, saver, marshallers, pipes and compressors, whatever fails, every moment", "why_tests_cant": "descriptors and processes add up over days; tests are too short to run out of them, and who still holds one depends on the schedule", "anchors": ["zstd/zstd.go:NewWriter,waitingWriteCloser.Close", "saver/saver.go:Connection.Rotate,saver.endConn,runMarshaller", "main.go:main"]}
{"id": "C116", "title": "Who is told of a connection finds its files", "statement": "Whoever listens to the events can act on them with the output: when the start of a connection is announced its first file is there, and when its end is announced its files are complete.", "quantifier": "all inputs, all schedules of saver, marshallers and compressors, all moments at which an event is sent", "why_tests_cant": "A test that reads the files after an event passes or fails by timing, and usually waits; that the file is never complete at that moment, under any schedule, cannot be seen from runs.", "anchors": ["saver/saver.go: queue, endConn, Rotate", "eventsocket/server.go: FlowCreated, FlowDeleted", "zstd/zstd.go: NewWriter, Close"]}
{"id": "C117", "title": "Connections do not influence each other", "statement": "What is recorded about a connection, and what subscribers are told about it, depends only on the reports about that connection, poll by poll. Other connections, their number, what is reported about them, the order of the dump, the clocks and the number of marshallers do not matter.", "quantifier": "every two sequences of polls with the same reports of one connection, every two environments", "why_tests_cant": "a statement about pairs of whole runs with arbitrary other traffic; tests fix one traffic mix", "anchors": ["saver/saver.go:MessageSaverLoop", "saver/saver.go:swapAndQueue", "cache/cache.go:Update", "cache/cache.go:EndCycle"]}
{"id": "C118", "title": "Every record in the archive tells something new", "statement": "A report is added to the archive exactly if the connection was not reported by the poll before, or if it differs significantly from the last record of that connection in the archive. So a connection that does nothing is recorded once, however long it is observed, and no small changes add up unnoticed.", "quantifier": "every sequence of polls, every connection, every length of idle time", "why_tests_cant": "the saver compares with the last report, not with the last saved record; that the two agree needs an argument over arbitrarily many polls in between", "anchors": ["saver/saver.go:swapAndQueue", "netlink/archival-record.go:Compare", "cache/cache.go:Update,EndCycle"]}
{"id": "C119", "title": "The archive tells nothing about addresses but their anonymized form", "statement": "Two daemons with the same configuration and clocks, whose kernels report the same except for addresses that the anonymizer maps to the same (and that are excluded alike), leave the same archive: the same files under the same names, with the same bytes, at the same times, and the same exported statistics. So nobody who has the archive can learn more about an address than its anonymized form, neither from the text nor from which records exist.", "quantifier": "every pair of poll sequences that differ in addresses only, every anonymization function, every schedule of each of the two daemons, every moment", "why_tests_cant": "it compares two whole runs that no test has side by side, for all inputs that differ in what must stay secret; addresses take part in decisions (comparison, exclusion, family) before they are anonymized, and are anonymized in the buffer that the cache still refers to", "anchors": ["inetdiag/structs.go:Anonymize", "saver/saver.go:swapAndQueue,runMarshaller", "netlink/archival-record.go:MakeArchivalRecord,Compare", "main.go:main"]}
{"id": "C120", "title": "A file that cannot be created costs one record, and nothing after the disk works again", "statement": "When a file cannot be created (disk full, no permission), exactly the record that was to begin it is lost: one for each failed attempt, of the same connection. Connections that have an open file are not affected, no other connection is, and once files can be created again every connection that is reported is in the archive.", "quantifier": "every sequence of polls, every pattern of failing and succeeding creations of files, every clock", "why_tests_cant": "disks fill up and are cleaned at any moment, also between the two files of a connection; tests make all creations fail or none, and do not go on polling afterwards", "anchors": ["saver/saver.go:Rotate,queue,swapAndQueue,endConn", "zstd/zstd.go:NewWriter", "metrics/metrics.go:NewFileCount"]}
{"id": "C121", "title": "No file of the archive is without a record", "statement": "Every file that a completed run has created holds its metadata line and at least one record of its connection; so there are never more files than records.", "quantifier": "every sequence of polls, every pattern of failing creations of files, every clock, every schedule of saver and marshallers", "why_tests_cant": "a file is created by one goroutine and filled by another, and rotation, failing creations and the end of connections can come in between; tests look at the files of one short run", "anchors": ["saver/saver.go:Rotate,queue,runMarshaller,endConn,Close", "inetdiag/structs.go: Anonymize"]}
