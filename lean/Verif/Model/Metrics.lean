import Verif.Model.Saver
import Verif.Model.Snapshot
/-!
# Package metrics: what is exported to Prometheus

Each function lists the increments and observations made by the function of the code that it is named after, in their order. The control flow is that of the
models of these functions. Not included: histograms of durations (`SyscallTimeHistogram` is in `Model.PollTimes`, `PollingHistogram` in `Model.Ticker`); buckets.
-/

namespace TcpInfo

/-- metrics/metrics.go: an increment of a counter, or an observation of a histogram. -/
inductive Metric where
  /-- tcpinfo_snapshot_total -/
  | snapshot
  /-- tcpinfo_new_file_total -/
  | newFile
  /-- tcpinfo_flow_events_total -/
  | flowEvent (event : String)
  /-- tcpinfo_error_total -/
  | error (type : String)
  /-- tcpinfo_cache_count_histogram -/
  | cacheSize (n : Nat)
  /-- tcpinfo_send_rate_histogram, in bytes (the value is 8 times that) -/
  | sendRate (n : UInt64)
  /-- tcpinfo_receive_rate_histogram, in bytes -/
  | receiveRate (n : UInt64)
  /-- tcpinfo_connection_count_histogram -/
  | connCount (af : String) (n : Nat)
  /-- netlink_skipped_total -/
  | skipped (type : String)
  /-- large_netlink_total -/
  | large (type : String)
  deriving DecidableEq

/-! ## Saver -/

/-- eventsocket/server.go:169-177 `FlowCreated` of a server made by `New` (`events`), 200 of the null server. -/
def flowCreatedMetrics (events : Bool) : List Metric := if events then [.flowEvent "open"] else []
/-- eventsocket/server.go:180-186 `FlowDeleted`, 201. -/
def flowDeletedMetrics (_events : Bool) : List Metric := []

/-- saver/saver.go:120-142 `Rotate`. -/
def rotateMetrics (env : Env) (s : Saver) (conn : Conn) : List Metric :=
  if env.createOK (s.rotateDir env conn).1.tick = false then [] else [.newFile]

/-- saver/saver.go:262-275 of `queue`: the connection is looked up, and created if it is not there. -/
def getConnMetrics (events : Bool) : Option Conn → List Metric
  | some _ => []
  | none => flowCreatedMetrics events

/-- saver/saver.go:248-288 `queue`. -/
def queueMetrics (events : Bool) (env : Env) (s : Saver) (msg : ArchivalRecord) : List Metric :=
  match parseIDM msg.raw with
  | .ok idm =>
    let cookie := cookieOf idm
    if cookie = 0 then []
    else if env.marshallers < 1 then []
    else
      let sc := s.getConn env cookie idm msg.timestamp
      let sc' := sc.1.closeExpired env cookie sc.2
      getConnMetrics events (s.conns.get cookie)
        ++ (if sc'.2.writer = none then rotateMetrics env sc'.1 sc'.2 else [])
  | _ => []

/-- saver/saver.go:290-298 `endConn`. -/
def endConnMetrics (events : Bool) : List Metric := flowDeletedMetrics events

/-- saver/saver.go:432-482 `swapAndQueue`. -/
def swapMetrics (events : Bool) (env : Env) (s : Saver) (pm : ArchivalRecord) : List Metric :=
  let s := { s with stats := { s.stats with total := s.stats.total + 1 } }
  match s.cache.update pm with
  | (c, .ok none) => .snapshot :: queueMetrics events env { s with cache := c, stats := { s.stats with new := s.stats.new + 1 } } pm
  | (c, .ok (some cached)) =>
    let old := env.view s.tick cached
    let s := { s with cache := c, tick := s.tick + 1 }
    match parseIDM pm.raw with
    | .ok pmIDM =>
      let s := s.recordClosing (cookieOf pmIDM) pm old
      match compareRecords pm (some old) with
      | .ok change =>
        if change ≠ .noMajorChange then .snapshot :: queueMetrics events env { s with stats := { s.stats with diff := s.stats.diff + 1 } } pm else []
      | _ => []
    | _ => []
  | _ => []

/-- saver/saver.go:302-328 `handleType`. -/
def handleMetrics (events : Bool) (env : Env) (t : Int) : List (Option NetlinkMessage) → Saver → List Metric
  | [], _ => []
  | none :: msgs, s => handleMetrics events env t msgs s
  | some msg :: msgs, s =>
    match makeArchivalRecord msg env.exclude with
    | .ok (some ar) =>
      let ar := { ar with timestamp := t }
      match s.swapAndQueue env ar with
      | none => swapMetrics events env s ar
      | some s' => swapMetrics events env s ar ++ handleMetrics events env t msgs s'
    | .panic => []
    | _ => handleMetrics events env t msgs s

/-- saver/saver.go:400-411, 413-424: one direction of the report. -/
def directionMetrics (total reported : UInt64) (less exceeds : String) (observe : UInt64 → Metric) : List Metric :=
  if skipReport total reported then (if total < reported then [.error less] else [.error exceeds]) else [observe (total - reported)]

/-- saver/saver.go:388-427: the once per second report. -/
def reportMetrics (l : LoopState) (v4Time : Int) (s4 s6 r4 r6 : UInt64) : List Metric :=
  if unixSeconds v4Time > l.lastReportTime then
    directionMetrics (l.closed.sent + l.svr.closingTotals.sent + s4 + s6) l.reported.sent
      "totalSent < reportedSent" "totalSent-reportedSent exceeds network capacity" .sendRate
    ++ directionMetrics (l.closed.received + l.svr.closingTotals.received + r4 + r6) l.reported.received
      "totalReceived < reportedReceived" "totalReceived-reportedReceived exceeds network capacity" .receiveRate
  else []

/-- cache/cache.go:52-53 `EndCycle`. -/
def endCycleMetrics (c : Cache) : List Metric := [.cacheSize c.current.length]

/-- saver/saver.go:338-428: the body of the loop, for one block. Simplification: if `endConn` panics, what is listed after it is that of the other
connections. -/
def blockMetrics (events : Bool) (env : Env) (l : LoopState) (b : MessageBlock) : List Metric :=
  handleMetrics events env b.v4Time b.v4Messages l.svr ++
    match l.svr.handleType env b.v4Time b.v4Messages 0 0 with
    | none => []
    | some (s, s4, r4) =>
      handleMetrics events env b.v6Time b.v6Messages s ++
        match s.handleType env b.v6Time b.v6Messages 0 0 with
        | none => []
        | some (s, s6, r6) =>
          let (c, residual) := s.cache.endCycle
          let keys := env.order s.tick residual.keys
          endCycleMetrics s.cache ++ keys.flatMap (fun _ => endConnMetrics events) ++
            match LoopState.expireAll env residual keys { l with svr := { s with cache := c, tick := s.tick + 1 } } with
            | none => []
            | some l => reportMetrics l b.v4Time s4 s6 r4 r6

/-- saver/saver.go:331-428: all blocks. -/
def blocksMetrics (events : Bool) (env : Env) : List MessageBlock → LoopState → List Metric
  | [], _ => []
  | b :: bs, l => blockMetrics events env l b ++ match l.block env b with
    | none => []
    | some l' => blocksMetrics events env bs l'

/-- saver/saver.go:331-430 `MessageSaverLoop` on a new saver, including `Close` (485-496). -/
def saverMetrics (events : Bool) (env : Env) (bs : List MessageBlock) : List Metric :=
  blocksMetrics events env bs newLoop ++
    match runBlocks env bs with
    | none => []
    | some l => (env.order l.svr.tick l.svr.conns.keys).flatMap (fun _ => endConnMetrics events)

/-! ## Collector -/

/-- collector/socket-monitor_linux.go:40-70 `processSingleMessage`. -/
def messageMetrics (m : NetlinkMessage) (seq pid : UInt32) : List Metric :=
  if m.header.seq ≠ seq then [.error "wrong seq num"]
  else if m.header.pid ≠ pid then [.error "wrong pid"]
  else if m.header.type = NLMSG_DONE then []
  else if m.header.type = NLMSG_ERROR then
    if m.data.length < 4 then [] else if u32At 0 m.data = 0 then [] else [.error "NLMSG_ERROR"]
  else []

/-- collector/socket-monitor_linux.go:121-135: the inner loop over one batch. -/
def batchMetrics (seq pid : UInt32) : List NetlinkMessage → List Metric
  | [] => []
  | m :: ms =>
    messageMetrics m seq pid ++ match processSingleMessage m seq pid with
      | (_, true, none) => batchMetrics seq pid ms
      | _ => []

/-- collector/socket-monitor_linux.go:114-136: the receive loop; the second component is `len(res)` when `OneType` returns (`none`: it is waiting). -/
def loopMetrics (seq pid : UInt32) : List (Except GoErr (List NetlinkMessage)) → (res : List NetlinkMessage) → List Metric × Option Nat
  | [], _ => ([], none)
  | .error _ :: _, res => ([], some res.length)
  | .ok msgs :: script, res =>
    match oneTypeBatch seq pid msgs res with
    | (res, some _) => (batchMetrics seq pid msgs, some res.length)
    | (res, none) =>
      let r := loopMetrics seq pid script res
      (batchMetrics seq pid msgs ++ r.1, r.2)

/-- collector/socket-monitor_linux.go:78-85: the label. -/
def afLabel (inetType : UInt8) : String := if inetType = 2 then "ipv4" else if inetType = 10 then "ipv6" else "unknown"

/-- collector/socket-monitor_linux.go:74-137 `OneType`, with the deferred observation. -/
def dumpMetrics (inetType : UInt8) (setup : Option GoErr) (seq pid : UInt32) (script : List (Except GoErr (List NetlinkMessage))) : List Metric :=
  match setup with
  | some _ => [.connCount (afLabel inetType) 0]
  | none =>
    match loopMetrics seq pid script [] with
    | (ms, none) => ms
    | (ms, some n) => ms ++ [.connCount (afLabel inetType) n]

/-! ## Snapshot -/

/-- snapshot/snapshot.go:113-124 `maybeCopy`. -/
def maybeCopyMetrics (src : Bytes) (size : Nat) (msgType : String) : List Metric :=
  if src.length < size then [] else if src.length > size then [.large msgType] else []

/-- snapshot/snapshot.go:46-91: the `switch` in `Decode`. -/
def switchMetrics (t : Nat) (raw : Bytes) : List Metric :=
  match t with
  | 1 => maybeCopyMetrics raw (goSizeof goMemInfo) "MemInfo"
  | 2 => maybeCopyMetrics raw (goSizeof goTCPInfo) "TCPInfo"
  | 3 => maybeCopyMetrics raw (goSizeof goVegasInfo) "VegasInfo"
  | 4 | 5 | 6 | 8 | 10 | 15 | 17 | 18 => []
  | 7 => maybeCopyMetrics raw (goSizeof goSocketMemInfo) "SockMemInfo"
  | 9 => maybeCopyMetrics raw (goSizeof goDCTCPInfo) "DCTCPInfo"
  | 11 => [.skipped "INET_DIAG_SKV6ONLY"]
  | 12 => [.skipped "INET_DIAG_LOCALS"]
  | 13 => [.skipped "INET_DIAG_PEERS"]
  | 14 => [.skipped "INET_DIAG_PAD"]
  | 16 => maybeCopyMetrics raw (goSizeof goBBRInfo) "BBRInfo"
  | t => [.skipped (toString t)]

/-- snapshot/snapshot.go:41-96: the loop over the attributes, up to a panic if there is one. -/
def decodeLoopMetrics : (t : Nat) → List (Option GoSlice) → List Metric
  | _, [] => []
  | t, none :: as => decodeLoopMetrics (t + 1) as
  | t, some raw :: as =>
    switchMetrics t raw.val ++ if t = 4 ∧ raw.val = [] then [] else decodeLoopMetrics (t + 1) as

/-- snapshot/snapshot.go:27-99 `Decode`. -/
def decodeMetrics (ar : ArchivalRecord) : List Metric :=
  if ar.metadata = none ∧ ar.rawIDM = none then []
  else match ar.rawIDM with
    | none => decodeLoopMetrics 0 ar.attrs
    | some raw => match parseIDM raw with
      | .ok _ => decodeLoopMetrics 0 ar.attrs
      | _ => []

end TcpInfo
