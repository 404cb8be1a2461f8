import Verif.Model.Cache
import Verif.Model.Collector
/-!
# Package saver: the saver goroutine

The saver is a deterministic function of its input blocks and of an environment (`Env`): clock readings, outcomes of file creation, map
iteration orders, and what it sees when it re-reads cached records (which marshallers may meanwhile have anonymized in place). What it
does to the outside world is recorded in a trace of actions, in program order. `none` as a result means that the process panicked.
The marshaller goroutines which execute the tasks are in `Model.Marshal`.
-/

namespace TcpInfo

/-- Ten minutes in nanoseconds (saver/saver.go:139). -/
abbrev tenMinutes : Int := 600000000000

/-- `time.Time{}` in nanoseconds since the Unix epoch (year 1). -/
def zeroTime : Int := -62135596800 * 1000000000

/-- Everything the saver goroutine depends on besides its input. Each use of the environment increments the state's `tick`, which
indexes these functions, so that successive uses are independent. -/
structure Env where
  /-- The monotonic reading of the n-th `time.Now()`. `Time.After` and `Time.Add` (saver/saver.go:108, 138, 276) work on it, so that steps of the
  wall clock have no effect on them. -/
  now : Nat → Int
  /-- The wall clock when the monotonic clock shows t: any function, since the wall clock can be set to anything at any time. `Time.UTC` drops the
  monotonic reading, `Format` and JSON use the wall clock (saver/saver.go:125-126, 291). -/
  wall : Int → Int
  /-- whether `os.MkdirAll` and `zstd.NewWriter` both succeed -/
  createOK : Nat → Bool
  /-- order in which `range` visits the keys of a map -/
  order : Nat → List UInt64 → List UInt64
  order_perm : ∀ n l, (order n l).Perm l
  /-- what reading a cached record yields: the record, with header addresses possibly overwritten by a marshaller -/
  view : Nat → ArchivalRecord → ArchivalRecord
  /-- `uuid.FromCookie` (host and boot time prefix, cookie in hex) -/
  uuid : UInt64 → String
  uuid_inj : ∀ a b, uuid a = uuid b → a = b
  /-- `t.Format("2006/01/02")` -/
  date : Int → String
  /-- `numMarshaller` -/
  marshallers : Nat
  /-- `svr.exclude` -/
  exclude : Option ExcludeConfig

/-- saver/saver.go:133 the file name `"%s/%s.%05d.jsonl.zst"`, as its three components. -/
structure FileName where
  dir : String
  uuid : String
  sequence : Nat
  deriving DecidableEq, Inhabited

/-- saver/saver.go:51-55 `Task`. A writer is identified by the number of the successful file creation that made it. -/
structure Task where
  message : Option ArchivalRecord
  writer : Option Nat
  deriving DecidableEq, Inhabited

/-- What the saver goroutine does. -/
inductive Action where
  /-- `eventServer.FlowCreated` (saver/saver.go:271) -/
  | flowCreated (t : Int) (uuid : String) (id : SockID)
  /-- `eventServer.FlowDeleted` (saver/saver.go:291) -/
  | flowDeleted (t : Int) (uuid : String)
  /-- `Rotate`: file created, header line written (saver/saver.go:133-140) -/
  | openFile (w : Nat) (name : FileName) (header : ArchivalRecord)
  /-- `q <- task` -/
  | send (q : Nat) (task : Task)
  /-- `SendRateHistogram.Observe(8 * n)` -/
  | observeSent (n : UInt64)
  /-- `ReceiveRateHistogram.Observe(8 * n)` -/
  | observeReceived (n : UInt64)
  /-- `close` of all marshaller channels, `Done.Done()` (saver/saver.go:492-495) -/
  | closeChans
  deriving DecidableEq, Inhabited

/-- An action together with the saver's most recent clock reading. -/
structure Stamped where
  time : Int
  act : Action
  deriving DecidableEq, Inhabited

/-- saver/saver.go:95-104 `Connection` (`Slice` is always empty and left out). -/
structure Conn where
  inode : UInt32
  id : SockID
  uid : UInt32
  startTime : Int
  sequence : Nat
  expiration : Int
  writer : Option Nat
  deriving DecidableEq, Inhabited

/-- saver/saver.go:191-194 `TcpStats`. -/
structure TcpStats where
  sent : UInt64
  received : UInt64
  deriving DecidableEq, Inhabited

/-- saver/saver.go:158-163 `stats` (counters; overflow of int64 not modelled). -/
structure Counters where
  total : Nat
  new : Nat
  diff : Nat
  expired : Nat
  deriving DecidableEq, Inhabited

/-- saver/saver.go:200-215 `Saver`, plus bookkeeping of the model: `tick` (uses of the environment), `clock` (last clock reading),
`nextWriter` (files created so far), `trace`. -/
structure Saver where
  conns : GoMap Conn
  closingStats : GoMap TcpStats
  closingTotals : TcpStats
  cache : Cache
  stats : Counters
  tick : Nat
  clock : Int
  nextWriter : Nat
  trace : List Stamped
  deriving DecidableEq, Inhabited

/-- saver/saver.go:218-244 `NewSaver`. -/
def newSaver : Saver :=
  { conns := [], closingStats := [], closingTotals := ⟨0, 0⟩, cache := newCache, stats := ⟨0, 0, 0, 0⟩, tick := 0, clock := 0,
    nextWriter := 0, trace := [] }

/-- Append to the trace. -/
def Saver.emit (s : Saver) (a : Action) : Saver := { s with trace := s.trace ++ [⟨s.clock, a⟩] }
/-- A call of `time.Now()`. -/
def Saver.readClock (env : Env) (s : Saver) : Saver := { s with tick := s.tick + 1, clock := env.now s.tick }

/-- saver/saver.go:106-110 `newConnection`; `now` is the reading of the clock. -/
def newConnection (info : InetDiagMsg) (timestamp now : Int) : Conn :=
  { inode := info.inode, id := info.id.getSockID, uid := info.uid, startTime := timestamp, sequence := 0, expiration := now, writer := none }

/-- saver/saver.go:144-156 `writeHeader`: the header record. -/
def headerRecord (env : Env) (conn : Conn) : ArchivalRecord :=
  { timestamp := zeroTime, rawIDM := none, attributes := none,
    metadata := some { uuid := env.uuid conn.id.cookieUint64, sequence := conn.sequence, startTime := conn.startTime } }

/-- saver/saver.go:121-127 of `Rotate`: the date directory. -/
def Saver.rotateDir (env : Env) (s : Saver) (conn : Conn) : Saver × String :=
  if conn.sequence > 0 then
    let s := s.readClock env
    (s, env.date (env.wall s.clock))
  else (s, env.date conn.startTime)

/-- saver/saver.go:120-142 `Rotate`. On failure `conn.Writer` is nil (128-131 leave it, 133 assigns the nil returned). -/
def Saver.rotate (env : Env) (s : Saver) (conn : Conn) : Saver × Conn × Option GoErr :=
  let sd := s.rotateDir env conn
  let ok := env.createOK sd.1.tick
  let s := { sd.1 with tick := sd.1.tick + 1 }
  if ok = false then (s, { conn with writer := none }, some .create)
  else
    let w := s.nextWriter
    let name : FileName := { dir := sd.2, uuid := env.uuid conn.id.cookieUint64, sequence := conn.sequence }
    ({ s with nextWriter := w + 1 }.emit (.openFile w name (headerRecord env conn)),
     { conn with writer := some w, expiration := conn.expiration + tenMinutes, sequence := conn.sequence + 1 },
     none)

/-- `svr.MarshalChans[cookie % len]` (saver/saver.go:261, 292). -/
def queueOf (env : Env) (cookie : UInt64) : Nat := (cookie % UInt64.ofNat env.marshallers).toNat

/-- saver/saver.go:262-275: look up or create the connection. -/
def Saver.getConn (env : Env) (s : Saver) (cookie : UInt64) (idm : InetDiagMsg) (timestamp : Int) : Saver × Conn :=
  match s.conns.get cookie with
  | some c => (s, c)
  | none =>
    let s := s.readClock env
    let c := newConnection idm timestamp s.clock
    let s := s.emit (.flowCreated timestamp (env.uuid cookie) idm.id.getSockID)
    ({ s with conns := s.conns.set cookie c }, c)

/-- saver/saver.go:276-279: close the file if it is expired. -/
def Saver.closeExpired (env : Env) (s : Saver) (cookie : UInt64) (conn : Conn) : Saver × Conn :=
  let s := s.readClock env
  if conn.expiration < s.clock ∧ conn.writer.isSome then
    (s.emit (.send (queueOf env cookie) { message := none, writer := conn.writer }), { conn with writer := none })
  else (s, conn)

/-- saver/saver.go:248-288 `queue`; `none` = panic (nil pointer when the header does not parse). Log lines are left out. -/
def Saver.queue (env : Env) (s : Saver) (msg : ArchivalRecord) : Option (Saver × Option GoErr) :=
  match parseIDM msg.raw with
  | .err _ => none
  | .panic => none
  | .ok idm =>
    let cookie := cookieOf idm
    if cookie = 0 then some (s, some .cookieZero)
    else if env.marshallers < 1 then some (s, some .noMarshallers)
    else
      let sc := s.getConn env cookie idm msg.timestamp
      let sc := sc.1.closeExpired env cookie sc.2
      let sce := if sc.2.writer = none then sc.1.rotate env sc.2 else (sc.1, sc.2, none)
      let s := { sce.1 with conns := sce.1.conns.set cookie sce.2.1 }
      match sce.2.2 with
      | some e => some (s, some e)
      | none => some (s.emit (.send (queueOf env cookie) { message := some msg, writer := sce.2.1.writer }), none)

/-- saver/saver.go:290-298 `endConn`; `none` = panic (division by zero without marshallers). -/
def Saver.endConn (env : Env) (s : Saver) (cookie : UInt64) : Option Saver :=
  let s := s.readClock env
  let s := s.emit (.flowDeleted (env.wall s.clock) (env.uuid cookie))
  if env.marshallers = 0 then none
  else match s.conns.get cookie with
    | some conn =>
      if conn.writer.isSome then
        some { s.emit (.send (queueOf env cookie) { message := none, writer := conn.writer }) with conns := s.conns.del cookie }
      else some s
    | none => some s

/-- saver/saver.go:454-464: the closing statistics. -/
def Saver.recordClosing (s : Saver) (cookie : UInt64) (pm old : ArchivalRecord) : Saver :=
  if hasDiagInfo pm = false ∧ hasDiagInfo old = true then
    { s with closingStats := s.closingStats.set cookie ⟨(getStats old).1, (getStats old).2⟩
             closingTotals := ⟨s.closingTotals.sent + (getStats old).1, s.closingTotals.received + (getStats old).2⟩ }
  else s

/-- saver/saver.go:432-482 `swapAndQueue`; `none` = panic. `change > NoMajorChange` is `change ≠ NoMajorChange` (constants from 0 up,
netlink/archival-record.go:179-190). -/
def Saver.swapAndQueue (env : Env) (s : Saver) (pm : ArchivalRecord) : Option Saver :=
  let s := { s with stats := { s.stats with total := s.stats.total + 1 } }
  match s.cache.update pm with
  | (_, .panic) => none
  | (c, .err _) => some { s with cache := c }
  | (c, .ok none) =>
    let s := { s with cache := c, stats := { s.stats with new := s.stats.new + 1 } }
    (s.queue env pm).map (·.1)
  | (c, .ok (some cached)) =>
    let old := env.view s.tick cached
    let s := { s with cache := c, tick := s.tick + 1 }
    match parseIDM pm.raw with
    | .panic => none
    | .err _ => some s
    | .ok pmIDM =>
      let s := s.recordClosing (cookieOf pmIDM) pm old
      match compareRecords pm (some old) with
      | .panic => none
      | .err _ => some s
      | .ok change =>
        if change ≠ .noMajorChange then
          let s := { s with stats := { s.stats with diff := s.stats.diff + 1 } }
          (s.queue env pm).map (·.1)
        else some s

/-- saver/saver.go:302-328 `handleType`: new state and the byte totals. -/
def Saver.handleType (env : Env) (t : Int) : List (Option NetlinkMessage) → Saver → UInt64 → UInt64 → Option (Saver × UInt64 × UInt64)
  | [], s, a, b => some (s, a, b)
  | none :: msgs, s, a, b => Saver.handleType env t msgs s a b
  | some msg :: msgs, s, a, b =>
    match makeArchivalRecord msg env.exclude with
    | .panic => none
    | .err _ => Saver.handleType env t msgs s a b
    | .ok none => Saver.handleType env t msgs s a b
    | .ok (some ar) =>
      let ar := { ar with timestamp := t }
      let st := getStats ar
      match s.swapAndQueue env ar with
      | none => none
      | some s => Saver.handleType env t msgs s (a + st.1) (b + st.2)

/-- Local variables of `MessageSaverLoop` (saver/saver.go:334-336); `closeLogCount` only limits logging. -/
structure LoopState where
  svr : Saver
  reported : TcpStats
  closed : TcpStats
  lastReportTime : Int
  deriving DecidableEq, Inhabited

/-- saver/saver.go:334-335: initial loop state. -/
def newLoop : LoopState := { svr := newSaver, reported := ⟨0, 0⟩, closed := ⟨0, 0⟩, lastReportTime := -62135596800 }

/-- saver/saver.go:355-371: the statistics of a connection that disappeared, whose last record is `ar`. -/
def Saver.finalStats (s : Saver) (cookie : UInt64) (ar : ArchivalRecord) : Saver × TcpStats :=
  if hasDiagInfo ar = false then
    match s.closingStats.get cookie with
    | some stats =>
      ({ s with closingTotals := ⟨s.closingTotals.sent - stats.sent, s.closingTotals.received - stats.received⟩
                closingStats := s.closingStats.del cookie }, stats)
    | none => (s, ⟨0, 0⟩)
  else (s, ⟨(getStats ar).1, (getStats ar).2⟩)

/-- saver/saver.go:353-385: one iteration of the loop over the residual map. -/
def LoopState.expire (env : Env) (residual : GoMap ArchivalRecord) (l : LoopState) (cookie : UInt64) : Option LoopState :=
  match residual.get cookie with
  | none => some l
  | some cached =>
    let ar := env.view l.svr.tick cached
    let ss := { l.svr with tick := l.svr.tick + 1 }.finalStats cookie ar
    match ss.1.endConn env cookie with
    | none => none
    | some s =>
      some { l with svr := { s with stats := { s.stats with expired := s.stats.expired + 1 } }
                    closed := ⟨l.closed.sent + ss.2.sent, l.closed.received + ss.2.received⟩ }

/-- `10*maxSwitchSpeed/8` (saver/saver.go:35, 400). -/
def maxDelta : UInt64 := 12500000000

/-- saver/saver.go:400, 413: whether a total is skipped. -/
def skipReport (total reported : UInt64) : Bool := total > maxDelta + reported || total < reported

/-- `t.Unix()`. -/
def unixSeconds (t : Int) : Int := t / 1000000000

/-- saver/saver.go:388-427: the once per second report. `liveS`, `liveR` are `s4+s6`, `r4+r6`. -/
def LoopState.report (l : LoopState) (v4Time : Int) (s4 s6 r4 r6 : UInt64) : LoopState :=
  if unixSeconds v4Time > l.lastReportTime then
    let totalSent := l.closed.sent + l.svr.closingTotals.sent + s4 + s6
    let totalReceived := l.closed.received + l.svr.closingTotals.received + r4 + r6
    let l := if skipReport totalSent l.reported.sent then l
      else { l with svr := l.svr.emit (.observeSent (totalSent - l.reported.sent)), reported := { l.reported with sent := totalSent } }
    let l := if skipReport totalReceived l.reported.received then l
      else { l with svr := l.svr.emit (.observeReceived (totalReceived - l.reported.received)), reported := { l.reported with received := totalReceived } }
    { l with lastReportTime := unixSeconds v4Time }
  else l

/-- The loop over the residual map in a given order. -/
def LoopState.expireAll (env : Env) (residual : GoMap ArchivalRecord) : List UInt64 → LoopState → Option LoopState
  | [], l => some l
  | k :: ks, l => (l.expire env residual k).bind (LoopState.expireAll env residual ks)

/-- saver/saver.go:338-428: the body of the loop, for one block; `none` = panic. -/
def LoopState.block (env : Env) (l : LoopState) (msgs : MessageBlock) : Option LoopState :=
  match l.svr.handleType env msgs.v4Time msgs.v4Messages 0 0 with
  | none => none
  | some (s, s4, r4) =>
    match s.handleType env msgs.v6Time msgs.v6Messages 0 0 with
    | none => none
    | some (s, s6, r6) =>
      let (c, residual) := s.cache.endCycle
      let keys := env.order s.tick residual.keys
      let l := { l with svr := { s with cache := c, tick := s.tick + 1 } }
      match LoopState.expireAll env residual keys l with
      | none => none
      | some l => some (l.report msgs.v4Time s4 s6 r4 r6)

/-- saver/saver.go:331-428: all blocks received until the channel is closed. -/
def LoopState.blocks (env : Env) : List MessageBlock → LoopState → Option LoopState
  | [], l => some l
  | b :: bs, l => (l.block env b).bind (LoopState.blocks env bs)

/-- saver/saver.go:488-490: the loop over the connections in `Close`. -/
def Saver.endAll (env : Env) : List UInt64 → Saver → Option Saver
  | [], s => some s
  | k :: ks, s => (s.endConn env k).bind (Saver.endAll env ks)

/-- saver/saver.go:485-496 `Close`. -/
def Saver.close (env : Env) (s : Saver) : Option Saver :=
  (Saver.endAll env (env.order s.tick s.conns.keys) { s with tick := s.tick + 1 }).map (fun s => s.emit .closeChans)

/-- saver/saver.go:331-430 `MessageSaverLoop` for a finite input, on a new saver, without the final `Close`. -/
def runBlocks (env : Env) (bs : List MessageBlock) : Option LoopState := LoopState.blocks env bs newLoop

/-- saver/saver.go:331-430 `MessageSaverLoop` including `Close`. -/
def runSaver (env : Env) (bs : List MessageBlock) : Option Saver := (runBlocks env bs).bind (fun l => l.svr.close env)

/-- saver/saver.go:500-506 `LogCacheStats`: the five numbers logged (total, local, same, diff, new). -/
def logCacheStats (s : Counters) (localCount errCount : Int) : Int × Int × Int × Int × Int :=
  ((s.total : Int) + localCount, localCount, (s.total : Int) - (errCount + s.new + s.diff + localCount), (s.diff : Int), (s.new : Int))

end TcpInfo
