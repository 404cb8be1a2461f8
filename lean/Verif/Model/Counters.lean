import Verif.Model.Saver
/-!
# Counters read while the saver is running; results and summary of the collector

`LogCacheStats` is called by the collector's goroutine (collector/collector_linux.go:74-76) while the saver's goroutine increments the counters with
`sync/atomic`. Atomic operations are sequentially consistent, so that a call of `Copy` reads its four counters at four successive points of the sequence of
increments.
-/

namespace TcpInfo

/-- saver/saver.go:165-179: an atomic increment of one of the counters. -/
inductive Inc where
  | total
  | new
  | diff
  | expired
  deriving DecidableEq

/-- saver/saver.go:165-179 `IncTotalCount`, `IncNewCount`, `IncDiffCount`, `IncExpiredCount`. -/
def Counters.inc (c : Counters) : Inc → Counters
  | .total => { c with total := c.total + 1 }
  | .new => { c with new := c.new + 1 }
  | .diff => { c with diff := c.diff + 1 }
  | .expired => { c with expired := c.expired + 1 }

/-- The counters after a sequence of increments. -/
def Counters.after (c : Counters) (is : List Inc) : Counters := is.foldl Counters.inc c

/-- saver/saver.go:432-482: the increments made by `swapAndQueue`, in their order. -/
def swapIncs (env : Env) (s : Saver) (pm : ArchivalRecord) : List Inc :=
  .total :: match s.cache.update pm with
    | (_, .ok none) => [.new]
    | (_, .ok (some cached)) =>
      match parseIDM pm.raw with
      | .ok _ =>
        match compareRecords pm (some (env.view s.tick cached)) with
        | .ok change => if change ≠ .noMajorChange then [.diff] else []
        | _ => []
      | _ => []
    | _ => []

/-- saver/saver.go:302-328: the increments made during `handleType`. -/
def handleIncs (env : Env) (t : Int) : List (Option NetlinkMessage) → Saver → List Inc
  | [], _ => []
  | none :: msgs, s => handleIncs env t msgs s
  | some msg :: msgs, s =>
    match makeArchivalRecord msg env.exclude with
    | .ok (some ar) =>
      let ar := { ar with timestamp := t }
      match s.swapAndQueue env ar with
      | none => swapIncs env s ar
      | some s' => swapIncs env s ar ++ handleIncs env t msgs s'
    | .panic => []
    | _ => handleIncs env t msgs s

/-- saver/saver.go:338-428: the increments made while a block is handled. Simplification: if `endConn` panics (there are no marshallers), the increments
that would follow it are listed nevertheless. -/
def blockIncs (env : Env) (l : LoopState) (b : MessageBlock) : List Inc :=
  handleIncs env b.v4Time b.v4Messages l.svr ++
    match l.svr.handleType env b.v4Time b.v4Messages 0 0 with
    | none => []
    | some (s, _, _) =>
      handleIncs env b.v6Time b.v6Messages s ++
        match s.handleType env b.v6Time b.v6Messages 0 0 with
        | none => []
        | some (s, _, _) => s.cache.endCycle.2.keys.map (fun _ => .expired)

/-- saver/saver.go:331-430: the increments made while a sequence of blocks is handled. -/
def blocksIncs (env : Env) : List MessageBlock → LoopState → List Inc
  | [], _ => []
  | b :: bs, l => blockIncs env l b ++ match l.block env b with
    | none => []
    | some l' => blocksIncs env bs l'

/-- saver/saver.go:181-188 `Copy`, called while the increments `is` take place: the four loads happen after `p1`, `p2`, `p3` and `p4` of them. -/
def copyDuring (is : List Inc) (p1 p2 p3 p4 : Nat) : Counters :=
  { total := (Counters.after ⟨0, 0, 0, 0⟩ (is.take p1)).total
    new := (Counters.after ⟨0, 0, 0, 0⟩ (is.take p2)).new
    diff := (Counters.after ⟨0, 0, 0, 0⟩ (is.take p3)).diff
    expired := (Counters.after ⟨0, 0, 0, 0⟩ (is.take p4)).expired }

/-- What the two calls of `OneType` of one poll returned: messages and error, for AF_INET6 and AF_INET. -/
structure PollResult where
  res6 : List NetlinkMessage × Option GoErr
  res4 : List NetlinkMessage × Option GoErr
  deriving Inhabited

/-- collector/collector_linux.go:25-54 `collectDefaultNamespace`: the two numbers returned. -/
def pollCounts (p : PollResult) : Nat × Nat := (p.res4.1.length + p.res6.1.length, 0)

/-- Variables of `Run` (collector/collector_linux.go:58-62); `localCount` and `errCount` are its named results. -/
structure RunVars where
  totalCount : Nat
  remoteCount : Nat
  loops : Nat
  localCount : Int
  errCount : Int
  deriving DecidableEq, Inhabited

/-- collector/collector_linux.go:70-72: one iteration of the loop. -/
def RunVars.step (v : RunVars) (p : PollResult) : RunVars :=
  { v with totalCount := v.totalCount + (pollCounts p).1, remoteCount := v.remoteCount + (pollCounts p).2, loops := v.loops + 1 }

/-- The numbers of the summary line (collector/collector_linux.go:88): sockets, remotes, per iteration. -/
abbrev Summary := Nat × Nat × Nat

/-- collector/collector_linux.go:58-91 `Run`, for the polls that take place (see `runLoop` for which these are): the results and the summary line, if one
is logged. -/
def runResult (polls : List PollResult) : (Int × Int) × Option Summary :=
  let v := polls.foldl RunVars.step { totalCount := 0, remoteCount := 0, loops := 0, localCount := 0, errCount := 0 }
  ((v.localCount, v.errCount), if v.loops > 0 then some (v.totalCount, v.remoteCount, v.totalCount / v.loops) else none)

/-- collector/collector_linux.go:69-76: the calls of `LogCacheStats`, in their order: the iteration in which the call is made, and its arguments. -/
def logCalls (polls : List PollResult) : List (Nat × Int × Int) :=
  ((List.range polls.length).filter (fun k => k % 6000 = 0)).map (fun k => (k, (runResult (polls.take (k + 1))).1))

end TcpInfo
