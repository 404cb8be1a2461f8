import Verif.Model.Metrics
import Verif.Model.Ticker
/-!
# Package collector: what happens during a poll, and when

`Run` (collector/collector_linux.go:58-91) with `collectDefaultNamespace` (25-54) and `OneType` (collector/socket-monitor_linux.go:74-137) as a state machine with
two clocks. `Model.Ticker` says when polls begin, here a poll has steps of its own, between which any time may pass. The monotonic clock only advances; the wall clock
can be set to any time at any moment. `time.Now()` reads both: durations are differences of the monotonic clock, the times of a block are those of the wall clock.
The channel to the saver has room for `cap` blocks (main.go:141: 2); the saver takes blocks from it at any time. `cl.LogCacheStats` and logging are not modelled.
-/

namespace TcpInfo.Poll

/-- Where a poll is: before line 76 of `OneType(AF_INET6)`; waiting for the kernel's answer; in the deferred function (77-87); before line 33 of `collectDefaultNamespace`; the same for
`AF_INET`; before line 51. -/
inductive Stage where
  | begin6 | dump6 | defer6 | stamp6 | begin4 | dump4 | defer4 | stamp4 | send
  deriving DecidableEq

/-- What is observable of a poll. -/
inductive Ev where
  /-- `Run` begins a poll -/
  | poll
  /-- `OneType` begins to ask for the connections of a family -/
  | request (family : UInt8)
  /-- it has got messages and error -/
  | reply (family : UInt8) (msgs : List NetlinkMessage) (err : Option GoErr)
  /-- an observation of `SyscallTimeHistogram`, in nanoseconds -/
  | latency (af : String) (d : Int)
  /-- `time.Now()` for `V6Time` or `V4Time` -/
  | clock
  /-- the block is in the channel -/
  | submit (b : MessageBlock)

/-- An event, with the time by the monotonic clock and by the wall clock. -/
structure Entry where
  mono : Int
  wall : Int
  ev : Ev

/-- State of `Run`, its clocks, its ticker and the channel. `log` and `taken` are histories. -/
structure State where
  tk : Ticker.State
  /-- wall clock minus monotonic clock -/
  off : Int
  stage : Stage
  /-- `start` of `OneType` -/
  start : Int
  res6 : List NetlinkMessage × Option GoErr
  res4 : List NetlinkMessage × Option GoErr
  /-- `buffer.V6Time` and `buffer.V4Time` -/
  t6 : Int
  t4 : Int
  chan : List MessageBlock
  taken : List MessageBlock
  log : List Entry

/-- `Run` is called at time `t`, when the wall clock differs by `off`. -/
def init (t off : Int) (cancelled : Bool) : State :=
  { tk := Ticker.init t cancelled, off := off, stage := .begin6, start := 0, res6 := ([], none), res4 := ([], none), t6 := 0, t4 := 0, chan := [], taken := [], log := [] }

/-- What happens next. -/
inductive Choice where
  /-- time passes -/
  | advance (d : Nat)
  /-- the runtime serves the ticker -/
  | tick
  /-- the context is cancelled -/
  | cancel
  /-- somebody sets the wall clock -/
  | setClock (off : Int)
  /-- the saver takes a block -/
  | take
  /-- the dump that is under way comes to its end: outcome of the set-up, sequence number and pid, what `Receive` returned -/
  | answer (setup : Option GoErr) (seq pid : UInt32) (script : List (Except GoErr (List NetlinkMessage)))
  /-- `Run` goes on -/
  | run

/-- `e` happens now. -/
def State.note (s : State) (e : Ev) : State := { s with log := s.log ++ [⟨s.tk.now, s.tk.now + s.off, e⟩] }

/-- One step of `collectDefaultNamespace` (collector/collector_linux.go:25-54), except waiting for the kernel. AF_INET6 = 10, AF_INET = 2. -/
def State.poll (cap : Nat) (reps : Int) (s : State) : Option State :=
  match s.stage with
  | .begin6 => some { s.note (.request 10) with start := s.tk.now, stage := .dump6 }
  | .dump6 => none
  | .defer6 => some { s.note (.latency (afLabel 10) (s.tk.now - s.start)) with stage := .stamp6 }
  | .stamp6 => some { s.note .clock with t6 := s.tk.now + s.off, stage := .begin4 }
  | .begin4 => some { s.note (.request 2) with start := s.tk.now, stage := .dump4 }
  | .dump4 => none
  | .defer4 => some { s.note (.latency (afLabel 2) (s.tk.now - s.start)) with stage := .stamp4 }
  | .stamp4 => some { s.note .clock with t4 := s.tk.now + s.off, stage := .send }
  | .send =>
    if s.chan.length < cap then
      let b := collectBlock s.res6 s.t6 s.res4 s.t4
      (s.tk.run reps).map (fun tk => { s.note (.submit b) with tk := tk, chan := s.chan ++ [b] })
    else none

/-- The dump comes to its end (`OneType`). -/
def State.answer (setup : Option GoErr) (seq pid : UInt32) (script : List (Except GoErr (List NetlinkMessage))) (s : State) : Option State :=
  match s.tk.pc, s.stage with
  | .polling, .dump6 => (oneType setup seq pid script).map (fun r => { s.note (.reply 10 r.1 r.2) with res6 := r, stage := .defer6 })
  | .polling, .dump4 => (oneType setup seq pid script).map (fun r => { s.note (.reply 2 r.1 r.2) with res4 := r, stage := .defer4 })
  | _, _ => none

/-- collector/collector_linux.go:67-85. -/
def State.run (cap : Nat) (reps : Int) (s : State) : Option State :=
  if s.tk.pc = .polling then s.poll cap reps
  else (s.tk.run reps).map (fun tk => if tk.pc = .polling then { s.note .poll with tk := tk, stage := .begin6 } else { s with tk := tk })

/-- One step; `none` if it is not possible. -/
def State.step (cap : Nat) (reps : Int) (c : Choice) (s : State) : Option State :=
  match c with
  | .advance d => some { s with tk := { s.tk with now := s.tk.now + d } }
  | .tick => s.tk.tick.map (fun tk => { s with tk := tk })
  | .cancel => some { s with tk := { s.tk with cancelled := true } }
  | .setClock off => some { s with off := off }
  | .take => match s.chan with
    | [] => none
    | b :: bs => some { s with chan := bs, taken := s.taken ++ [b] }
  | .answer setup seq pid script => s.answer setup seq pid script
  | .run => s.run cap reps

/-- An execution. -/
def State.exec (cap : Nat) (reps : Int) : List Choice → State → Option State
  | [], s => some s
  | c :: cs, s => (s.step cap reps c).bind (State.exec cap reps cs)

end TcpInfo.Poll
