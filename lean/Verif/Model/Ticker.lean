import Verif.Model.Basic
/-!
# Package collector: when the polls take place

`Run` (collector/collector_linux.go:58-91) as a state machine with a clock, interleaved with the ticker of the runtime and with cancellation of the context. What a
poll does is not modelled here (`Model.Collector`): it takes any amount of time, including the time for which the submission of the block
is blocked. Times are nanoseconds of the monotonic clock.
-/

namespace TcpInfo.Ticker

/-- `10 * time.Millisecond` (collector/collector_linux.go:64 and 67). -/
abbrev period : Int := 10000000

/-- Where `Run` is: before line 67; at the loop condition (69); in the poll (70-76); before the observation (78-81); in `<-ticker.C` (84); after the loop. -/
inductive PC where
  | start | check | polling | observe | waiting | done
  deriving DecidableEq

/-- State of `Run`, its ticker and its context. `begun`, `ended`, `observed`, `ticks` and `lost` are histories. -/
structure State where
  now : Int
  /-- when the ticker is due next -/
  due : Int
  /-- the channel of the ticker, which has room for one tick -/
  pending : Bool
  cancelled : Bool
  pc : PC
  loops : Nat
  lastCollectionTime : Int
  /-- when the polls began -/
  begun : List Int
  /-- when they ended (line 78) -/
  ended : List Int
  /-- what was given to `PollingHistogram.Observe` -/
  observed : List Int
  /-- number of ticks, and of those that were dropped since the channel was full -/
  ticks : Nat
  lost : Nat
  deriving DecidableEq

/-- collector/collector_linux.go:58-65, at time `t`: the ticker has been created. -/
def init (t : Int) (cancelled : Bool) : State :=
  { now := t, due := t + period, pending := false, cancelled := cancelled, pc := .start, loops := 0, lastCollectionTime := 0, begun := [], ended := [], observed := [],
    ticks := 0, lost := 0 }

/-- What happens next. -/
inductive Choice where
  /-- time passes -/
  | advance (d : Nat)
  /-- the runtime serves the ticker -/
  | tick
  /-- `Run` goes on -/
  | run
  /-- the context is cancelled -/
  | cancel
  deriving DecidableEq

/-- The runtime serves a ticker that is due (possibly late): a non-blocking send (time.sendTime), and the next due time is the first one after now on
the ticker's grid (runtime `runOneTimer`: `t.when += t.period * (1 + delta/t.period)`). -/
def State.tick (s : State) : Option State :=
  if s.due ≤ s.now then
    some { s with
      pending := true
      due := s.due + period * (1 + (s.now - s.due) / period)
      ticks := s.ticks + 1
      lost := if s.pending then s.lost + 1 else s.lost }
  else none

/-- collector/collector_linux.go:67-85. -/
def State.run (reps : Int) (s : State) : Option State :=
  match s.pc with
  | .start => some { s with lastCollectionTime := s.now - period, pc := .check }
  | .check =>
    if (reps = 0 ∨ (s.loops : Int) < reps) ∧ s.cancelled = false then some { s with begun := s.begun ++ [s.now], pc := .polling }
    else some { s with pc := .done }
  | .polling => some { s with pc := .observe }
  | .observe => some { s with ended := s.ended ++ [s.now], observed := s.observed ++ [s.now - s.lastCollectionTime], lastCollectionTime := s.now, pc := .waiting }
  | .waiting => if s.pending then some { s with pending := false, loops := s.loops + 1, pc := .check } else none
  | .done => none

/-- One step; `none` if it is not possible. -/
def State.step (reps : Int) (c : Choice) (s : State) : Option State :=
  match c with
  | .advance d => some { s with now := s.now + d }
  | .tick => s.tick
  | .run => s.run reps
  | .cancel => some { s with cancelled := true }

/-- An execution. -/
def State.exec (reps : Int) : List Choice → State → Option State
  | [], s => some s
  | c :: cs, s => (s.step reps c).bind (State.exec reps cs)

/-- Reached by some execution of `Run` called at time `t`. -/
def Reachable (reps : Int) (t : Int) (s : State) : Prop := ∃ b cs, (init t b).exec reps cs = some s

end TcpInfo.Ticker
