import Verif.Model.EventClient
/-!
# Command example-eventsocket-client

`MustRun` calls `Open` and `Close` of the handler one after the other (Model.EventClient); `ProcessOpenEvents` runs in a goroutine of its own. They meet at
an unbuffered channel. The state machine interleaves them; a `select` in `Open` finds the channel ready exactly if the other goroutine is waiting at its
`select`. Logging is represented by the lists `told` and `processed`.
-/

namespace TcpInfo.Example
open TcpInfo TcpInfo.EventSocket

/-- Where `ProcessOpenEvents` is (cmd/example-eventsocket-client/main.go:54-64): before the `select`, waiting in it, processing an event, returned. -/
inductive PPC where
  | loop
  | waiting
  | processing (e : Callback)
  | returned
  deriving DecidableEq

/-- State: calls of the handler still to come, position of the other goroutine, whether the context is cancelled, what `Open` has logged (the event, and
whether it was sent), what has been processed, the number of `Close` calls. -/
structure State where
  calls : List Callback
  pc : PPC
  cancelled : Bool
  told : List (Callback × Bool)
  processed : List Callback
  closes : Nat
  deriving DecidableEq

/-- Start of the program (cmd/example-eventsocket-client/main.go:66-87). -/
def init (calls : List Callback) : State := { calls := calls, pc := .loop, cancelled := false, told := [], processed := [], closes := 0 }

/-- A scheduling decision: the next call of the handler, a step of `ProcessOpenEvents` (`done`: what a `select` with both cases ready takes), cancellation. -/
inductive Choice where
  | handler
  | process (done : Bool)
  | cancel
  deriving DecidableEq

/-- cmd/example-eventsocket-client/main.go:34-46 `Open`. -/
def State.openCall (s : State) (e : Callback) : State :=
  if s.pc = .waiting then { s with pc := .processing e, told := s.told ++ [(e, true)] }
  else { s with told := s.told ++ [(e, false)] }

/-- cmd/example-eventsocket-client/main.go:49-51 `Close`. -/
def State.closeCall (s : State) : State := { s with closes := s.closes + 1 }

/-- One step; `none` if it is not possible. -/
def State.step (s : State) : Choice → Option State
  | .handler =>
    match s.calls with
    | [] => none
    | .opened t u id :: cs => some ({ s with calls := cs }.openCall (.opened t u id))
    | .closed _ _ :: cs => some { s with calls := cs }.closeCall
  | .process done =>
    match s.pc with
    | .loop => if s.cancelled ∧ done then some { s with pc := .returned } else some { s with pc := .waiting }
    | .waiting => if s.cancelled then some { s with pc := .returned } else none
    | .processing e => some { s with pc := .loop, processed := s.processed ++ [e] }
    | .returned => none
  | .cancel => if s.cancelled then none else some { s with cancelled := true }

/-- An execution. -/
def State.exec : List Choice → State → Option State
  | [], s => some s
  | c :: cs, s => (s.step c).bind (State.exec cs)

end TcpInfo.Example
