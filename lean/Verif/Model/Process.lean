import Verif.Model.Marshal
import Verif.Model.Collector
/-!
# Command `tcp-info` (main.go): collector, saver and marshallers together

The main goroutine runs the collector, the saver's goroutine receives blocks from a channel of capacity 2, the marshallers receive tasks from theirs.
Simplifications: the blocks the collector submits are given as a list (`runLoop` in `Model.Collector`); polling, ticker and logging take no step of their
own; what the saver computes for one block is computed when the block is received, the effects visible to others (`Model.Marshal`) follow one by one. The
event server, the metrics server and the signal handling of the Go runtime are not part of this model.
-/

namespace TcpInfo

/-- Where the main goroutine is: in `collector.Run` (main.go:147), in `svr.Done.Wait()` (main.go:151), after it. -/
inductive MainPC where
  | collecting | waiting | returned
  deriving DecidableEq

/-- State of the process. -/
structure Proc where
  /-- main goroutine -/
  pc : MainPC
  /-- blocks the collector has still to submit -/
  polls : List MessageBlock
  /-- `svrChan` (main.go:141) -/
  chan : List MessageBlock
  chanClosed : Bool
  /-- variables of the saver's goroutine -/
  loop : LoopState
  /-- `MessageSaverLoop` has seen the closed channel and called `Close` -/
  ended : Bool
  /-- the rest of the saver's actions for what it has received, the marshallers, files and wait group -/
  m : MState

/-- main.go:138-144: channel and saver have been made, `MessageSaverLoop` is about to start. -/
def procInit (bs : List MessageBlock) (n : Nat) : Proc :=
  { pc := .collecting, polls := bs, chan := [], chanClosed := false, loop := newLoop, ended := false, m := mInit [] n }

/-- main.go:147-151: the collector submits a block (collector/collector_linux.go:51) if the channel has room; after the last one `close(svrChan)`; then
`svr.Done.Wait()`. `none`: blocked or finished. -/
def Proc.mainStep (p : Proc) : Option Proc :=
  match p.pc with
  | .collecting =>
    match p.polls with
    | b :: bs => if p.chan.length < 2 then some { p with polls := bs, chan := p.chan ++ [b] } else none
    | [] => some { p with chanClosed := true, pc := .waiting }
  | .waiting => if p.m.wg = 0 then some { p with pc := .returned } else none
  | .returned => none

/-- The actions in the second trace that are not in the first. -/
def newActions (s s' : Saver) : List Action := (s'.trace.drop s.trace.length).map (·.act)

/-- saver/saver.go:331-430 `MessageSaverLoop`: finish the actions for the block received last; then receive the next block (saver/saver.go:338), or
`Close` when the channel is closed and empty (saver/saver.go:429). -/
def Proc.saverStep (me : MEnv) (env : Env) (p : Proc) : Option Proc :=
  match p.m.rem with
  | _ :: _ => (p.m.saverStep me).map (fun m => { p with m := m })
  | [] =>
    if p.ended then none
    else match p.chan with
      | b :: rest =>
        match p.loop.block env b with
        | none => some { p with chan := rest, m := { p.m with crashed := true } }
        | some l => some { p with chan := rest, loop := l, m := { p.m with rem := newActions p.loop.svr l.svr } }
      | [] =>
        if p.chanClosed then
          match p.loop.svr.close env with
          | none => some { p with ended := true, m := { p.m with crashed := true } }
          | some s => some { p with ended := true, loop := { p.loop with svr := s }, m := { p.m with rem := newActions p.loop.svr s } }
        else none

/-- Which goroutine moves. -/
inductive PChoice where
  | main
  | saver
  | worker (i : Nat)
  deriving DecidableEq

/-- One step; nothing moves after a crash or after `main` has returned. -/
def Proc.step (me : MEnv) (env : Env) (p : Proc) (c : PChoice) : Option Proc :=
  if p.m.crashed ∨ p.pc = .returned then none
  else match c with
    | .main => p.mainStep
    | .saver => p.saverStep me env
    | .worker i => (p.m.workerStep me i).map (fun m => { p with m := m })

/-- Run a schedule. -/
def Proc.exec (me : MEnv) (env : Env) : List PChoice → Proc → Option Proc
  | [], p => some p
  | c :: cs, p => (p.step me env c).bind (Proc.exec me env cs)

end TcpInfo
