import Verif.Model.Process
import Verif.Model.Wiring
/-!
# Command `tcp-info` (main.go) with its event server

The process of `Model.Process` and the server of `Model.EventSocket` together. The saver's goroutine is the one that sends on the server's channel: an
action `FlowCreated` or `FlowDeleted` of the saver and the server's `produce` are one step, so that the saver waits while the channel is full.
Simplification: the time between the return of `svr.Done.Wait()` and the end of the process (`LogCacheStats`, the deferred calls) is the state `returned`
of the main goroutine, in which the server can go on and the process can end at any moment.
-/

namespace TcpInfo

/-- The event of an action of the saver (see `eventOf`): main.go:108-113 and 143; saver/saver.go:271 and 291; eventsocket/server.go:169-186. -/
def eventOfAction : Action → Option EventSocket.FlowEvent
  | .flowCreated t u id => some (EventSocket.flowCreated t u id)
  | .flowDeleted t u => some (EventSocket.flowDeleted t u)
  | _ => none

/-- State: the goroutines of the collector, the saver and the marshallers; the event server and its clients. In `srv` the field `todo` is not used. -/
structure Whole where
  proc : Proc
  srv : EventSocket.State

/-- main.go:107-144: the server listens, `Serve`, `notifyClients` and `MessageSaverLoop` have been started. -/
def wholeInit (bs : List MessageBlock) (n : Nat) : Whole := ⟨procInit bs n, EventSocket.init []⟩

/-- Who moves. -/
inductive WChoice where
  /-- main goroutine, saver or a marshaller -/
  | proc (c : PChoice)
  /-- the event server or its clients -/
  | srv (c : EventSocket.Choice)
  deriving DecidableEq

/-- saver/saver.go:271, 291 and eventsocket/server.go:169-186: the saver's next step if it is `FlowCreated` or `FlowDeleted`: the event goes into the
channel; `none` while the channel is full. Sending on the closed channel crashes the process. -/
def Whole.emit (me : MEnv) (env : Env) (senv : EventSocket.Env) (w : Whole) (e : EventSocket.FlowEvent) : Option Whole :=
  match EventSocket.State.step senv .produce { w.srv with todo := [e] } with
  | none => none
  | some srv => if srv.crashed then some { w with srv := srv } else (w.proc.step me env .saver).map (fun p => ⟨p, srv⟩)

/-- One step; `none`: not possible now. -/
def Whole.step (me : MEnv) (env : Env) (senv : EventSocket.Env) (w : Whole) (c : WChoice) : Option Whole :=
  if w.srv.crashed ∨ w.proc.m.crashed then none
  else match c with
    | .proc .saver =>
      match w.proc.m.rem.head?.bind eventOfAction with
      | some e => w.emit me env senv e
      | none => (w.proc.step me env .saver).map (fun p => { w with proc := p })
    | .proc c => (w.proc.step me env c).map (fun p => { w with proc := p })
    | .srv .produce => none
    | .srv .cancel => -- main.go:85 `defer cancel()`
      if w.proc.pc = .returned then (w.srv.step senv .cancel).map (fun s => { w with srv := s }) else none
    | .srv c => (w.srv.step senv c).map (fun s => { w with srv := s })

/-- Run a schedule. -/
def Whole.exec (me : MEnv) (env : Env) (senv : EventSocket.Env) : List WChoice → Whole → Option Whole
  | [], w => some w
  | c :: cs, w => (w.step me env senv c).bind (Whole.exec me env senv cs)

end TcpInfo
