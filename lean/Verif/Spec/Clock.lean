import Verif.Spec.Trace
/-!
# Specification: what does not depend on the wall clock
-/

namespace TcpInfo.Spec
open TcpInfo

/-- A record, or the metadata line of a file, without its times. -/
def untimedRecord (r : ArchivalRecord) : ArchivalRecord :=
  { r with timestamp := zeroTime, metadata := r.metadata.map (fun m => { m with startTime := zeroTime }) }

/-- What the saver does, without what is read from the wall clock: the date directory of a file, the times in records, in metadata lines and in events; and
without the exported rates, which are computed once per second of the wall clock. -/
def untimedAct : Action → Option Action
  | .flowCreated _ u id => some (.flowCreated zeroTime u id)
  | .flowDeleted _ u => some (.flowDeleted zeroTime u)
  | .openFile w n hd => some (.openFile w { n with dir := "" } (untimedRecord hd))
  | .send q t => some (.send q { t with message := t.message.map untimedRecord })
  | .observeSent _ => none
  | .observeReceived _ => none
  | .closeChans => some .closeChans

/-- The same for a trace. The reading of the monotonic clock at each action stays. -/
def untimed (tr : List Stamped) : List Stamped := tr.filterMap (fun a => (untimedAct a.act).map (fun x => ⟨a.time, x⟩))

/-- A poll without its times. -/
def untimedBlock (b : MessageBlock) : MessageBlock := { b with v4Time := zeroTime, v6Time := zeroTime }

/-- Reading a kept record does not depend on its timestamp, nor change it (marshallers overwrite only address bytes of the header). -/
def ViewUntimed (env : Env) : Prop := ∀ n r, untimedRecord (env.view n r) = env.view n (untimedRecord r)

/-- The same environment, with another wall clock, and other names for its dates. -/
def _root_.TcpInfo.Env.withWall (env : Env) (wall : Int → Int) (date : Int → String) : Env := { env with wall := wall, date := date }

end TcpInfo.Spec
