import Verif.Model.Saver
/-!
# Reading the saver's trace

Projections of a trace of actions, and monitors, used to state properties of the saver.
-/

namespace TcpInfo.Spec
open TcpInfo

/-- What happens to one file. `q` is the queue (marshaller) that is to do it. -/
inductive FileEvent where
  | opened (name : FileName) (header : ArchivalRecord)
  | wrote (q : Nat) (r : ArchivalRecord)
  | closed (q : Nat)
  deriving DecidableEq

/-- What an action does to file `w`. -/
def fileEvent (w : Nat) : Action → Option FileEvent
  | .openFile w' n h => if w' = w then some (.opened n h) else none
  | .send q ⟨some r, some w'⟩ => if w' = w then some (.wrote q r) else none
  | .send q ⟨none, some w'⟩ => if w' = w then some (.closed q) else none
  | _ => none

/-- Everything that happens to file `w`, in order. -/
def fileEvents (w : Nat) (tr : List Stamped) : List FileEvent := tr.filterMap (fun a => fileEvent w a.act)

/-- Lifetime of a connection as seen from outside: when it was created (clock), its start time (event), files opened so far, the file
opened last, and whether nothing has been written to that file yet. -/
structure Life where
  created : Int
  start : Int
  files : Nat
  current : Option Nat
  fresh : Bool
  deriving DecidableEq

/-- Monitor for the files of the connection with UUID `u`. `none` means violated.
* After each `FlowCreated` the files must be numbered 0, 1, 2, ... and carry a header with the UUID, that number and the start time.
* File number n ≥ 1 must be opened later than n times ten minutes after the creation.
* A record may be put into file number n only until n + 1 times ten minutes after the creation, except (if `lenient`) for the first record
  of a file. -/
def lifeStep (lenient : Bool) (u : String) (st : Option Life) (a : Stamped) : Option (Option Life) :=
  match a.act with
  | .flowCreated t u' _ => if u' = u then some (some ⟨a.time, t, 0, none, false⟩) else some st
  | .openFile w n h =>
    if n.uuid = u then
      match st with
      | none => none
      | some l =>
        if n.sequence = l.files ∧ h = { timestamp := zeroTime, rawIDM := none, attributes := none, metadata := some ⟨u, l.files, l.start⟩ }
            ∧ (l.files ≠ 0 → a.time > l.created + tenMinutes * l.files)
        then some (some { l with files := l.files + 1, current := some w, fresh := true })
        else none
    else some st
  | .send _ ⟨some _, some w⟩ =>
    match st with
    | none => some none
    | some l =>
      if l.current = some w then
        if (lenient = true ∧ l.fresh = true) ∨ a.time ≤ l.created + tenMinutes * l.files then some (some { l with fresh := false }) else none
      else some st
  | _ => some st

/-- Run the monitor over a trace. -/
def lifeRun (lenient : Bool) (u : String) (st : Option Life) : List Stamped → Option (Option Life)
  | [] => some st
  | a :: tr => (lifeStep lenient u st a).bind (fun st => lifeRun lenient u st tr)

/-- Open/close events of the connection with UUID `u`, in order: `true` = open. -/
def flowEvents (u : String) (tr : List Stamped) : List Bool :=
  tr.filterMap (fun a => match a.act with
    | .flowCreated _ u' _ => if u' = u then some true else none
    | .flowDeleted _ u' => if u' = u then some false else none
    | _ => none)

/-- `n` times open, close. -/
def pairs : Nat → List Bool
  | 0 => []
  | n + 1 => true :: false :: pairs n

/-- Records queued for writing, in order. -/
def written (tr : List Stamped) : List ArchivalRecord :=
  tr.filterMap (fun a => match a.act with | .send _ ⟨some r, _⟩ => some r | _ => none)

end TcpInfo.Spec
