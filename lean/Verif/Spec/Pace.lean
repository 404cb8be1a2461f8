import Verif.Spec.Trace
/-!
# C34, C35, C121: busy connections, files and their first records
-/

namespace TcpInfo.Spec
open TcpInfo

/-- The connection's file opened last and the time of its last record (of its announcement, if there is none yet). -/
structure Pace where
  current : Option Nat
  last : Int
  deriving DecidableEq

/-- Monitor for the pauses of the connection with UUID `u`. `none` means: a record came more than `d` after the connection's previous one (or after its
announcement, if it was the first). -/
def paceStep (d : Int) (u : String) (st : Option Pace) (a : Stamped) : Option (Option Pace) :=
  match a.act with
  | .flowCreated _ u' _ => if u' = u then some (some ⟨none, a.time⟩) else some st
  | .openFile w n _ => if n.uuid = u then some (st.map (fun p => { p with current := some w })) else some st
  | .send _ ⟨some _, some w⟩ =>
    match st with
    | none => some none
    | some p => if p.current = some w then (if a.time ≤ p.last + d then some (some { p with last := a.time }) else none) else some st
  | _ => some st

/-- Run the monitor over a trace. -/
def paceRun (d : Int) (u : String) (st : Option Pace) : List Stamped → Option (Option Pace)
  | [] => some st
  | a :: tr => (paceStep d u st a).bind (fun st => paceRun d u st tr)

/-- The connection with UUID `u` never pauses for more than `d`. -/
def Busy (d : Int) (u : String) (tr : List Stamped) : Prop := paceRun d u none tr ≠ none

/-- Every file that is opened gets a complete record at once. -/
def Followed (tr : List Stamped) : Prop :=
  ∀ before x after w n hd, tr = before ++ x :: after → x.act = .openFile w n hd →
    ∃ y rest q r, after = y :: rest ∧ y.act = .send q ⟨some r, some w⟩ ∧ y.time = x.time ∧ 72 ≤ (r.rawIDM.getD []).length

/-- Number of files opened. -/
def opened (tr : List Stamped) : Nat := (tr.filter (fun a => match a.act with | .openFile .. => true | _ => false)).length

end TcpInfo.Spec
