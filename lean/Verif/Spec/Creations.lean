import Verif.Spec.Saver
import Verif.Spec.Trace
import Verif.Spec.Metrics
import Verif.Model.Creations
/-!
# Specification: what failing creations of files cost
-/

namespace TcpInfo.Spec
open TcpInfo

/-- After these actions, every file of the connection with UUID `u` is closed. -/
def AllClosed (u : String) (tr : List Stamped) : Prop :=
  ∀ w n hd, .opened n hd ∈ fileEvents w tr → n.uuid = u → ∃ q, .closed q ∈ fileEvents w tr

/-- The action opens a file of the connection with UUID `u`. -/
def OpensFile (u : String) (a : Stamped) : Prop := ∃ w n hd, a.act = .openFile w n hd ∧ n.uuid = u

/-- The connections for which a file could not be created, in order, once for each failed attempt. -/
def failures (cs : List Creation) : List UInt64 := (cs.filter (fun c => !c.ok)).map (·.cookie)

/-- The saved ones of some reports that are marked as saved (`true`) or lost (`false`). -/
def saved (ds : List (ArchivalRecord × Bool)) : List ArchivalRecord := (ds.filter (·.2)).map (·.1)

/-- The lost ones that have a cookie. -/
def lost (ds : List (ArchivalRecord × Bool)) : List ArchivalRecord := (ds.filter (fun d => !d.2 && decide (ck d.1 ≠ 0))).map (·.1)

end TcpInfo.Spec
