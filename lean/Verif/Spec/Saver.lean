import Verif.Spec.Cache
import Verif.Spec.Compare
import Verif.Model.Saver
/-!
# Specification of the saver: reported records, histories, what is to be saved
-/

namespace TcpInfo.Spec
open TcpInfo

/-- Two raw headers agree except in the address bytes (offsets 8 to 39). -/
def SameHeader (a b : Bytes) : Prop := a.length = b.length ∧ a.take 8 = b.take 8 ∧ a.drop 40 = b.drop 40

/-- Two records agree in everything that is visible in them, except for the address bytes in the header. (Nothing is said about bytes between length
and capacity of the attributes: they may belong to headers of later messages in the same receive buffer.) -/
structure SameButAddresses (a b : ArchivalRecord) : Prop where
  timestamp : a.timestamp = b.timestamp
  metadata : a.metadata = b.metadata
  header : SameHeader (a.rawIDM.getD []) (b.rawIDM.getD [])
  attributes : (a.attributes.getD []).map (·.map (·.val)) = (b.attributes.getD []).map (·.map (·.val))

/-- tcp_info is absent, or reaches at least to `tcpi_busy_time`. -/
def InfoOK (r : ArchivalRecord) : Prop := ∀ v, attrVal r 2 = some v → 168 ≤ v.length

instance (r : ArchivalRecord) : Decidable (InfoOK r) :=
  decidable_of_iff ((attrVal r 2).all (fun v => 168 ≤ v.length) = true) (by unfold InfoOK; cases attrVal r 2 <;> simp)

/-- The record (if any) that a message stands for, with its time. -/
def reportOf (ex : Option ExcludeConfig) (t : Int) (m : Option NetlinkMessage) : Option ArchivalRecord :=
  match m with
  | none => none
  | some m => match makeArchivalRecord m ex with
    | .ok (some r) => some { r with timestamp := t }
    | _ => none

/-- The records reported in a block, in order: v4, then v6. -/
def reports (ex : Option ExcludeConfig) (b : MessageBlock) : List ArchivalRecord :=
  b.v4Messages.filterMap (reportOf ex b.v4Time) ++ b.v6Messages.filterMap (reportOf ex b.v6Time)

/-- The history of reports: each block is a cycle. -/
def history (ex : Option ExcludeConfig) (bs : List MessageBlock) : List Call :=
  bs.flatMap (fun b => (reports ex b).map .update ++ [.endCycle])

/-- All records reported in a block are `InfoOK`. -/
def AllInfoOK (ex : Option ExcludeConfig) (b : MessageBlock) : Prop := ∀ r ∈ reports ex b, InfoOK r

/-- The same environment, except that cached records are always seen unchanged. -/
def _root_.TcpInfo.Env.still (env : Env) : Env := { env with view := fun _ r => r }

/-- What is seen of a cached record differs from it at most in the addresses. -/
def ViewOK (env : Env) : Prop := ∀ n r, SameButAddresses (env.view n r) r

/-- Nothing goes wrong: files can be created, there is a marshaller. -/
structure NoFaults (env : Env) : Prop where
  create : ∀ n, env.createOK n = true
  marshallers : 1 ≤ env.marshallers

/-- Cookie of a record. -/
abbrev ck (r : ArchivalRecord) : UInt64 := cookie (r.rawIDM.getD [])

/-- The record that a report is to be compared with: the connection's last one in the previous cycle, if this is its first in the current one. -/
def reference (h : List Call) (r : ArchivalRecord) : Option ArchivalRecord :=
  let k := cookie (r.rawIDM.getD [])
  if lastFor k (cycles h).2 = none then lastFor k (cycles h).1 else none

/-- Report `r` after history `h` is new or significantly changed. Without tcp_info on either side a report counts as changed. -/
def Due (h : List Call) (r : ArchivalRecord) : Prop :=
  ∀ p, reference h r = some p → attrVal r 2 = none ∨ attrVal p 2 = none ∨ ¬ Unchanged r p

/-- `SavedFor h out`: of the history `h` exactly the due reports are saved, giving `out`. -/
inductive SavedFor : List Call → List ArchivalRecord → Prop where
  | nil : SavedFor [] []
  | due {h out r} : SavedFor h out → Due h r → SavedFor (h ++ [.update r]) (out ++ [r])
  | same {h out r} : SavedFor h out → ¬ Due h r → SavedFor (h ++ [.update r]) out
  | endCycle {h out} : SavedFor h out → SavedFor (h ++ [.endCycle]) out

/-- `FlowsFor k h out`: connection `k` is opened (`true`) by the first report of it while it is in neither the previous nor the current cycle,
and closed (`false`) by the end of the first cycle that does not report it. -/
inductive FlowsFor (k : UInt64) : List Call → List Bool → Prop where
  | nil : FlowsFor k [] []
  | first {h out r} : FlowsFor k h out → ck r = k → lastFor k (cycles h).1 = none → lastFor k (cycles h).2 = none →
      FlowsFor k (h ++ [.update r]) (out ++ [true])
  | again {h out r} : FlowsFor k h out → ck r = k → (lastFor k (cycles h).1 ≠ none ∨ lastFor k (cycles h).2 ≠ none) → FlowsFor k (h ++ [.update r]) out
  | other {h out r} : FlowsFor k h out → ck r ≠ k → FlowsFor k (h ++ [.update r]) out
  | gone {h out} : FlowsFor k h out → lastFor k (cycles h).1 ≠ none → lastFor k (cycles h).2 = none → FlowsFor k (h ++ [.endCycle]) (out ++ [false])
  | stays {h out} : FlowsFor k h out → (lastFor k (cycles h).1 = none ∨ lastFor k (cycles h).2 ≠ none) → FlowsFor k (h ++ [.endCycle]) out

end TcpInfo.Spec
