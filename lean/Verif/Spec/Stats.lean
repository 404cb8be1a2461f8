import Verif.Spec.Saver
import Verif.Spec.Trace
/-!
# Specification of the saver's byte accounting and counters
-/

namespace TcpInfo.Spec
open TcpInfo

/-- The two directions of traffic. -/
inductive Dir where
  | sent
  | received
  deriving DecidableEq

/-- Kernel name of the byte counter of a direction. -/
def Dir.field : Dir → String
  | .sent => "tcpi_bytes_sent"
  | .received => "tcpi_bytes_received"

/-- The byte counter in a record: there is one if the tcp_info attribute is present and long enough (208 bytes) for both counters. -/
def counter (d : Dir) (r : ArchivalRecord) : Option Nat :=
  match attrVal r 2 with
  | none => none
  | some v => if 208 ≤ v.length then fieldOf tcp_info d.field v else none

/-- Sum, over all connections, of the last counter reported for the connection: a counter is left out if a later record of the same connection
has one. -/
def lastTotal (d : Dir) : List ArchivalRecord → Nat
  | [] => 0
  | r :: rs => (if rs.any (fun x => decide (ck x = ck r) && (counter d x).isSome) then 0 else (counter d r).getD 0) + lastTotal d rs

/-- The byte deltas observed for a direction, in order. -/
def observations (d : Dir) (tr : List Stamped) : List Nat :=
  tr.filterMap (fun a => match d, a.act with
    | .sent, .observeSent n => some n.toNat
    | .received, .observeReceived n => some n.toNat
    | _, _ => none)

/-- The records of a history, in order. -/
def recs (h : List Call) : List ArchivalRecord :=
  h.filterMap (fun c => match c with | .update r => some r | .endCycle => none)

/-- Histories in which the byte accounting can be right. For each report `r` (after `h1`):
1. it is the first of its connection in this cycle;
2. if it has a counter, then the connection's record of the previous cycle has one too, or no earlier record of it has one (so no connection comes back
   after disappearing, and none loses its tcp_info and regains it);
3. if its attribute table reaches to tcp_info then it has a counter. -/
def Tidy (h : List Call) : Prop :=
  ∀ h1 r h2, h = h1 ++ Call.update r :: h2 →
    lastFor (ck r) (cycles h1).2 = none
    ∧ ((counter .sent r).isSome → (∃ p, lastFor (ck r) (cycles h1).1 = some p ∧ (counter .sent p).isSome)
        ∨ ∀ r' ∈ recs h1, ck r' = ck r → (counter .sent r').isNone)
    ∧ (2 < (r.attributes.getD []).length → (counter .sent r).isSome)

/-- What the counters must be after a history: total, new, changed, expired. -/
inductive CountsFor : List Call → Nat → Nat → Nat → Nat → Prop where
  | nil : CountsFor [] 0 0 0 0
  | new {h t n c e r} : CountsFor h t n c e → reference h r = none → CountsFor (h ++ [.update r]) (t + 1) (n + 1) c e
  | changed {h t n c e r} : CountsFor h t n c e → reference h r ≠ none → Due h r → CountsFor (h ++ [.update r]) (t + 1) n (c + 1) e
  | same {h t n c e r} : CountsFor h t n c e → ¬ Due h r → CountsFor (h ++ [.update r]) (t + 1) n c e
  | endCycle {h t n c e} (gone : List UInt64) : CountsFor h t n c e → gone.Nodup →
      (∀ k, k ∈ gone ↔ (lastFor k (cycles h).1 ≠ none ∧ lastFor k (cycles h).2 = none)) → CountsFor (h ++ [.endCycle]) t n c (e + gone.length)

end TcpInfo.Spec
