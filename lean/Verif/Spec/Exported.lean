import Verif.Spec.Stats
import Verif.Model.Metrics
/-!
# Specification of the exported byte totals, for all histories

The total that the saver exports, read off the kernel's reports: nothing here refers to the saver's tables of closed and closing connections.
-/

namespace TcpInfo.Spec
open TcpInfo

/-- Of each connection in a list of reports, the last report. -/
def lasts : List ArchivalRecord → List ArchivalRecord
  | [] => []
  | r :: rs => if rs.any (fun x => decide (ck x = ck r)) then lasts rs else r :: lasts rs

/-- The first report of connection `k` in a list. -/
def firstFor (k : UInt64) (rs : List ArchivalRecord) : Option ArchivalRecord := rs.find? (fun r => decide (ck r = k))

/-- The counter of `r`, the last report of its connection in a poll, is final, given the next poll: the connection is not reported there, or its first report
there has no attribute of type 2 (tcp_info) or above. -/
def final (r : ArchivalRecord) (next : List ArchivalRecord) : Bool :=
  match firstFor (ck r) next with
  | none => true
  | some n => decide ((n.attributes.getD []).length ≤ 2)

/-- The counters that become final with the next poll. -/
def ended (d : Dir) (rs next : List ArchivalRecord) : Nat :=
  (((lasts rs).filter (fun r => final r next)).map (fun r => (counter d r).getD 0)).sum

/-- The counters that have become final, for all pairs of successive polls. -/
def endedTotal (d : Dir) : List (List ArchivalRecord) → Nat
  | rs :: next :: rest => ended d rs next + endedTotal d (next :: rest)
  | _ => 0

/-- The exported total: all counters that have become final, and all counters in the latest poll. -/
def exportedTotal (d : Dir) (polls : List (List ArchivalRecord)) : Nat :=
  endedTotal d polls + ((polls.getLast?.getD []).map (fun r => (counter d r).getD 0)).sum

/-- What is exported for a direction in a new second, when `observed` bytes have been exported so far and the total, which is counted modulo 2^64, is `total`:
the difference; or an error if that is negative, or more than a second's worth at 100 Gb/s, or if `observed` is too close to 2^64. -/
def exactReport (d : Dir) (observed total : Nat) : Metric :=
  match d with
  | .sent => if total % 2^64 < observed then .error "totalSent < reportedSent"
    else if observed + 12500000000 < total % 2^64 ∨ 2^64 ≤ observed + 12500000000 then .error "totalSent-reportedSent exceeds network capacity"
    else .sendRate (UInt64.ofNat (total % 2^64 - observed))
  | .received => if total % 2^64 < observed then .error "totalReceived < reportedReceived"
    else if observed + 12500000000 < total % 2^64 ∨ 2^64 ≤ observed + 12500000000 then .error "totalReceived-reportedReceived exceeds network capacity"
    else .receiveRate (UInt64.ofNat (total % 2^64 - observed))

end TcpInfo.Spec
