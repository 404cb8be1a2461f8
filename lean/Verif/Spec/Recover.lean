import Verif.Spec.Saver
/-!
# Specification: what a reader of the archive knows about a connection at a time
-/

namespace TcpInfo.Spec
open TcpInfo

/-- Record `s` tells what record `r` tells: it is the same, or both have tcp_info and nothing significant differs (`Unchanged`: state, attributes, and all
of tcp_info before `tcpi_busy_time` except the four times since the last activity). -/
def TellsSame (r s : ArchivalRecord) : Prop := r = s ∨ (attrVal r 2 ≠ none ∧ attrVal s 2 ≠ none ∧ Unchanged r s)

/-- All of block `b'` is later than all of block `b`. -/
def Later (b b' : MessageBlock) : Prop := b.v4Time < b'.v4Time ∧ b.v4Time < b'.v6Time ∧ b.v6Time < b'.v4Time ∧ b.v6Time < b'.v6Time

instance (b b' : MessageBlock) : Decidable (Later b b') := by unfold Later; infer_instance

/-- The last record of connection `k` among `l` that is not after time `t`. -/
def latestAt (k : UInt64) (t : Int) (l : List ArchivalRecord) : Option ArchivalRecord :=
  (l.filter (fun x => decide (ck x = k) && decide (x.timestamp ≤ t))).getLast?

end TcpInfo.Spec
