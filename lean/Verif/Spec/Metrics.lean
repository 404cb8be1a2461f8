import Verif.Model.Metrics
import Verif.Spec.Trace
import Verif.Spec.Stats
import Verif.Spec.Saver
import Verif.Spec.Snapshot
/-!
# Specification of the exported metrics: what there is to count
-/

namespace TcpInfo.Spec
open TcpInfo

/-- Files created. -/
def filesCreated (tr : List Stamped) : Nat := tr.countP (fun a => match a.act with | .openFile _ _ _ => true | _ => false)
/-- Open events emitted. -/
def opensEmitted (tr : List Stamped) : Nat := tr.countP (fun a => match a.act with | .flowCreated _ _ _ => true | _ => false)
/-- Close events emitted. -/
def closesEmitted (tr : List Stamped) : Nat := tr.countP (fun a => match a.act with | .flowDeleted _ _ => true | _ => false)

/-- The number of blocks that begin a new second: their IPv4 time is in a later second than that of all blocks before (and than `last`). -/
def newSeconds (last : Int) : List MessageBlock → Nat
  | [] => 0
  | b :: bs => if last < b.v4Time / 1000000000 then newSeconds (b.v4Time / 1000000000) bs + 1 else newSeconds last bs

/-- What there is to export for a direction in a new second, when `observed` bytes have been exported so far and the true total is `total`: the difference,
or an error if that is negative or more than a second's worth at 100 Gb/s. -/
def expectedReport (d : Dir) (observed total : Nat) : Metric :=
  match d with
  | .sent => if total < observed then .error "totalSent < reportedSent"
    else if observed + 12500000000 < total then .error "totalSent-reportedSent exceeds network capacity" else .sendRate (UInt64.ofNat (total - observed))
  | .received => if total < observed then .error "totalReceived < reportedReceived"
    else if observed + 12500000000 < total then .error "totalReceived-reportedReceived exceeds network capacity" else .receiveRate (UInt64.ofNat (total - observed))

/-- The metrics about the bytes of a direction: rates and errors. -/
def aboutBytes (d : Dir) (m : Metric) : Bool :=
  match d, m with
  | .sent, .sendRate _ => true
  | .received, .receiveRate _ => true
  | .sent, .error t => t == "totalSent < reportedSent" || t == "totalSent-reportedSent exceeds network capacity"
  | .received, .error t => t == "totalReceived < reportedReceived" || t == "totalReceived-reportedReceived exceeds network capacity"
  | _, _ => false

/-- The exported byte rates of a direction, in bytes. -/
def rates (d : Dir) (ms : List Metric) : List Nat :=
  ms.filterMap (fun m => match d, m with
    | .sent, .sendRate n => some n.toNat
    | .received, .receiveRate n => some n.toNat
    | _, _ => none)

/-- The exported cache sizes. -/
def cacheSizes (ms : List Metric) : List Nat := ms.filterMap (fun m => match m with | .cacheSize n => some n | _ => none)

/-- `n` is the number of connections reported in a block. -/
def ConnectionsIn (ex : Option ExcludeConfig) (b : MessageBlock) (n : Nat) : Prop :=
  ∃ ks : List UInt64, ks.Nodup ∧ ks.length = n ∧ ∀ k, k ∈ ks ↔ ∃ r ∈ reports ex b, ck r = k

/-- The exported numbers of connections. -/
def isConnCount : Metric → Bool
  | .connCount _ _ => true
  | _ => false

/-- The counter for attributes of type `t` that could not be decoded completely. -/
def attrMetric (t : Nat) : Metric :=
  match t with
  | 1 => .large "MemInfo"
  | 2 => .large "TCPInfo"
  | 3 => .large "VegasInfo"
  | 7 => .large "SockMemInfo"
  | 9 => .large "DCTCPInfo"
  | 16 => .large "BBRInfo"
  | 11 => .skipped "INET_DIAG_SKV6ONLY"
  | 12 => .skipped "INET_DIAG_LOCALS"
  | 13 => .skipped "INET_DIAG_PEERS"
  | 14 => .skipped "INET_DIAG_PAD"
  | t => .skipped (toString t)

end TcpInfo.Spec
