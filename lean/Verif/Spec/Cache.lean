import Verif.Spec.Wire
import Verif.Model.Netlink
/-!
# Specification of the connection cache over call histories

No maps: a history is the list of calls made so far, and what the cache must answer is read off it.
-/

namespace TcpInfo.Spec
open TcpInfo

/-- The connection cookie of a raw header: 8 little-endian bytes at offset 44. -/
def cookie (raw : Bytes) : UInt64 := UInt64.ofNat (leNat ((raw.drop 44).take 8))

/-- A call on the cache. -/
inductive Call where
  | update (r : ArchivalRecord)
  | endCycle
  deriving DecidableEq

/-- A record the cache can file: complete header. -/
def complete (r : ArchivalRecord) : Bool := 72 ≤ (r.rawIDM.getD []).length

/-- Complete records updated (in the previous cycle, in the current cycle), in order. -/
def cycles (h : List Call) : List ArchivalRecord × List ArchivalRecord :=
  h.foldl (fun (p, c) call => match call with
    | .update r => (p, if complete r then c ++ [r] else c)
    | .endCycle => (c, [])) ([], [])

/-- Last record with cookie `k` in a list. -/
def lastFor (k : UInt64) (l : List ArchivalRecord) : Option ArchivalRecord :=
  (l.filter (fun r => cookie (r.rawIDM.getD []) = k)).getLast?

end TcpInfo.Spec
