import Verif.Spec.Saver
import Verif.Spec.Compare
import Verif.Spec.Wire
import Verif.Spec.Record
/-!
# Specification: what the saver crashes on

Independent of the saver: in terms of the reports and of the memory that tcp_info of a report is stored in.
-/

namespace TcpInfo.Spec

/-- Number of bytes from the start of a record's tcp_info (attribute 2) to the end of the memory it lies in. `none` without tcp_info. -/
def infoRoom (r : ArchivalRecord) : Option Nat :=
  match (r.attributes.getD [])[2]? with
  | some (some s) => some (s.val.length + s.spare.length)
  | _ => none

/-- Two records of a connection in the same state, both with tcp_info, one of which lies less than 168 bytes before the end of its memory. -/
def Overrun (r p : ArchivalRecord) : Prop :=
  stateByte r = stateByte p ∧ ∃ a b, infoRoom r = some a ∧ infoRoom p = some b ∧ (a < 168 ∨ b < 168)

/-- Some connection reported in the previous cycle is not reported in the current one. -/
def Gone (h : List Call) : Prop := ∃ k, lastFor k (cycles h).1 ≠ none ∧ lastFor k (cycles h).2 = none

/-- What the saver cannot survive after history `h`: a report that overruns the memory when compared with the connection's last report of the previous
cycle; without marshallers, the end of a cycle in which a connection is gone. -/
def CrashAt (marshallers : Nat) (h : List Call) : Call → Prop
  | .update r => ∃ p, reference h r = some p ∧ Overrun r p
  | .endCycle => marshallers = 0 ∧ Gone h

/-- The memory behind attributes of cached records does not move. -/
def KeepsRoom (env : Env) : Prop :=
  ∀ n r, ((env.view n r).attributes.getD []).map (·.map (fun s => s.val.length + s.spare.length))
    = (r.attributes.getD []).map (·.map (fun s => s.val.length + s.spare.length))

/-- Attributes in wire format of which the last is complete, but its padding to a multiple of four bytes is cut off. -/
def TornTail (b : Bytes) : Prop :=
  ∃ (l : List (Attr × Bytes)) (rest : Bytes), b = attrsWire l ++ rest
    ∧ (∀ p ∈ l, p.1.value.length ≤ 65531 ∧ GoodPad p.1 p.2) ∧ 4 ≤ lenField rest ∧ lenField rest ≤ rest.length
    ∧ rest.length < (lenField rest + 3) / 4 * 4

/-- A message about a connection that is not excluded, with a torn tail. -/
def TornMessage (ex : Option ExcludeConfig) (m : NetlinkMessage) : Prop :=
  m.header.type = 20 ∧ ∃ (d : DiagMsg) (rest : Bytes), m.data = d.wire ++ rest ∧ TornTail rest
    ∧ ∀ c, ex = some c → ¬ Excluded (c.srcPorts.getD []) c.localConns (c.dstIPs.getD []) d

end TcpInfo.Spec
