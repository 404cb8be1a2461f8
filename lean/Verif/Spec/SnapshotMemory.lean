import Verif.Spec.Snapshot
import Verif.Model.SnapshotMemory
/-!
# Specification: the memory that belongs to a snapshot
-/

namespace TcpInfo.Spec
open TcpInfo

/-- The bytes of the struct that a snapshot has for an attribute type: INET_DIAG_MEMINFO, INFO, VEGASINFO, SKMEMINFO, DCTCPINFO, BBRINFO. -/
def structOf (s : Snapshot) : Nat → Option Bytes
  | 1 => s.memInfo
  | 2 => s.tcpInfo
  | 3 => s.vegasInfo
  | 7 => s.socketMem
  | 9 => s.dctcpInfo
  | 16 => s.bbrInfo
  | _ => none

/-- The types of those attributes, each with the size of the Go struct (that for BBR ends with four bytes of padding). -/
def structLens : List (Nat × Nat) := [(1, 16), (2, 232), (3, 16), (7, 36), (9, 16), (16, 24)]

/-- Where a snapshot's structs are. -/
def structAt (s : PSnapshot) : Nat → Option Nat
  | 1 => s.memInfo
  | 2 => s.tcpInfo
  | 3 => s.vegasInfo
  | 7 => s.socketMem
  | 9 => s.dctcpInfo
  | 16 => s.bbrInfo
  | _ => none

/-- An address inside one of the structs that a snapshot points to. -/
def InStruct (s : PSnapshot) (x : Nat) : Prop :=
  (∃ a, s.inetDiagMsg = some a ∧ a ≤ x ∧ x < a + 72) ∨ ∃ k n a, (k, n) ∈ structLens ∧ structAt s k = some a ∧ a ≤ x ∧ x < a + n

/-- An address inside one of the slices of a record. -/
def InRecord (r : PArchival) (x : Nat) : Prop :=
  (∃ s, r.raw = some s ∧ s.base ≤ x ∧ x < s.base + s.len) ∨ ∃ s, some s ∈ r.attributes.getD [] ∧ s.base ≤ x ∧ x < s.base + s.len

/-- The slices of a record are slices of memory that has been allocated. -/
def RecordIn (h : PHeap) (r : PArchival) : Prop :=
  (∀ s, r.raw = some s → s.len ≤ s.cap ∧ s.base + s.cap ≤ h.brk) ∧ ∀ s, some s ∈ r.attributes.getD [] → s.len ≤ s.cap ∧ s.base + s.cap ≤ h.brk

/-- Bytes, and zeros behind them up to the size. -/
def padded (b : Bytes) (n : Nat) : Bytes := b ++ List.replicate (n - b.length) 0

end TcpInfo.Spec
