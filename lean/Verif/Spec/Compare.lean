import Verif.Spec.Record
import Verif.Model.Netlink
/-!
# Independent specification of "no significant change"
-/

namespace TcpInfo.Spec
open TcpInfo

/-- tcp_info fields before the four `last_*` fields. -/
def earlyFields : CStruct := tcp_info.take 17
/-- The four `last_*` fields. -/
def lastFields : CStruct := (tcp_info.drop 17).take 4
/-- tcp_info fields after the `last_*` fields and before `tcpi_busy_time`. -/
def middleFields : CStruct := (tcp_info.drop 21).take 22
/-- `tcpi_busy_time` and everything after it. -/
def lateFields : CStruct := tcp_info.drop 43

/-- The value (visible bytes) of attribute `t` of a record; `none` when absent. -/
def attrVal (r : ArchivalRecord) (t : Nat) : Option Bytes := ((r.attributes.getD []).getD t none).map (·.val)

/-- The record has a tcp_info attribute that reaches at least to `tcpi_busy_time` (168 bytes). -/
def FullInfo (r : ArchivalRecord) : Prop := ∃ b, attrVal r 2 = some b ∧ 168 ≤ b.length

/-- TCP state of a record: byte 1 of the header. -/
def stateByte (r : ArchivalRecord) : UInt8 := byte (r.rawIDM.getD []) 1

/-- Same tcp_info as far as the documentation calls it significant. -/
def SameInfo (a b : Bytes) : Prop :=
  ∀ f, (f ∈ earlyFields ∨ f ∈ middleFields) → fieldOf tcp_info f.1 a = fieldOf tcp_info f.1 b

/-- The documented notion of "no significant change" between two records. -/
def Unchanged (r s : ArchivalRecord) : Prop :=
  stateByte r = stateByte s
  ∧ (∀ a b, attrVal r 2 = some a → attrVal s 2 = some b → SameInfo a b)
  ∧ (r.attributes.getD []).length = (s.attributes.getD []).length
  ∧ ∀ t, t ≠ 2 → attrVal r t = attrVal s t

/-- Exchange gained and lost. -/
def dual : ChangeType → ChangeType
  | .newAttribute => .lostAttribute
  | .lostAttribute => .newAttribute
  | c => c

/-- How an attribute other than tcp_info has changed. -/
def attrChange (old new : Option Bytes) : Option ChangeType :=
  match old, new with
  | none, none => none
  | none, some _ => some .newAttribute
  | some _, none => some .lostAttribute
  | some x, some y => if x.length ≠ y.length then some .attributeLength else if x ≠ y then some .other else none

/-- The kind of change from record `s` to record `r`: the state comes first, then tcp_info, then the number of attributes, then the first other attribute that
differs. -/
inductive ChangeKind (r s : ArchivalRecord) : ChangeType → Prop
  | state : stateByte r ≠ stateByte s → ChangeKind r s .iDiagStateChange
  | noInfo : stateByte r = stateByte s → attrVal r 2 = none ∨ attrVal s 2 = none → ChangeKind r s .noTCPInfo
  | counter (a b : Bytes) : stateByte r = stateByte s → attrVal r 2 = some a → attrVal s 2 = some b → ¬ SameInfo a b → ChangeKind r s .stateOrCounterChange
  | more (a b : Bytes) : stateByte r = stateByte s → attrVal r 2 = some a → attrVal s 2 = some b → SameInfo a b →
      (s.attributes.getD []).length < (r.attributes.getD []).length → ChangeKind r s .newAttribute
  | fewer (a b : Bytes) : stateByte r = stateByte s → attrVal r 2 = some a → attrVal s 2 = some b → SameInfo a b →
      (r.attributes.getD []).length < (s.attributes.getD []).length → ChangeKind r s .lostAttribute
  | attr (a b : Bytes) (t : Nat) (c : ChangeType) : stateByte r = stateByte s → attrVal r 2 = some a → attrVal s 2 = some b → SameInfo a b →
      (r.attributes.getD []).length = (s.attributes.getD []).length → t ≠ 2 → (∀ i, i < t → i ≠ 2 → attrVal s i = attrVal r i) →
      attrChange (attrVal s t) (attrVal r t) = some c → ChangeKind r s c
  | same : attrVal r 2 ≠ none → attrVal s 2 ≠ none → Unchanged r s → ChangeKind r s .noMajorChange

end TcpInfo.Spec
