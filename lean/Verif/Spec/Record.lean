import Verif.Spec.Layout
/-!
# Independent specification of record building and exclusion
-/

namespace TcpInfo.Spec
open TcpInfo

/-- The last attribute of type `t` in a message, if any. -/
def lastOf (t : Nat) (l : List Attr) : Option Bytes :=
  match l with
  | [] => none
  | a :: as => match lastOf t as with
    | some v => some v
    | none => if a.type.toNat = t then some a.value else none

/-- `m` is the largest attribute type in `l` (0 if there is none). -/
def IsMaxType (m : Nat) (l : List Attr) : Prop :=
  (∀ a ∈ l, a.type.toNat ≤ m) ∧ (m = 0 ∨ ∃ a ∈ l, a.type.toNat = m)

/-- An address field counts as local: the code takes a field whose last 12 bytes are zero for IPv4 (see C04), else for IPv6. -/
def LocalField (b : Bytes) : Prop :=
  (b.drop 4 = List.replicate 12 0 ∧ LocalV4 (byte b 0) (byte b 1) (byte b 2) (byte b 3))
  ∨ (b.drop 4 ≠ List.replicate 12 0 ∧ LocalV6 b)

/-- What a configuration (ports, local flag, destination keys) excludes. -/
def Excluded (ports : List UInt16) (localConns : Bool) (dsts : List Bytes) (m : DiagMsg) : Prop :=
  m.sport ∈ ports ∨ (localConns = true ∧ (LocalField m.src.val ∨ LocalField m.dst.val)) ∨ m.dst.val ∈ dsts

/-- The value of a named field inside the byte image of a kernel struct: skip the fields before it. -/
def fieldOf : CStruct → String → Bytes → Option Nat
  | [], _, _ => none
  | (n, sz) :: fs, name, b => if n = name then some (leNat (b.take sz)) else fieldOf fs name (b.drop sz)

end TcpInfo.Spec
