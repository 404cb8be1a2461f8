/-!
# What the text of a number means
-/

namespace TcpInfo.Spec

/-- The text is a decimal numeral (leading zeros allowed) with value `n`. -/
inductive DecText : List Char → Nat → Prop
  | one {c : Char} {d : Nat} : "0123456789".toList[d]? = some c → DecText [c] d
  | more {s : List Char} {n : Nat} {c : Char} {d : Nat} : DecText s n → "0123456789".toList[d]? = some c → DecText (s ++ [c]) (10 * n + d)

/-- The text is a decimal integer with value `i`: a numeral, possibly with a sign. -/
def IntText (s : List Char) (i : Int) : Prop :=
  ∃ n : Nat, (i = n ∧ (DecText s n ∨ ∃ t, s = '+' :: t ∧ DecText t n)) ∨ (i = -n ∧ ∃ t, s = '-' :: t ∧ DecText t n)

end TcpInfo.Spec
