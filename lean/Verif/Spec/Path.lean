import Verif.Model.Basic
/-!
# Calendar (specification for C92)
-/

namespace TcpInfo.Spec

/-- A leap year of the Gregorian calendar. -/
def leapYear (y : Nat) : Bool := y % 4 == 0 && (y % 100 != 0 || y % 400 == 0)

/-- Number of days of a month. -/
def monthLength (y m : Nat) : Nat :=
  if m = 2 then (if leapYear y then 29 else 28) else if m = 4 ∨ m = 6 ∨ m = 9 ∨ m = 11 then 30 else 31

/-- The day after a date (year, month, day). -/
def tomorrow : Nat × Nat × Nat → Nat × Nat × Nat
  | (y, m, d) => if d < monthLength y m then (y, m, d + 1) else if m < 12 then (y, m + 1, 1) else (y + 1, 1, 1)

/-- The date `n` days after 1 January 1970. -/
def dateAfter : Nat → Nat × Nat × Nat
  | 0 => (1970, 1, 1)
  | n + 1 => tomorrow (dateAfter n)

end TcpInfo.Spec
