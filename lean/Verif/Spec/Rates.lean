import Verif.Spec.Exported
/-!
# Specification: all rates exported in a run

One list for a whole run, read off the kernel's reports and the times of the polls.
-/

namespace TcpInfo.Spec
open TcpInfo

/-- Of each poll, whether it begins a new second: its IPv4 time is in a later second than `last` and those of all polls before. -/
def secondsOf (last : Int) : List MessageBlock → List Bool
  | [] => []
  | b :: bs => if last < b.v4Time / 1000000000 then true :: secondsOf (b.v4Time / 1000000000) bs else false :: secondsOf last bs

/-- At each poll, the total that is exported (C45), modulo 2^64. -/
def totalsOf (d : Dir) (polls : List (List ArchivalRecord)) : List Nat :=
  (List.range polls.length).map (fun i => exportedTotal d (polls.take (i + 1)) % 2^64)

/-- The rates exported, given of each poll whether it begins a new second, and the total; `observed` bytes have been exported so far. In a new second it is the
difference, if that is from 0 to 12.5e9 (and `observed` not too close to 2^64); nothing otherwise. -/
def ratesFor (observed : Nat) : List (Bool × Nat) → List Nat
  | [] => []
  | (new, total) :: rest =>
    if new = true ∧ observed ≤ total ∧ total ≤ observed + 12500000000 ∧ observed + 12500000000 < 2^64 then (total - observed) :: ratesFor total rest
    else ratesFor observed rest

/-- All rates exported for a direction when the saver gets the blocks `bs`. A new saver has the second of Go's zero time. -/
def exportedRates (d : Dir) (ex : Option ExcludeConfig) (bs : List MessageBlock) : List Nat :=
  ratesFor 0 ((secondsOf (-62135596800) bs).zip (totalsOf d (bs.map (reports ex))))

end TcpInfo.Spec
