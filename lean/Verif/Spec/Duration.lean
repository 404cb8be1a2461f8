/-!
# Specification: histograms of durations

A time as a `float64` is a whole number of units of 2^-100 s. Durations are in nanoseconds.
-/

namespace TcpInfo.Spec

/-- `u` units are `ns` nanoseconds, up to `n` parts in 2^53. -/
def Near (n u ns : Nat) : Prop :=
  2 ^ 53 * (u * 1000000000) ≤ 2 ^ 53 * (ns * 2 ^ 100) + n * (ns * 2 ^ 100) ∧ 2 ^ 53 * (ns * 2 ^ 100) ≤ 2 ^ 53 * (u * 1000000000) + n * (ns * 2 ^ 100)

instance (n u ns : Nat) : Decidable (Near n u ns) := inferInstanceAs (Decidable (_ ∧ _))

/-- Bounds of the buckets for the time of a dump: 1 ms to 200 ms, about ten per factor of ten. -/
def dumpBounds : List Nat :=
  [1000000, 1250000, 1600000, 2000000, 2500000, 3200000, 4000000, 5000000, 6300000, 7900000,
   10000000, 12500000, 16000000, 20000000, 25000000, 32000000, 40000000, 50000000, 63000000, 79000000,
   100000000, 125000000, 160000000, 200000000]

/-- Bounds of the buckets for the time between polls: 0 to 29 ms. -/
def intervalBounds : List Nat := (List.range 30).map (fun i => i * 1000000)

/-- `w`, i.e. bounds (in half units) with numbers, a number and a sum (in units), is what a histogram with these bounds is to show after the durations `ds`: next to
each bound the number of durations up to it, exactly; the number of all; and their sum, up to rounding, if there are not more than 2^50. -/
structure ShowsDurations (bounds : List Nat) (ds : List Int) (w : List (Nat × Nat) × Nat × Nat) : Prop where
  length : w.1.length = bounds.length
  bucket : ∀ (i b : Nat) (p : Nat × Nat), bounds[i]? = some b → w.1[i]? = some p → Near 8 p.1 (2 * b) ∧ p.2 = ds.countP (fun (d : Int) => d ≤ b)
  count : w.2.1 = ds.length
  sum : ds.length ≤ 2 ^ 50 → Near (2 * ds.length + 4) w.2.2 ds.sum.toNat

end TcpInfo.Spec
