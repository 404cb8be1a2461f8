/-!
# Histograms as Prometheus scrapes them (metrics/metrics.go, client_golang)

The buckets are from /repo; what `promauto.NewHistogram`, `Observe` and a scrape do is from `prometheus/client_golang` (not in /repo, prometheus/histogram.go
`newHistogram`, `Observe`, `Write`). Values are whole numbers; one of the bounds is 12.5, so bounds are given in halves. The sum is a `float64`; a sum
of whole `float64` numbers is again one, rounded to 53 significant bits, half to even (sums up to 2^1023 are meant). The histograms of durations
(`SyscallTimeHistogram`, `PollingHistogram`) are in `Model/Duration.lean`.
-/

namespace TcpInfo.Histogram

/-- The `float64` nearest to a whole number, half to even. -/
def f64 (n : Nat) : Nat :=
  let e := Nat.log2 n - 52
  let q := n / 2 ^ e
  let r := n % 2 ^ e
  if 2 * r < 2 ^ e ∨ (2 * r = 2 ^ e ∧ q % 2 = 0) then q * 2 ^ e else (q + 1) * 2 ^ e

/-- An upper bound, in halves; `none` = +Inf. -/
abbrev Bound := Option Nat

/-- Buckets of whole numbers. -/
def whole (l : List Nat) : List Bound := l.map (fun n => some (2 * n))

/-- metrics/metrics.go:45-53, 66-74: buckets of `ConnectionCountHistogram` and `CacheSizeHistogram`. -/
def countBuckets : List Bound :=
  whole [1, 2, 3, 4, 5, 6, 8, 10] ++ [some 25] ++ whole [16, 20, 25, 32, 40, 50, 63, 79,
    100, 125, 160, 200, 250, 320, 400, 500, 630, 790,
    1000, 1250, 1600, 2000, 2500, 3200, 4000, 5000, 6300, 7900,
    10000, 12500, 16000, 20000, 25000, 32000, 40000, 50000, 63000, 79000,
    10000000]

/-- metrics/metrics.go:107-119, 129-141: buckets of `SendRateHistogram` and `ReceiveRateHistogram`. -/
def rateBuckets : List Bound :=
  whole [0,
    1, 10, 100,
    1000, 1580, 2510, 3980, 6310,
    10000, 15800, 25100, 39800, 63100,
    100000, 158000, 251000, 398000, 631000,
    1000000, 1580000, 2510000, 3980000, 6310000,
    10000000, 15800000, 25100000, 39800000, 63100000,
    100000000, 158000000, 251000000, 398000000, 631000000,
    1000000000, 1260000000, 1580000000, 2000000000, 2510000000, 3160000000, 3980000000, 5010000000, 6310000000, 7940000000,
    10000000000] ++ [none]

/-- A histogram: the finite bounds, a counter for each, the number and the sum of the observations. -/
structure Hist where
  bounds : List Nat
  counts : List Nat
  count : Nat
  sum : Nat
  deriving DecidableEq

/-- `newHistogram`: the bounds must increase strictly; +Inf is left out if it is the last. `none` = panic at start-up. -/
def bounds : List Bound → Option (List Nat)
  | [] => some []
  | [none] => some []
  | [some a] => some [a]
  | some a :: some b :: l => if a ≥ b then none else (bounds (some b :: l)).map (a :: ·)
  | [some a, none] => some [a]
  | some _ :: none :: _ :: _ => none
  | none :: _ :: _ => none

/-- `newHistogram`. -/
def new (l : List Bound) : Option Hist := (bounds l).map (fun bs => ⟨bs, bs.map (fun _ => 0), 0, 0⟩)

/-- `Observe`: the first bucket whose bound is not below the value, if any, is incremented (`sort.SearchFloat64s`). -/
def bump (v : Nat) : List Nat → List Nat → List Nat
  | b :: bs, c :: cs => if 2 * v ≤ b then (c + 1) :: cs else c :: bump v bs cs
  | _, cs => cs

/-- `Observe`. -/
def Hist.observe (h : Hist) (v : Nat) : Hist := { h with counts := bump v h.bounds h.counts, count := h.count + 1, sum := f64 (h.sum + v) }

/-- `Write`: the cumulated counts, for each bound. -/
def cumulate : Nat → List Nat → List Nat → List (Nat × Nat)
  | acc, b :: bs, c :: cs => (b, acc + c) :: cumulate (acc + c) bs cs
  | _, _, _ => []

/-- `Write`: what is scraped, i.e. for each bound (in halves) the number of observations up to it; their number; their sum. -/
def Hist.write (h : Hist) : List (Nat × Nat) × Nat × Nat := (cumulate 0 h.bounds h.counts, h.count, h.sum)

/-- After some observations. -/
def Hist.observeAll (h : Hist) (vs : List Nat) : Hist := vs.foldl Hist.observe h

/-- saver/saver.go:409, 422 `8 * float64(n)`; the multiplication by a power of two is exact. -/
def bits (n : Nat) : Nat := 8 * f64 n

end TcpInfo.Histogram
