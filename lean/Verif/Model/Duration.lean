import Verif.Model.Histogram
import Verif.Model.PollTimes
/-!
# Histograms of durations (metrics/metrics.go:19-40)

`SyscallTimeHistogram` and `PollingHistogram` are given `time.Duration.Seconds()`, a `float64`, and their bounds are `float64` too. Here a `float64` that is not
negative is a whole number of units of 2^-100 s: all that occur (0, and at least 10^-9 s) are such multiples. Go's constants are rounded to the nearest
`float64`, half to even, and so are sums and quotients. `Duration.Seconds` is Go's time package, `LinearBuckets` is from `prometheus/client_golang`; neither is in
/repo.
-/

namespace TcpInfo.Histogram

/-- The `float64` nearest to `n / q` units, half to even. -/
def rn (q n : Nat) : Nat :=
  let e := Nat.log2 (n / q) - 52
  let t := q * 2 ^ e
  if 2 * (n % t) < t ∨ (2 * (n % t) = t ∧ n / t % 2 = 0) then n / t * 2 ^ e else (n / t + 1) * 2 ^ e

/-- Units in a second. -/
def unitsPerSecond : Nat := 2 ^ 100

/-- `time.Duration.Seconds` of `d ≥ 0` nanoseconds: `float64(d/Second) + float64(d%Second)/1e9`. (The number of seconds has less than 53 bits, so it is exact.) -/
def seconds (d : Nat) : Nat := rn 1 (d / 1000000000 * unitsPerSecond + rn 1000000000 (d % 1000000000 * unitsPerSecond))

/-- A decimal constant with five places. -/
def const5 (n : Nat) : Nat := rn 100000 (n * unitsPerSecond)

/-- metrics/metrics.go:25-29: buckets of `SyscallTimeHistogram`. -/
def syscallBuckets : List Nat :=
  [100, 125, 160, 200, 250, 320, 400, 500, 630, 790,
   1000, 1250, 1600, 2000, 2500, 3200, 4000, 5000, 6300, 7900,
   10000, 12500, 16000, 20000].map const5

/-- `prometheus.LinearBuckets`: `buckets[i] = start; start += width`. -/
def linearBuckets (start width : Nat) : Nat → List Nat
  | 0 => []
  | n + 1 => start :: linearBuckets (rn 1 (start + width)) width n

/-- metrics/metrics.go:38: buckets of `PollingHistogram`. -/
def pollingBuckets : List Nat := linearBuckets 0 (const5 100) 30

/-- A histogram of durations, with what it has been given (bounds of `Model.Histogram` are in halves). -/
def durations (buckets : List Nat) (ds : List Int) : Option Hist :=
  (new (buckets.map (fun b => some (2 * b)))).map (fun h => h.observeAll (ds.map (fun d => seconds d.toNat)))

/-- collector/socket-monitor_linux.go:86: what `SyscallTimeHistogram` has been given under a label. -/
def syscallObserved (af : String) (log : List Poll.Entry) : List Int :=
  log.filterMap (fun e => match e.ev with | .latency af' d => if af' = af then some d else none | _ => none)

/-- What is scraped of `SyscallTimeHistogram` for a label. -/
def syscallHistogram (af : String) (log : List Poll.Entry) : Option Hist := durations syscallBuckets (syscallObserved af log)

/-- collector/collector_linux.go:81: what is scraped of `PollingHistogram`. -/
def pollingHistogram (s : Ticker.State) : Option Hist := durations pollingBuckets s.observed

end TcpInfo.Histogram
