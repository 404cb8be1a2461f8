import Verif.Lemmas.Duration
import Verif.Spec.Duration
import Verif.Props.PollTimes
import Verif.Props.Ticker
/-!
# C114: histograms of durations
-/

namespace TcpInfo
open Spec Histogram

/-- Bounds as constants are the right ones for some bounds in nanoseconds: no duration is between them. -/
def boundsOK (fs bs : List Nat) : Bool :=
  fs.length == bs.length && (fs.zip bs).all (fun p => decide (seconds p.2 ≤ p.1) && decide (p.1 < seconds (p.2 + 1)) && decide (Near 8 p.1 p.2))

theorem boundsOK_syscall : boundsOK syscallBuckets dumpBounds = true := by decide +kernel
theorem boundsOK_polling : boundsOK pollingBuckets intervalBounds = true := by decide +kernel

theorem toNat_sum : ∀ ds : List Int, (∀ d ∈ ds, 0 ≤ d) → (ds.map Int.toNat).sum = ds.sum.toNat ∧ 0 ≤ ds.sum
  | [], _ => by simp
  | d :: ds, h => by
    obtain ⟨a, b⟩ := toNat_sum ds (fun x hx => h x (by simp [hx]))
    have := h d (by simp)
    simp only [List.map_cons, List.sum_cons]
    omega

theorem near_double (n u b : Nat) (h : Near n u b) : Near n (2 * u) (2 * b) := by
  unfold Near at *
  revert h
  generalize (2 : Nat) ^ 100 = x
  generalize (2 : Nat) ^ 53 = y
  intro h
  have e : n * (2 * b * x) = 2 * (n * (b * x)) := by rw [Nat.mul_assoc 2, Nat.mul_left_comm]
  have e1 : y * (2 * b * x) = 2 * (y * (b * x)) := by rw [Nat.mul_assoc 2, Nat.mul_left_comm]
  have e2 : y * (2 * u * 1000000000) = 2 * (y * (u * 1000000000)) := by rw [Nat.mul_assoc 2, Nat.mul_left_comm]
  rw [e, e1, e2]
  omega

theorem sum_near (k s v : Nat) (t : Nat) (hk : k ≤ 2 ^ 50)
    (h1 : 2 ^ 53 * s ≤ 2 ^ 53 * v + k * (2 * v)) (h2 : 2 ^ 53 * v ≤ 2 ^ 53 * s + k * (2 * v))
    (h3 : 2 ^ 53 * (1000000000 * v) ≤ 2 ^ 53 * t + 3 * t) (h4 : 2 ^ 53 * t ≤ 2 ^ 53 * (1000000000 * v) + 3 * t) :
    2 ^ 53 * (s * 1000000000) ≤ 2 ^ 53 * t + (2 * k + 4) * t ∧ 2 ^ 53 * t ≤ 2 ^ 53 * (s * 1000000000) + (2 * k + 4) * t := by
  -- the rounding errors of the additions, against the sum itself
  have h5 : 2 ^ 53 * (2 * k * (1000000000 * v)) ≤ 2 ^ 53 * (2 * k * t) + 2 ^ 53 * t := by
    have a := Nat.mul_le_mul_left (2 * k) h3
    have b : 2 * k * (3 * t) ≤ 2 ^ 53 * t := by
      rw [← Nat.mul_assoc]
      exact Nat.mul_le_mul_right _ (by omega)
    have c : 2 * k * (2 ^ 53 * (1000000000 * v)) = 2 ^ 53 * (2 * k * (1000000000 * v)) := Nat.mul_left_comm _ _ _
    have d : 2 * k * (2 ^ 53 * t) = 2 ^ 53 * (2 * k * t) := Nat.mul_left_comm _ _ _
    rw [Nat.mul_add, c, d] at a
    omega
  have h6 : k * (2 * v) * 1000000000 = 2 * k * (1000000000 * v) := by
    rw [Nat.mul_comm (k * (2 * v)), ← Nat.mul_assoc k, Nat.mul_comm k 2, Nat.mul_left_comm]
  have h7 : (2 * k + 4) * t = 2 * k * t + 4 * t := Nat.add_mul _ _ _
  rw [h7]
  generalize 2 * k * t = x at *
  generalize 2 * k * (1000000000 * v) = y at *
  generalize k * (2 * v) = z at *
  omega

theorem sum_shows (h : Hist) (hs : h.sum = 0) (ds : List Nat) (hk : ds.length ≤ 2 ^ 50) :
    Near (2 * ds.length + 4) (h.observeAll (ds.map seconds)).sum ds.sum := by
  obtain ⟨a1, a2⟩ := observeAll_sum_error (ds.map seconds) h 0 0 (by simpa using hk) (by simp [hs]) (by simp)
  obtain ⟨b1, b2⟩ := seconds_sum_error ds
  simp only [Nat.zero_add, List.length_map] at a1 a2
  have := sum_near ds.length _ _ _ hk a1 a2 b1 b2
  unfold Near
  rw [show unitsPerSecond = 2 ^ 100 from rfl] at this
  exact this

theorem count_bucket (g : Nat → Nat) (f b : Nat) (hg : ∀ d, g d ≤ f ↔ d ≤ b) (ds : List Int) (hd : ∀ d ∈ ds, 0 ≤ d) :
    (ds.map (fun d => g d.toNat)).countP (fun v => decide (2 * v ≤ 2 * f)) = ds.countP (fun (d : Int) => d ≤ b) := by
  simp only [List.countP_map]
  refine List.countP_congr (fun d hd' => ?_)
  simp only [Function.comp, decide_eq_true_eq]
  have := hg d.toNat
  have := hd d hd'
  omega

/-- Any histogram of durations with such bounds. -/
theorem durations_shows (fs bs : List Nat) (h : Hist) (hn : Histogram.new (fs.map (fun b => some (2 * b))) = some h) (hb : boundsOK fs bs = true) (ds : List Int)
    (hd : ∀ d ∈ ds, 0 ≤ d) : ∃ h', durations fs ds = some h' ∧ ShowsDurations bs ds h'.write := by
  refine ⟨_, by unfold durations; rw [hn]; rfl, ?_⟩
  have hsum : h.sum = 0 := by
    unfold Histogram.new at hn
    obtain ⟨x, -, rfl⟩ := Option.map_eq_some_iff.1 hn
    rfl
  obtain ⟨bs', e1, e2, e3⟩ := C99_buckets _ h hn (ds.map (fun d => seconds d.toNat))
  have e1 : bs' = fs.map (2 * ·) := by
    rcases e1 with e1 | e1
    · have := congrArg (List.filterMap id) e1
      simpa [List.filterMap_map, Function.comp_def] using this.symm
    · have : (none : Option Nat) ∈ fs.map (fun b => some (2 * b)) := by rw [e1]; simp
      simp at this
  subst e1
  unfold boundsOK at hb
  simp only [Bool.and_eq_true, beq_iff_eq, List.all_eq_true, decide_eq_true_eq] at hb
  obtain ⟨hl, hb⟩ := hb
  refine ⟨?_, ?_, ?_, ?_⟩
  · rw [e2]; simpa using hl
  · intro i b p hi hp
    rw [e2, List.getElem?_map, List.getElem?_map] at hp
    cases hf : fs[i]? with
    | none => rw [hf] at hp; simp at hp
    | some f =>
      rw [hf] at hp
      simp only [Option.map_some, Option.some.injEq] at hp
      subst hp
      have hm : (f, b) ∈ fs.zip bs := List.mem_of_getElem? (i := i) (by rw [List.getElem?_zip_eq_some]; exact ⟨hf, hi⟩)
      obtain ⟨⟨h1, h2⟩, h3⟩ := hb _ hm
      refine ⟨near_double _ _ _ h3, ?_⟩
      exact count_bucket seconds f b (seconds_le_iff b f h1 h2) ds hd
  · rw [e3]; simp
  · intro hk
    have := sum_shows h hsum (ds.map Int.toNat) (by simpa using hk)
    rw [(toNat_sum ds hd).1, List.map_map, List.length_map] at this
    exact this

/-- C114. The program starts with its buckets of durations. -/
theorem C114_registered (log : List Poll.Entry) (af : String) (s : Ticker.State) : (syscallHistogram af log).isSome = true ∧ (pollingHistogram s).isSome = true := by
  have h1 : (Histogram.new (syscallBuckets.map (fun b => some (2 * b)))).isSome = true := by decide +kernel
  have h2 : (Histogram.new (pollingBuckets.map (fun b => some (2 * b)))).isSome = true := by decide +kernel
  simp [syscallHistogram, pollingHistogram, durations, h1, h2]

theorem syscallObserved_append (af : String) (a b : List Poll.Entry) : syscallObserved af (a ++ b) = syscallObserved af a ++ syscallObserved af b := List.filterMap_append

theorem syscallObserved_nonneg (af : String) (log : List Poll.Entry) (h : ∀ d ∈ latencies log, 0 ≤ d) : ∀ d ∈ syscallObserved af log, 0 ≤ d := by
  intro d hd
  obtain ⟨e, he, hx⟩ := List.mem_filterMap.1 hd
  refine h d (List.mem_filterMap.2 ⟨e, he, ?_⟩)
  cases hev : e.ev <;> rw [hev] at hx <;> simp at hx
  simp [hx.2]

theorem syscallObserved_flatMap (ps : List PollRec) : syscallObserved "ipv6" (ps.flatMap PollRec.entries) = ps.map (fun p => p.timed6.1 - p.asked6.1)
    ∧ syscallObserved "ipv4" (ps.flatMap PollRec.entries) = ps.map (fun p => p.timed4.1 - p.asked4.1) := by
  induction ps with
  | nil => exact ⟨rfl, rfl⟩
  | cons p ps ih =>
    rw [List.flatMap_cons, syscallObserved_append, syscallObserved_append, ih.1, ih.2]
    exact ⟨rfl, rfl⟩

theorem syscallObserved_take (p : PollRec) (k : Nat) (hk : k < 10) :
    syscallObserved "ipv6" (p.entries.take k) = (if 4 ≤ k then [p.timed6.1 - p.asked6.1] else [])
    ∧ syscallObserved "ipv4" (p.entries.take k) = (if 8 ≤ k then [p.timed4.1 - p.asked4.1] else []) := by
  match k, hk with
  | 0, _ | 1, _ | 2, _ | 3, _ | 4, _ | 5, _ | 6, _ | 7, _ | 8, _ | 9, _ => exact ⟨rfl, rfl⟩

/-- C114. In every execution, what has happened so far being the polls `ps` and the beginning of one more (C107): the histogram of dumps scraped under an address
family shows exactly the times of the dumps of that family, from the request until after the answer, by the monotonic clock. Each of them is in its bucket to the
nanosecond. -/
theorem C114_dumps (cap : Nat) (n t off : Int) (b : Bool) (cs : List Poll.Choice) (s : Poll.State) (h : (Poll.init t off b).exec cap n cs = some s) :
    ∃ (ps : List PollRec) (cur : PollRec) (k : Nat), k < 10 ∧ s.log = ps.flatMap PollRec.entries ++ cur.entries.take k
      ∧ (∃ h6, syscallHistogram "ipv6" s.log = some h6
          ∧ ShowsDurations dumpBounds (ps.map (fun p => p.timed6.1 - p.asked6.1) ++ if 4 ≤ k then [cur.timed6.1 - cur.asked6.1] else []) h6.write)
      ∧ (∃ h4, syscallHistogram "ipv4" s.log = some h4
          ∧ ShowsDurations dumpBounds (ps.map (fun p => p.timed4.1 - p.asked4.1) ++ if 8 ≤ k then [cur.timed4.1 - cur.asked4.1] else []) h4.write) := by
  obtain ⟨⟨ps, cur, k, hk, hl⟩, -, -⟩ := C107_polls cap n t off b cs s h
  have hnn := (C107_latency cap n t off b cs s h).1
  have key : ∀ af, ∃ h', syscallHistogram af s.log = some h' ∧ ShowsDurations dumpBounds (syscallObserved af s.log) h'.write := by
    intro af
    have h1 : (Histogram.new (syscallBuckets.map (fun b => some (2 * b)))).isSome = true := by decide +kernel
    obtain ⟨hist, hh⟩ := Option.isSome_iff_exists.1 h1
    exact durations_shows _ _ hist hh boundsOK_syscall _ (syscallObserved_nonneg af s.log hnn)
  refine ⟨ps, cur, k, hk, hl, ?_, ?_⟩
  · obtain ⟨h6, a, c⟩ := key "ipv6"
    refine ⟨h6, a, ?_⟩
    have e : syscallObserved "ipv6" s.log = ps.map (fun p => p.timed6.1 - p.asked6.1) ++ if 4 ≤ k then [cur.timed6.1 - cur.asked6.1] else [] := by
      rw [hl, syscallObserved_append, (syscallObserved_flatMap ps).1, (syscallObserved_take cur k hk).1]
    rwa [e] at c
  · obtain ⟨h4, a, c⟩ := key "ipv4"
    refine ⟨h4, a, ?_⟩
    have e : syscallObserved "ipv4" s.log = ps.map (fun p => p.timed4.1 - p.asked4.1) ++ if 8 ≤ k then [cur.timed4.1 - cur.asked4.1] else [] := by
      rw [hl, syscallObserved_append, (syscallObserved_flatMap ps).2, (syscallObserved_take cur k hk).2]
    rwa [e] at c

/-- C114. No other label is used. -/
theorem C114_labels (cap : Nat) (n t off : Int) (b : Bool) (cs : List Poll.Choice) (s : Poll.State) (h : (Poll.init t off b).exec cap n cs = some s) (af : String)
    (d : Int) (e : Poll.Entry) (he : e ∈ s.log) (hd : e.ev = .latency af d) : af = "ipv4" ∨ af = "ipv6" := by
  obtain ⟨⟨ps, cur, k, hk, hl⟩, -, -⟩ := C107_polls cap n t off b cs s h
  have key : ∀ p : PollRec, e ∈ p.entries → af = "ipv4" ∨ af = "ipv6" := by
    intro p hp
    simp only [PollRec.entries, List.mem_cons, List.not_mem_nil, or_false] at hp
    rcases hp with rfl | rfl | rfl | rfl | rfl | rfl | rfl | rfl | rfl | rfl <;> simp_all
  rw [hl] at he
  rcases List.mem_append.1 he with he | he
  · obtain ⟨p, -, hp⟩ := List.mem_flatMap.1 he
    exact key p hp
  · exact key cur (List.mem_of_mem_take he)

/-- C114. In every execution, the histogram of polling intervals scraped shows exactly the times between the ends of successive polls (the first being that since
the start, 10 ms more, see C94), each in its bucket to the nanosecond. -/
theorem C114_intervals (cap : Nat) (n t off : Int) (b : Bool) (cs : List Poll.Choice) (s : Poll.State) (h : (Poll.init t off b).exec cap n cs = some s) :
    ∃ (hist : Hist) (ds : List Int), pollingHistogram s.tk = some hist ∧ ShowsDurations intervalBounds ds hist.write
      ∧ ds.length = s.tk.ended.length ∧ (∀ d ∈ ds, 0 ≤ d)
      ∧ (∀ (k : Nat) e e' x, s.tk.ended[k]? = some e → s.tk.ended[k + 1]? = some e' → ds[k + 1]? = some x → x = e' - e)
      ∧ (∀ e b x, s.tk.ended[0]? = some e → s.tk.begun[0]? = some b → ds[0]? = some x → e - b + 10000000 ≤ x ∧ x ≤ e - t + 10000000) := by
  have hr := C107_ticks cap n t off b cs s h
  obtain ⟨a1, a2, a3, a4, a5⟩ := C94_histogram n t s.tk hr
  have i := tickInv n t s.tk hr
  have hnn : ∀ d ∈ s.tk.observed, 0 ≤ d := by
    intro d hd
    obtain ⟨j, hj, rfl⟩ := List.mem_iff_getElem.1 hd
    have hx : s.tk.observed[j]? = some s.tk.observed[j] := List.getElem?_eq_getElem hj
    have hej : s.tk.ended[j]? = some (s.tk.ended[j]'(by omega)) := List.getElem?_eq_getElem _
    revert hx hej
    cases j with
    | zero =>
      intro hx hej
      have hb0 : s.tk.begun[0]? = some (s.tk.begun[0]'(by omega)) := List.getElem?_eq_getElem _
      have := i.first _ _ _ hej hb0 hx
      simp only [Ticker.period] at this
      omega
    | succ j =>
      intro hx hej
      have hej' : s.tk.ended[j]? = some (s.tk.ended[j]'(by omega)) := List.getElem?_eq_getElem _
      have := i.next j _ _ _ hej' hej hx
      omega
  have h1 : (Histogram.new (pollingBuckets.map (fun b => some (2 * b)))).isSome = true := by decide +kernel
  obtain ⟨hist, hh⟩ := Option.isSome_iff_exists.1 h1
  obtain ⟨h', b1, b2⟩ := durations_shows _ _ hist hh boundsOK_polling s.tk.observed hnn
  exact ⟨h', s.tk.observed, b1, b2, a1, hnn, a4, a5⟩

/-- C99. In every run with at most 2^50 observations, however large their sum: the sum scraped of the rates of a direction is eight times the bytes observed, up to
two parts in 2^53 for each observation. -/
theorem C99_sum (ev : Bool) (env : Env) (hv : ViewOK env) (bs : List MessageBlock) (s : Saver) (h : runSaver env bs = some s) (d : Dir)
    (hk : (observations d s.trace).length ≤ 2 ^ 50) :
    ∃ (hist : Hist) (got want err : Nat), Histogram.new rateBuckets = some hist ∧ got = (hist.observeAll ((rates d (saverMetrics ev env bs)).map bits)).write.2.2
      ∧ want = 8 * (observations d s.trace).sum ∧ err = (observations d s.trace).length * (2 * want)
      ∧ 2 ^ 53 * got ≤ 2 ^ 53 * want + err ∧ 2 ^ 53 * want ≤ 2 ^ 53 * got + err := by
  obtain ⟨l, h1, h2⟩ := close_obs env d bs s h
  have hb : ∀ n ∈ observations d s.trace, n < 2 ^ 53 := by
    intro n hn
    rw [h2] at hn
    have := C46_bounded env hv d bs l h1 n hn
    omega
  rw [C83_rates ev env bs s h d]
  have key : ∀ hist : Hist, hist.sum = 0 → 2 ^ 53 * (hist.observeAll ((observations d s.trace).map bits)).sum
        ≤ 2 ^ 53 * (8 * (observations d s.trace).sum) + (observations d s.trace).length * (2 * (8 * (observations d s.trace).sum))
      ∧ 2 ^ 53 * (8 * (observations d s.trace).sum)
        ≤ 2 ^ 53 * (hist.observeAll ((observations d s.trace).map bits)).sum + (observations d s.trace).length * (2 * (8 * (observations d s.trace).sum)) := by
    intro hist h0
    have e := observeAll_sum_error ((observations d s.trace).map bits) hist 0 0 (by simpa using hk) (by simp [h0]) (by simp)
    rw [map_bits_sum _ hb] at e
    simpa only [Nat.zero_add, List.length_map] using e
  exact ⟨_, _, _, _, rfl, rfl, rfl, rfl, key _ rfl⟩

/-! ## Examples -/

-- the sum is rounded, and stays near
example : 2 ^ 56 + 2 ^ 30 + 5 ≠ f64 (2 ^ 56 + 2 ^ 30 + 5) ∧ f64 (2 ^ 56 + 2 ^ 30 + 5) = 2 ^ 56 + 2 ^ 30 := by decide +kernel
example : (runSaver exEnv statBlocks).map (fun s => (observations .sent s.trace).length) = some 2 := by decide +kernel

-- two dumps of 3 ms, and one of 3.2 ms and 1 ns; these are below and above the bound of 3.2 ms
example : (durations syscallBuckets [3000000, 3200000, 3200001]).map (fun h => (h.write.1.map (·.2)).take 7) = some [0, 0, 0, 0, 0, 2, 3] := by decide +kernel
example : (durations pollingBuckets [10000000, 9999999, 10000001, 0, 28000000, 1000000000]).map (fun h => h.write.1.map (·.2))
    = some ([1, 1, 1, 1, 1, 1, 1, 1, 1, 1, 3, 4, 4, 4, 4, 4, 4, 4, 4, 4, 4, 4, 4, 4, 4, 4, 4, 4, 5, 5]) := by decide +kernel
example : ((exTwoPolls []).bind (fun s => syscallHistogram "ipv6" s.log)).map (fun h => ((h.write.1.map (·.2)).take 7, h.write.2.1)) = some ([0, 0, 0, 0, 0, 2, 2], 2) := by
  decide +kernel
example : ((exTwoPolls []).bind (fun s => syscallHistogram "ipv4" s.log)).map (fun h => ((h.write.1.map (·.2)).take 3, h.write.2.1)) = some ([2, 2, 2], 2) := by
  decide +kernel
example : ((exTwoPolls []).bind (fun s => pollingHistogram s.tk)).map (fun h => ((h.write.1.map (·.2)).drop 12, h.write.2.1))
    = some ([0, 0, 0, 2, 2, 2, 2, 2, 2, 2, 2, 2, 2, 2, 2, 2, 2, 2], 2) := by decide +kernel
-- the bounds scraped are not all the nearest ones: that of 9 ms is larger, as the bounds are added up
example : pollingBuckets[9]? ≠ some (rn 1000000000 (9000000 * 2 ^ 100)) ∧ pollingBuckets[8]? = some (rn 1000000000 (8000000 * 2 ^ 100)) := by decide +kernel

end TcpInfo
