import Verif.Model.Histogram
import Verif.Props.Metrics
/-!
# C99: the histograms that Prometheus scrapes
-/

namespace TcpInfo
open Spec Histogram

/-- Whole numbers that are multiples of a power of two are exact if the factor has at most 53 bits. -/
theorem f64_exact (m k : Nat) (h : m < 2 ^ 53) : f64 (m * 2 ^ k) = m * 2 ^ k := by
  have hd : 2 ^ (Nat.log2 (m * 2 ^ k) - 52) ∣ m * 2 ^ k := by
    refine Nat.dvd_trans (Nat.pow_dvd_pow 2 ?_) (Nat.dvd_mul_left _ _)
    by_cases h0 : m * 2 ^ k = 0
    · rw [h0]; simp
    · have : Nat.log2 (m * 2 ^ k) < 53 + k := by
        rw [Nat.log2_lt h0, Nat.pow_add]
        exact Nat.mul_lt_mul_of_pos_right h (Nat.two_pow_pos k)
      omega
  unfold f64
  simp only
  generalize Nat.log2 (m * 2 ^ k) - 52 = e at hd
  obtain ⟨c, hc⟩ := hd
  have hp : 0 < 2 ^ e := Nat.two_pow_pos e
  rw [hc, Nat.mul_mod_right, Nat.mul_div_cancel_left c hp, if_pos (Or.inl (by omega)), Nat.mul_comm]

theorem f64_exact_le (m k : Nat) (h : m ≤ 2 ^ 53) : f64 (m * 2 ^ k) = m * 2 ^ k := by
  rcases Nat.lt_or_eq_of_le h with h | rfl
  · exact f64_exact m k h
  · have := f64_exact 1 (53 + k) (by decide)
    rwa [Nat.one_mul, Nat.pow_add] at this

theorem bump_length (v : Nat) : ∀ bs cs : List Nat, (bump v bs cs).length = cs.length
  | [], cs => by simp [bump]
  | _ :: _, [] => by simp [bump]
  | b :: bs, c :: cs => by
    unfold bump
    split
    · simp
    · simp [bump_length v bs cs]

/-- One more observation: the cumulated counts of the bounds that are not below it go up by one. -/
theorem cumulate_bump (v : Nat) : ∀ (bs cs : List Nat) (acc : Nat), bs.Pairwise (· < ·) → bs.length = cs.length →
    cumulate acc bs (bump v bs cs) = (cumulate acc bs cs).map (fun p => (p.1, p.2 + if 2 * v ≤ p.1 then 1 else 0))
  | [], _, _, _, _ => by simp [bump, cumulate]
  | b :: bs, [], _, _, hl => by simp at hl
  | b :: bs, c :: cs, acc, hs, hl => by
    simp only [List.pairwise_cons] at hs
    simp only [List.length_cons, Nat.add_right_cancel_iff] at hl
    unfold bump
    by_cases hv : 2 * v ≤ b
    · have shift : ∀ (bs cs : List Nat) (acc : Nat), (∀ b ∈ bs, 2 * v ≤ b) →
          cumulate (acc + 1) bs cs = (cumulate acc bs cs).map (fun p => (p.1, p.2 + if 2 * v ≤ p.1 then 1 else 0)) := by
        intro bs
        induction bs with
        | nil => intros; simp [cumulate]
        | cons b bs ih =>
          intro cs acc hb
          cases cs with
          | nil => simp [cumulate]
          | cons c cs =>
            simp only [cumulate, List.map_cons]
            rw [show acc + 1 + c = acc + c + 1 from by omega, ih cs (acc + c) (fun b hb' => hb b (List.mem_cons_of_mem _ hb')), if_pos (hb b (by simp))]
      rw [if_pos hv]
      simp only [cumulate, List.map_cons, if_pos hv]
      rw [show acc + (c + 1) = acc + c + 1 from by omega, shift bs cs (acc + c) (fun b' hb' => by have := hs.1 b' hb'; omega)]
    · rw [if_neg hv]
      simp only [cumulate, List.map_cons, if_neg hv, Nat.add_zero]
      rw [cumulate_bump v bs cs (acc + c) hs.2 hl]

theorem cumulate_zero : ∀ bs : List Nat, cumulate 0 bs (bs.map (fun _ => 0)) = bs.map (fun b => (b, 0))
  | [] => rfl
  | b :: bs => by simp only [List.map_cons, cumulate, Nat.add_zero]; rw [cumulate_zero bs]

theorem observeAll_inv (vs : List Nat) : ∀ (h : Hist), h.bounds.Pairwise (· < ·) → h.bounds.length = h.counts.length →
    (h.observeAll vs).bounds = h.bounds ∧ (h.observeAll vs).count = h.count + vs.length
    ∧ (h.observeAll vs).write.1 = h.write.1.map (fun p => (p.1, p.2 + vs.countP (fun v => 2 * v ≤ p.1))) := by
  induction vs with
  | nil => intro h _ _; exact ⟨rfl, rfl, by simp [Hist.observeAll]⟩
  | cons v vs ih =>
    intro h hs hl
    obtain ⟨a1, a2, a3⟩ := ih (h.observe v) hs (by simp [Hist.observe, bump_length, hl])
    refine ⟨a1, ?_, ?_⟩
    · show (h.observe v |>.observeAll vs).count = _
      rw [a2]; simp only [Hist.observe, List.length_cons]; omega
    · show (h.observe v |>.observeAll vs).write.1 = _
      rw [a3]
      simp only [Hist.write, Hist.observe]
      rw [cumulate_bump v _ _ _ hs hl, List.map_map]
      refine List.map_congr_left (fun p _ => ?_)
      simp only [Function.comp, List.countP_cons, decide_eq_true_eq]
      congr 1
      omega

theorem bounds_spec : ∀ (l : List Bound) (bs : List Nat), Histogram.bounds l = some bs → bs.Pairwise (· < ·) ∧ (l = bs.map some ∨ l = bs.map some ++ [none])
  | [], bs, h => by simp [Histogram.bounds] at h; subst h; simp
  | [none], bs, h => by simp [Histogram.bounds] at h; subst h; simp
  | [some a], bs, h => by simp [Histogram.bounds] at h; subst h; simp
  | [some a, none], bs, h => by simp [Histogram.bounds] at h; subst h; simp
  | some a :: some b :: l, bs, h => by
    unfold Histogram.bounds at h
    split at h
    · simp at h
    · rename_i hab
      cases hb : Histogram.bounds (some b :: l) with
      | none => rw [hb] at h; simp at h
      | some bs' =>
        rw [hb] at h
        simp only [Option.map_some, Option.some.injEq] at h
        subst h
        obtain ⟨i1, i2⟩ := bounds_spec (some b :: l) bs' hb
        refine ⟨?_, ?_⟩
        · rw [List.pairwise_cons]
          refine ⟨fun x hx => ?_, i1⟩
          cases bs' with
          | nil => simp at hx
          | cons y ys =>
            have : y = b := by rcases i2 with i2 | i2 <;> simp at i2 <;> exact i2.1.symm
            subst this
            rw [List.pairwise_cons] at i1
            rcases List.mem_cons.1 hx with rfl | hx
            · omega
            · have := i1.1 x hx; omega
        · rcases i2 with i2 | i2 <;> simp [i2]
  | some a :: none :: c :: l, bs, h => by simp [Histogram.bounds] at h
  | none :: c :: l, bs, h => by simp [Histogram.bounds] at h

/-- C99. Whatever the buckets: if the program starts, then after any observations each bucket scraped has the number of observations up to its bound, the
count is the number of observations, and the buckets are those given. -/
theorem C99_buckets (l : List Bound) (h : Hist) (hn : Histogram.new l = some h) (vs : List Nat) :
    ∃ bs : List Nat, (l = bs.map some ∨ l = bs.map some ++ [none])
      ∧ (h.observeAll vs).write.1 = bs.map (fun b => (b, vs.countP (fun v => 2 * v ≤ b))) ∧ (h.observeAll vs).write.2.1 = vs.length := by
  unfold Histogram.new at hn
  cases hb : Histogram.bounds l with
  | none => rw [hb] at hn; simp at hn
  | some bs =>
    rw [hb] at hn
    simp only [Option.map_some, Option.some.injEq] at hn
    subst hn
    obtain ⟨a1, a2⟩ := bounds_spec l bs hb
    obtain ⟨-, b2, b3⟩ := observeAll_inv vs ⟨bs, bs.map (fun _ => 0), 0, 0⟩ a1 (by simp)
    refine ⟨bs, a2, ?_, ?_⟩
    · rw [b3]
      simp only [Hist.write]
      rw [cumulate_zero, List.map_map]
      exact List.map_congr_left (fun b _ => by simp)
    · simp only [Hist.write]
      rw [b2]; simp

/-- C99. The program starts with its buckets, and no bucket is lost: the largest finite bounds are 10 million connections and 10 Gbit/s. -/
theorem C99_registered : (∃ h, Histogram.new countBuckets = some h ∧ h.bounds.length = 48 ∧ h.bounds.getLast? = some 20000000)
    ∧ ∃ h, Histogram.new rateBuckets = some h ∧ h.bounds.length = 45 ∧ h.bounds.getLast? = some 20000000000 :=
  ⟨⟨_, rfl, rfl, rfl⟩, ⟨_, rfl, rfl, rfl⟩⟩

theorem observeAll_sum (k : Nat) (vs : List Nat) : ∀ (h : Hist), 2 ^ k ∣ h.sum → (∀ v ∈ vs, 2 ^ k ∣ v) → h.sum + vs.sum ≤ 2 ^ (53 + k) →
    (h.observeAll vs).sum = h.sum + vs.sum := by
  induction vs with
  | nil => intro h _ _ _; simp [Hist.observeAll]
  | cons v vs ih =>
    intro h h1 h2 h3
    simp only [List.sum_cons] at h3
    have e : f64 (h.sum + v) = h.sum + v := by
      obtain ⟨c, hc⟩ := Nat.dvd_add h1 (h2 v (by simp))
      rw [hc, Nat.mul_comm]
      refine f64_exact_le c k ?_
      refine Nat.le_of_mul_le_mul_left ?_ (Nat.two_pow_pos k)
      rw [← hc, ← Nat.pow_add, Nat.add_comm k 53]
      omega
    have := ih (h.observe v) (by simp only [Hist.observe, e]; exact Nat.dvd_add h1 (h2 v (by simp))) (fun x hx => h2 x (by simp [hx]))
      (by simp only [Hist.observe, e]; omega)
    show (h.observe v |>.observeAll vs).sum = _
    rw [this]
    simp only [Hist.observe, e, List.sum_cons]
    omega

theorem bits_exact (n : Nat) (h : n < 2 ^ 53) : bits n = 8 * n := by
  have := f64_exact n 0 h
  simp at this
  simp [bits, this]

theorem foldr_sum (l : List Nat) : l.foldr (· + ·) 0 = l.sum := by rw [List.sum]

theorem map_bits_sum (l : List Nat) (h : ∀ n ∈ l, n < 2 ^ 53) : (l.map bits).sum = 8 * l.sum := by
  induction l with
  | nil => rfl
  | cons a l ih =>
    simp only [List.map_cons, List.sum_cons]
    rw [ih (fun n hn => h n (by simp [hn])), bits_exact a (h a (by simp))]
    omega

theorem endAll_obs (env : Env) (d : Dir) : ∀ (ks : List UInt64) (s s' : Saver), Saver.endAll env ks s = some s' → observations d s'.trace = observations d s.trace
  | [], s, s', h => by simp only [Saver.endAll, Option.some.injEq] at h; rw [h]
  | k :: ks, s, s', h => by
    obtain ⟨s1, h1, h2⟩ := Option.bind_eq_some_iff.1 h
    rw [endAll_obs env d ks s1 s' h2, (endConn_obs env d s k s1 h1)]

theorem close_obs (env : Env) (d : Dir) (bs : List MessageBlock) (s : Saver) (h : runSaver env bs = some s) :
    ∃ l, runBlocks env bs = some l ∧ observations d s.trace = observations d l.svr.trace := by
  unfold runSaver at h
  obtain ⟨l, h1, h2⟩ := Option.bind_eq_some_iff.1 h
  unfold Saver.close at h2
  obtain ⟨s1, h3, rfl⟩ := Option.map_eq_some_iff.1 h2
  refine ⟨l, h1, ?_⟩
  rw [← endAll_obs env d _ _ _ h3]
  cases d <;> simp [Saver.emit, observations]

/-- C99 (partial: the sum is exact up to 2^56 bits only, see `C99_violated_stuck`). In every run, the histogram of rates scraped for a direction: each bucket has the number of the observations (C45 to C47, C83) that are, in bits, up to its
bound; the count is their number; and the sum, up to 2^56 bits (9 petabytes), is exactly eight times the bytes observed. -/
theorem C99_rates_partial (ev : Bool) (env : Env) (hv : ViewOK env) (bs : List MessageBlock) (s : Saver) (h : runSaver env bs = some s) (d : Dir) :
    ∃ hist, Histogram.new rateBuckets = some hist
      ∧ (∀ p ∈ (hist.observeAll ((rates d (saverMetrics ev env bs)).map bits)).write.1, p.2 = (observations d s.trace).countP (fun n => 2 * (8 * n) ≤ p.1))
      ∧ (hist.observeAll ((rates d (saverMetrics ev env bs)).map bits)).write.2.1 = (observations d s.trace).length
      ∧ (8 * (observations d s.trace).sum ≤ 2 ^ 56 →
          (hist.observeAll ((rates d (saverMetrics ev env bs)).map bits)).write.2.2 = 8 * (observations d s.trace).sum) := by
  obtain ⟨l, h1, h2⟩ := close_obs env d bs s h
  have hb : ∀ n ∈ observations d s.trace, n < 2 ^ 53 := by
    intro n hn
    rw [h2] at hn
    have := C46_bounded env hv d bs l h1 n hn
    omega
  rw [C83_rates ev env bs s h d]
  refine ⟨_, rfl, ?_, ?_, ?_⟩
  · intro p hp
    obtain ⟨bs', -, e, -⟩ := C99_buckets rateBuckets _ rfl ((observations d s.trace).map bits)
    rw [e] at hp
    obtain ⟨b, -, rfl⟩ := List.mem_map.1 hp
    simp only [List.countP_map]
    refine List.countP_congr (fun n hn => ?_)
    simp only [Function.comp, decide_eq_true_eq]
    rw [bits_exact n (hb n hn)]
  · obtain ⟨bs', -, -, e⟩ := C99_buckets rateBuckets _ rfl ((observations d s.trace).map bits)
    rw [e]; simp
  · intro hlt
    simp only [Hist.write]
    rw [observeAll_sum 3 _ _ ⟨0, rfl⟩ ?_ ?_]
    · rw [map_bits_sum _ hb]; simp
    · intro v hv'
      obtain ⟨n, -, rfl⟩ := List.mem_map.1 hv'
      exact ⟨f64 n, rfl⟩
    · rw [map_bits_sum _ hb]; simpa using hlt

/-- C99. In every run, the histogram of cache sizes scraped: each bucket has the number of the polls in which at most that many connections were reported (bounds
are in halves), the count is the number of polls, and the sum is the number of connections reported, added up over the polls, up to 2^53. -/
theorem C99_cache (ev : Bool) (env : Env) (bs : List MessageBlock) (s : Saver) (h : runSaver env bs = some s) :
    ∃ (hist : Hist) (ns : List Nat), Histogram.new countBuckets = some hist
      ∧ ns.length = bs.length ∧ (∀ (i : Nat) b n, bs[i]? = some b → ns[i]? = some n → ConnectionsIn env.exclude b n)
      ∧ (∀ p ∈ (hist.observeAll (cacheSizes (saverMetrics ev env bs))).write.1, p.2 = ns.countP (fun n => 2 * n ≤ p.1))
      ∧ (hist.observeAll (cacheSizes (saverMetrics ev env bs))).write.2.1 = bs.length
      ∧ (ns.sum ≤ 2 ^ 53 → (hist.observeAll (cacheSizes (saverMetrics ev env bs))).write.2.2 = ns.sum) := by
  obtain ⟨c1, c2⟩ := C83_cache ev env bs s h
  refine ⟨_, cacheSizes (saverMetrics ev env bs), rfl, c1, c2, ?_, ?_, ?_⟩
  · intro p hp
    obtain ⟨bs', -, e, -⟩ := C99_buckets countBuckets _ rfl (cacheSizes (saverMetrics ev env bs))
    rw [e] at hp
    obtain ⟨b, -, rfl⟩ := List.mem_map.1 hp
    rfl
  · obtain ⟨bs', -, -, e⟩ := C99_buckets countBuckets _ rfl (cacheSizes (saverMetrics ev env bs))
    rw [e, c1]
  · intro hlt
    simp only [Hist.write]
    rw [observeAll_sum 0 _ _ ⟨0, rfl⟩ (fun v _ => ⟨v, by simp⟩) (by simpa using hlt)]
    simp

/-- A dump: address family, outcome of the set-up, sequence number and pid, what `Receive` returned. -/
structure Dump where
  family : UInt8
  setup : Option GoErr
  seq : UInt32
  pid : UInt32
  script : List (Except GoErr (List NetlinkMessage))

/-- What the dump returned. -/
def Dump.result (d : Dump) : Option (List NetlinkMessage × Option GoErr) := oneType d.setup d.seq d.pid d.script

/-- The numbers that the dumps export under a label. -/
def connCounts (af : String) (ds : List Dump) : List Nat :=
  (ds.flatMap (fun d => dumpMetrics d.family d.setup d.seq d.pid d.script)).filterMap (fun m => match m with | .connCount af' n => if af' = af then some n else none | _ => none)

theorem connCounts_cons (af : String) (d : Dump) (ds : List Dump) (af' : String) (n : Nat)
    (h : (dumpMetrics d.family d.setup d.seq d.pid d.script).filter isConnCount = [.connCount af' n]) :
    connCounts af (d :: ds) = (if af' = af then [n] else []) ++ connCounts af ds := by
  have e : ∀ ms : List Metric, ms.filterMap (fun m => match m with | .connCount af' n => if af' = af then some n else none | _ => none)
      = (ms.filter isConnCount).filterMap (fun m => match m with | .connCount af' n => if af' = af then some n else none | _ => none) := by
    intro ms
    induction ms with
    | nil => rfl
    | cons m ms ih =>
      cases m <;> simp only [List.filter_cons, isConnCount, if_true, Bool.false_eq_true, if_false, List.filterMap_cons] <;> rw [← ih]
  unfold connCounts
  rw [List.flatMap_cons, List.filterMap_append, e (dumpMetrics _ _ _ _ _), h]
  by_cases ha : af' = af <;> simp [ha]

/-- C99. Whatever dumps are made, of IPv4 (2) and IPv6 (10), one after the other: the histogram of connections scraped under an address family has one number for each
dump of that family, in the buckets that are not below it. It is the number of messages returned if the dump succeeded, and never less than that (see C84). -/
theorem C99_connections (ds : List Dump) (hf : ∀ d ∈ ds, d.family = 2 ∨ d.family = 10) (hr : ∀ d ∈ ds, d.result ≠ none) (fam : UInt8) (af : String)
    (ha : fam = 2 ∧ af = "ipv4" ∨ fam = 10 ∧ af = "ipv6") :
    ∃ (hist : Hist) (ns : List Nat), Histogram.new countBuckets = some hist
      ∧ ns.length = (ds.filter (fun d => d.family == fam)).length
      ∧ (∀ (i : Nat) d n res err, (ds.filter (fun d => d.family == fam))[i]? = some d → ns[i]? = some n → d.result = some (res, err) →
          res.length ≤ n ∧ (err = none → n = res.length))
      ∧ (∀ p ∈ (hist.observeAll (connCounts af ds)).write.1, p.2 = ns.countP (fun n => 2 * n ≤ p.1))
      ∧ (hist.observeAll (connCounts af ds)).write.2.1 = ns.length
      ∧ (ns.sum ≤ 2 ^ 53 → (hist.observeAll (connCounts af ds)).write.2.2 = ns.sum) := by
  have key : ∀ ds : List Dump, (∀ d ∈ ds, d.family = 2 ∨ d.family = 10) → (∀ d ∈ ds, d.result ≠ none) →
      (connCounts af ds).length = (ds.filter (fun d => d.family == fam)).length
      ∧ (∀ (i : Nat) d n res err, (ds.filter (fun d => d.family == fam))[i]? = some d → (connCounts af ds)[i]? = some n → d.result = some (res, err) →
          res.length ≤ n ∧ (err = none → n = res.length)) := by
    intro ds
    induction ds with
    | nil => intro _ _; exact ⟨rfl, by intro i d n res err h; simp at h⟩
    | cons d ds ih =>
      intro hf hr
      obtain ⟨i1, i2⟩ := ih (fun x hx => hf x (by simp [hx])) (fun x hx => hr x (by simp [hx]))
      cases hd : d.result with
      | none => exact absurd hd (hr d (by simp))
      | some r =>
        obtain ⟨res, err⟩ := r
        obtain ⟨af', n, c1, c2, c3, c4, c5⟩ := C84_count d.family d.setup d.seq d.pid d.script res err hd
        rw [connCounts_cons af d ds af' n c1]
        by_cases hfam : d.family = fam
        · have haf : af' = af := by
            rcases ha with ⟨h1, h2⟩ | ⟨h1, h2⟩
            · rw [c2 (by rw [hfam, h1]), h2]
            · rw [c3 (by rw [hfam, h1]), h2]
          rw [if_pos haf, List.filter_cons_of_pos (by simp [hfam])]
          refine ⟨by simp [i1], ?_⟩
          intro i d' n' res' err' h1 h2 h3
          cases i with
          | zero =>
            simp only [List.getElem?_cons_zero, Option.some.injEq, List.singleton_append] at h1 h2
            subst h1 h2
            rw [hd] at h3
            simp only [Option.some.injEq, Prod.mk.injEq] at h3
            obtain ⟨rfl, rfl⟩ := h3
            exact ⟨c4, c5⟩
          | succ i =>
            simp only [List.getElem?_cons_succ, List.singleton_append] at h1 h2
            exact i2 i d' n' res' err' h1 h2 h3
        · have haf : af' ≠ af := by
            rcases hf d (by simp) with h | h <;> rcases ha with ⟨h1, h2⟩ | ⟨h1, h2⟩
            · exact absurd (h.trans h1.symm) hfam
            · rw [c2 h, h2]; decide
            · rw [c3 h, h2]; decide
            · exact absurd (h.trans h1.symm) hfam
          rw [if_neg haf, List.filter_cons_of_neg (by simp [hfam])]
          exact ⟨i1, i2⟩
  obtain ⟨k1, k2⟩ := key ds hf hr
  obtain ⟨bs', -, e, e'⟩ := C99_buckets countBuckets _ rfl (connCounts af ds)
  refine ⟨_, connCounts af ds, rfl, k1, k2, ?_, ?_, ?_⟩
  · intro p hp
    rw [e] at hp
    obtain ⟨b, -, rfl⟩ := List.mem_map.1 hp
    rfl
  · rw [e']
  · intro hlt
    simp only [Hist.write]
    rw [observeAll_sum 0 _ _ ⟨0, rfl⟩ (fun v _ => ⟨v, by simp⟩) (by simpa using hlt)]
    simp

-- a dump of IPv6, one of IPv4 that fails, one more of IPv6
example : connCounts "ipv6" [⟨10, none, 7, 9, [.ok [exMore, exMore], .ok [exMore, exDone]]⟩, ⟨2, some .read, 7, 9, []⟩, ⟨10, none, 7, 9, [.ok [exMore, exDone]]⟩] = [3, 1] := by decide
example : connCounts "ipv4" [⟨10, none, 7, 9, [.ok [exMore, exMore], .ok [exMore, exDone]]⟩, ⟨2, some .read, 7, 9, []⟩, ⟨10, none, 7, 9, [.ok [exMore, exDone]]⟩] = [0] := by decide

/-- C99 violated: once the sum has reached 2^56 bits, rates of 8 bits (or 1 byte) per second no longer change it, however many are observed. -/
theorem C99_violated_stuck (hist : Hist) (hs : hist.sum = 2 ^ 56) (n : Nat) : (hist.observeAll (List.replicate n (bits 1))).sum = 2 ^ 56 := by
  have e : f64 (2 ^ 56 + bits 1) = 2 ^ 56 := by decide +kernel
  induction n generalizing hist with
  | zero => exact hs
  | succ n ih =>
    rw [List.replicate_succ]
    show (hist.observe (bits 1) |>.observeAll _).sum = _
    refine ih _ ?_
    simp only [Hist.observe, hs, e]

-- such a sum is reached: 720575 observations of the largest rate and a smaller one
example : ∃ hist, Histogram.new rateBuckets = some hist
    ∧ (hist.observeAll ((List.replicate 720575 12500000000 ++ [11754740992]).map bits)).sum = 2 ^ 56
    ∧ ∀ n ∈ List.replicate 720575 12500000000 ++ [11754740992], n ≤ 12500000000 := by
  have hb : ∀ n ∈ List.replicate 720575 12500000000 ++ [11754740992], n ≤ 12500000000 := by
    intro n hn
    rcases List.mem_append.1 hn with hn | hn
    · exact Nat.le_of_eq (List.mem_replicate.1 hn).2
    · simp at hn; omega
  have hs : (List.map bits (List.replicate 720575 12500000000 ++ [11754740992])).sum = 2 ^ 56 := by
    rw [map_bits_sum _ (fun n hn => by have := hb n hn; omega), List.sum_append, List.sum_replicate_nat]
    rfl
  have hd : ∀ v ∈ List.map bits (List.replicate 720575 12500000000 ++ [11754740992]), 2 ^ 3 ∣ v := by
    intro v hv
    obtain ⟨n, -, rfl⟩ := List.mem_map.1 hv
    exact ⟨f64 n, rfl⟩
  revert hs hd
  generalize List.map bits (List.replicate 720575 12500000000 ++ [11754740992]) = l
  intro hs hd
  refine ⟨_, rfl, ?_, hb⟩
  rw [observeAll_sum 3 l _ ⟨0, rfl⟩ hd (by rw [hs]; decide), hs]
example : ((Histogram.new rateBuckets).map (fun h => (h.observeAll ([12, 4, 12500000000].map bits)).write.2)) = some (3, 100000000128) := by decide +kernel
example : ((Histogram.new rateBuckets).map (fun h => (h.observeAll ([12, 4, 12500000000].map bits)).write.1.take 4)) = some [(0, 0), (2, 0), (20, 0), (200, 2)] := by
  decide +kernel
example : ((Histogram.new countBuckets).map (fun h => (h.observeAll [12, 13, 3]).write.1.take 10)) =
    some [(2, 0), (4, 0), (6, 1), (8, 1), (10, 1), (12, 1), (16, 1), (20, 1), (25, 2), (32, 3)] := by decide +kernel
example : Histogram.new [some 4, some 2] = none ∧ Histogram.new [none, some 2] = none := by decide
example : (runSaver exEnv statBlocks).isSome = true ∧ rates .sent (saverMetrics true exEnv statBlocks) = [12, 4] := by decide +kernel

end TcpInfo
