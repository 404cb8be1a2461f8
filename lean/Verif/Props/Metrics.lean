import Verif.Lemmas.Metrics
import Verif.Props.Collector
import Verif.Props.Snapshot
import Verif.Props.Main
import Verif.Props.SaverStats
import Verif.Props.SaverRuns
/-!
# C81 to C85: what is exported to Prometheus
-/

namespace TcpInfo
open Spec

/-! ## Runs -/

theorem countP_traced (ev : Bool) (f : Metric → Bool) (g : Stamped → Bool) (hf : ∀ m, f m = true → m.traced = true)
    (hg : ∀ a, g a = (match actMetric ev a with | some m => f m | none => false)) (tr : List Stamped) (ms : List Metric)
    (h : traceMetrics ev tr = ms.filter Metric.traced) : ms.countP f = tr.countP g := by
  have h1 : ms.countP f = (ms.filter Metric.traced).countP f := by
    rw [List.countP_filter]
    refine List.countP_congr (fun m _ => ?_)
    constructor
    · intro e; simp [e, hf m e]
    · intro e; simp at e; exact e.1
  rw [h1, ← h]
  clear h h1
  induction tr with
  | nil => rfl
  | cons a tr ih =>
    unfold traceMetrics at ih ⊢
    rw [List.filterMap_cons, List.countP_cons, hg a]
    cases e : actMetric ev a with
    | none => simp [ih]
    | some m => simp only [List.countP_cons, ih]

theorem blocks_metrics (ev : Bool) (env : Env) (bs : List MessageBlock) (l l' : LoopState) (h : l.blocks env bs = some l') :
    traceMetrics ev l'.svr.trace = traceMetrics ev l.svr.trace ++ (blocksMetrics ev env bs l).filter Metric.traced
    ∧ l'.svr.stats.new + l'.svr.stats.diff = l.svr.stats.new + l.svr.stats.diff + (blocksMetrics ev env bs l).count .snapshot := by
  induction bs generalizing l with
  | nil => simp only [LoopState.blocks] at h; injection h with h; subst h; simp [blocksMetrics]
  | cons b bs ih =>
    simp only [LoopState.blocks] at h
    obtain ⟨l1, h1, h2⟩ := Option.bind_eq_some_iff.1 h
    obtain ⟨a1, s, lm, s4, s6, r4, r6, -, -, -, -, -, -, a3, pre, a4, -, a6⟩ := block_metrics ev env l b l1 h1
    obtain ⟨b1, b2⟩ := ih l1 h2
    rw [blocksMetrics, h1]
    refine ⟨by rw [b1, a1]; simp, ?_⟩
    simp only [List.count_append]
    have hr : (reportMetrics lm b.v4Time s4 s6 r4 r6).count .snapshot = 0 := by
      rw [List.count_eq_zero]
      have hd : ∀ (x y : UInt64) (p q : String) (f : UInt64 → Metric), (∀ n, f n ≠ .snapshot) → Metric.snapshot ∉ directionMetrics x y p q f := by
        intro x y p q f hf
        unfold directionMetrics
        split
        · split <;> simp
        · simp [Ne.symm (hf _)]
      unfold reportMetrics
      split
      · rw [List.mem_append, not_or]
        exact ⟨hd _ _ _ _ _ (by simp), hd _ _ _ _ _ (by simp)⟩
      · simp
    rw [b2, a4, List.count_append, a6, List.count_cons, hr]
    simp
    omega

theorem endConns_metrics (ev : Bool) (ks : List UInt64) : ks.flatMap (fun _ => endConnMetrics ev) = [] := by
  induction ks with
  | nil => rfl
  | cons k ks ih => rw [List.flatMap_cons, ih]; rfl

/-- The metrics of a completed run. -/
theorem saver_metrics (ev : Bool) (env : Env) (bs : List MessageBlock) (s : Saver) (h : runSaver env bs = some s) :
    ∃ l, runBlocks env bs = some l ∧ saverMetrics ev env bs = blocksMetrics ev env bs newLoop
    ∧ traceMetrics ev s.trace = (saverMetrics ev env bs).filter Metric.traced ∧ s.stats = l.svr.stats ∧ written s.trace = written l.svr.trace := by
  unfold runSaver at h
  obtain ⟨l, h1, h2⟩ := Option.bind_eq_some_iff.1 h
  unfold Saver.close at h2
  obtain ⟨s1, h3, rfl⟩ := Option.map_eq_some_iff.1 h2
  have e : saverMetrics ev env bs = blocksMetrics ev env bs newLoop := by
    unfold saverMetrics; rw [h1]; simp [endConns_metrics]
  refine ⟨l, h1, e, ?_, ?_, ?_⟩
  · have := endAll_metrics ev env _ _ _ h3
    rw [endConns_metrics] at this
    simp only [Saver.emit, traceMetrics_snoc, actMetric, this]
    have b := (blocks_metrics ev env bs newLoop l h1).1
    rw [e, b]
    simp [traceMetrics, newLoop, newSaver]
  · show s1.stats = _
    clear h2 h
    have : ∀ ks s s', Saver.endAll env ks s = some s' → s'.stats = s.stats := by
      intro ks
      induction ks with
      | nil => intro s s' h; simp only [Saver.endAll] at h; injection h with h; subst h; rfl
      | cons k ks ih =>
        intro s s' h
        simp only [Saver.endAll] at h
        obtain ⟨s2, h4, h5⟩ := Option.bind_eq_some_iff.1 h
        rw [ih _ _ h5, (endConn_metrics ev env s k s2 h4).2]
    have := this _ _ _ h3
    exact this
  · have h4 := endAll_written env _ _ _ h3
    simp only at h4
    rw [← h4]
    simp [Saver.emit, written_snoc, writtenOf]

/-! ## C81 -/

/-- Saved and counted. -/
theorem swap_counted (env : Env) (s : Saver) (r : ArchivalRecord) (hr : complete r = true) (s' : Saver) (h : s.swapAndQueue env r = some s') :
    ∃ n, s'.stats.new + s'.stats.diff = s.stats.new + s.stats.diff + n ∧ (written s'.trace).length ≤ (written s.trace).length + n
      ∧ (NoFaults env → ck r ≠ 0 → (written s'.trace).length = (written s.trace).length + n) := by
  obtain ⟨idm, hidm, hck⟩ := cookieOf_parse hr
  have hcl : ∀ (s0 : Saver) k old, (s0.recordClosing k r old).stats = s0.stats := by
    intro s0 k old; unfold Saver.recordClosing; split <;> rfl
  have hq : ∀ s0 : Saver, s0.trace = s.trace → s0.stats.new + s0.stats.diff = s.stats.new + s.stats.diff + 1 → ((s0.queue env r).map (·.1) = some s') →
      ∃ n, s'.stats.new + s'.stats.diff = s.stats.new + s.stats.diff + n ∧ (written s'.trace).length ≤ (written s.trace).length + n
        ∧ (NoFaults env → ck r ≠ 0 → (written s'.trace).length = (written s.trace).length + n) := by
    intro s0 ht hs he
    obtain ⟨s1, e, e1, -, e3, -, -, e6⟩ := queue_effect env s0 r idm hidm
    have hst := (queue_cache env _ r _ e e1).2.1
    rw [e1] at he
    have : s1 = s' := by simpa using he
    subst this
    refine ⟨1, by rw [hst, hs], ?_, ?_⟩
    · rw [e3, ht]; split <;> simp
    · intro hf hk
      rw [e3, ht, if_pos (e6 hf.create (by rw [hck]; exact hk) hf.marshallers)]
      simp
  have h0 : ∀ s0 : Saver, s0.trace = s.trace → s0.stats.new = s.stats.new → s0.stats.diff = s.stats.diff → s0 = s' →
      ∃ n, s'.stats.new + s'.stats.diff = s.stats.new + s.stats.diff + n ∧ (written s'.trace).length ≤ (written s.trace).length + n
        ∧ (NoFaults env → ck r ≠ 0 → (written s'.trace).length = (written s.trace).length + n) := by
    rintro s0 a b c rfl
    exact ⟨0, by rw [b, c]; rfl, by rw [a]; simp, fun _ _ => by rw [a]; rfl⟩
  unfold Saver.swapAndQueue at h
  simp only at h
  split at h
  · simp at h
  · injection h with h; exact h0 _ (by rfl) (by rfl) (by rfl) h
  · exact hq _ (by rfl) (by simp only; omega) h
  · split at h
    · simp at h
    · injection h with h; exact h0 _ (by rfl) (by rfl) (by rfl) h
    · split at h
      · simp at h
      · injection h with h; exact h0 _ (by simp only [recordClosing_trace]) (by simp only [hcl]) (by simp only [hcl]) h
      · split at h
        · exact hq _ (by simp only [recordClosing_trace]) (by simp only [hcl]; omega) h
        · injection h with h; exact h0 _ (by simp only [recordClosing_trace]) (by simp only [hcl]) (by simp only [hcl]) h

theorem run_counted (env : Env) (bs : List MessageBlock) (l : LoopState) (h : runBlocks env bs = some l) :
    (written l.svr.trace).length ≤ l.svr.stats.new + l.svr.stats.diff
    ∧ (NoFaults env → (∀ b ∈ bs, ∀ r ∈ reports env.exclude b, ck r ≠ 0) → (written l.svr.trace).length = l.svr.stats.new + l.svr.stats.diff) := by
  have hfin : ∀ (l l1 : LoopState) t s4 s6 r4 r6, l.finish env = some l1 → written (LoopState.report l1 t s4 s6 r4 r6).svr.trace = written l.svr.trace
      ∧ (LoopState.report l1 t s4 s6 r4 r6).svr.stats.new = l.svr.stats.new ∧ (LoopState.report l1 t s4 s6 r4 r6).svr.stats.diff = l.svr.stats.diff := by
    intro l l1 t s4 s6 r4 r6 hf
    have e := report_effect l1 t s4 s6 r4 r6
    obtain ⟨-, c2, c3, -, -⟩ := expireAll_metrics true env _ _ (finish_keys env l) _ _ hf
    rw [e.2.2.2.2.2.1, e.2.1, expireAll_written env _ _ _ _ hf, c2, c3]
    exact ⟨rfl, rfl, rfl⟩
  constructor
  · refine run_induct env (fun _ l => (written l.svr.trace).length ≤ l.svr.stats.new + l.svr.stats.diff) (fun _ => True) (by decide) ?_ ?_ bs (fun _ _ _ _ => trivial) l h
    · intro h l r s' hr _ hp hs
      obtain ⟨n, e1, e2, -⟩ := swap_counted env l.svr r hr s' hs
      show (written s'.trace).length ≤ s'.stats.new + s'.stats.diff
      omega
    · intro h l l1 t s4 s6 r4 r6 hp hf _ _
      obtain ⟨a, b, c⟩ := hfin l l1 t s4 s6 r4 r6 hf
      rw [a, b, c]; exact hp
  · intro hnf hck
    refine run_induct env (fun _ l => (written l.svr.trace).length = l.svr.stats.new + l.svr.stats.diff) (fun r => ck r ≠ 0) (by decide) ?_ ?_ bs hck l h
    · intro h l r s' hr hk hp hs
      obtain ⟨n, e1, -, e3⟩ := swap_counted env l.svr r hr s' hs
      have := e3 hnf hk
      show (written s'.trace).length = s'.stats.new + s'.stats.diff
      omega
    · intro h l l1 t s4 s6 r4 r6 hp hf _ _
      obtain ⟨a, b, c⟩ := hfin l l1 t s4 s6 r4 r6 hf
      rw [a, b, c]; exact hp

/-- C81. In every run, tcpinfo_snapshot_total is the number of reports that the saver has counted as new or changed, and never less than the number of
records handed to the files. -/
theorem C81_counted (ev : Bool) (env : Env) (bs : List MessageBlock) (s : Saver) (h : runSaver env bs = some s) :
    (saverMetrics ev env bs).count .snapshot = s.stats.new + s.stats.diff ∧ (written s.trace).length ≤ (saverMetrics ev env bs).count .snapshot := by
  obtain ⟨l, h1, h2, -, h4, h5⟩ := saver_metrics ev env bs s h
  have b := (blocks_metrics ev env bs newLoop l h1).2
  have e : (saverMetrics ev env bs).count .snapshot = s.stats.new + s.stats.diff := by
    rw [h2, h4, b]; simp [newLoop, newSaver]
  refine ⟨e, ?_⟩
  rw [e, h4, h5]
  exact (run_counted env bs l h1).1

/-- New and changed reports together are the due ones. -/
theorem countsFor_saved {h : List Call} {t n c e : Nat} (hc : CountsFor h t n c e) : ∃ out, SavedFor h out ∧ out.length = n + c := by
  induction hc with
  | nil => exact ⟨[], .nil, rfl⟩
  | new _ hr ih =>
    obtain ⟨out, a, b⟩ := ih
    exact ⟨_, .due a (fun p hp => by rw [hr] at hp; simp at hp), by simp [b]; omega⟩
  | changed _ _ hd ih =>
    obtain ⟨out, a, b⟩ := ih
    exact ⟨_, .due a hd, by simp [b]; omega⟩
  | same _ hd ih =>
    obtain ⟨out, a, b⟩ := ih
    exact ⟨_, .same a hd, b⟩
  | endCycle _ _ _ _ ih =>
    obtain ⟨out, a, b⟩ := ih
    exact ⟨_, .endCycle a, b⟩

/-- C81, exactly what it counts. In every run, whichever files cannot be created and whatever the cookies are, tcpinfo_snapshot_total is the number of the
reports that are due (new or significantly changed, as C32 says); and the records handed to the files are, in order, some of these. -/
theorem C81_due (ev : Bool) (env : Env) (hm : 1 ≤ env.marshallers) (hv : ViewOK env) (bs : List MessageBlock) (hI : ∀ b ∈ bs, AllInfoOK env.exclude b)
    (s : Saver) (h : runSaver env bs = some s) :
    ∃ due, SavedFor (history env.exclude bs) due ∧ (saverMetrics ev env bs).count .snapshot = due.length ∧ (written s.trace).Sublist due := by
  obtain ⟨l, h1, -, -, h4, -⟩ := saver_metrics ev env bs s h
  obtain ⟨due, a, b⟩ := countsFor_saved (C48_counts env (Nat.ne_of_gt hm) hv bs hI l h1)
  obtain ⟨out, c, d⟩ := C32_only_due env hm hv bs hI s h
  rw [savedFor_unique c a] at d
  exact ⟨due, a, by rw [(C81_counted ev env bs s h).1, h4, b], d⟩

-- the hypotheses, where no file can be created: three due reports, none of them saved
example : ViewOK { exEnv with createOK := fun _ => false } ∧ (∀ b ∈ exBlocks, AllInfoOK none b)
    ∧ (runSaver { exEnv with createOK := fun _ => false } exBlocks).isSome = true := by
  refine ⟨fun _ _ => ⟨rfl, rfl, ⟨rfl, rfl, rfl⟩, rfl⟩, ?_, by decide +kernel⟩
  show ∀ b ∈ exBlocks, ∀ r ∈ reports none b, InfoOK r
  decide +kernel

/-- C81 (partial). When all files can be created and no cookie is zero, tcpinfo_snapshot_total is the number of records handed to the files. Missing: the
other runs, see `C81_violated`. -/
theorem C81_saved_partial (ev : Bool) (env : Env) (hf : NoFaults env) (bs : List MessageBlock) (hk : ∀ b ∈ bs, ∀ r ∈ reports env.exclude b, ck r ≠ 0)
    (s : Saver) (h : runSaver env bs = some s) : (saverMetrics ev env bs).count .snapshot = (written s.trace).length := by
  obtain ⟨l, h1, h2, -, h4, h5⟩ := saver_metrics ev env bs s h
  rw [(C81_counted ev env bs s h).1, h4, h5, (run_counted env bs l h1).2 hf hk]

/-- C81 violated: when no file can be created, or the cookie is zero, a snapshot is counted although nothing is saved. -/
theorem C81_violated :
    ((runSaver { exEnv with createOK := fun _ => false } exBlocks).map (fun s => (written s.trace).length)) = some 0
    ∧ (saverMetrics true { exEnv with createOK := fun _ => false } exBlocks).count .snapshot = 3
    ∧ ((runSaver exEnv [exBlock 1 [exMsg 0 0 1], exBlock 2 []]).map (fun s => (written s.trace).length)) = some 0
    ∧ (saverMetrics true exEnv [exBlock 1 [exMsg 0 0 1], exBlock 2 []]).count .snapshot = 1 := by decide +kernel

example : ((runSaver exEnv exBlocks).map (fun s => (written s.trace).length)) = some 3 ∧ (saverMetrics true exEnv exBlocks).count .snapshot = 3 := by decide +kernel

/-! ## C82 -/

/-- C82. In every run, tcpinfo_new_file_total is the number of files created. -/
theorem C82_files (ev : Bool) (env : Env) (bs : List MessageBlock) (s : Saver) (h : runSaver env bs = some s) :
    (saverMetrics ev env bs).count .newFile = filesCreated s.trace := by
  obtain ⟨l, -, -, h3, -, -⟩ := saver_metrics ev env bs s h
  rw [List.count_eq_countP]
  refine countP_traced ev _ _ ?_ ?_ s.trace _ h3
  · intro m hm; simp at hm; subst hm; rfl
  · intro a
    obtain ⟨t, act⟩ := a
    cases act <;> simp only [actMetric] <;> try rfl
    cases ev <;> rfl

/-- C82 (partial). In every run, the "open" flow events counted are the open events emitted to the event server, or none without one. Missing: the close
events, see `C82_violated`. -/
theorem C82_open_partial (ev : Bool) (env : Env) (bs : List MessageBlock) (s : Saver) (h : runSaver env bs = some s) :
    (saverMetrics ev env bs).count (.flowEvent "open") = if ev then opensEmitted s.trace else 0 := by
  obtain ⟨l, -, -, h3, -, -⟩ := saver_metrics ev env bs s h
  rw [List.count_eq_countP]
  cases ev with
  | true =>
    refine countP_traced true _ _ ?_ ?_ s.trace _ h3
    · intro m hm; simp at hm; subst hm; rfl
    · intro a
      obtain ⟨t, act⟩ := a
      cases act <;> simp only [actMetric] <;> rfl
  | false =>
    rw [countP_traced false _ (fun _ => false) ?_ ?_ s.trace _ h3]
    · simp
    · intro m hm; simp at hm; subst hm; rfl
    · intro a
      obtain ⟨t, act⟩ := a
      cases act <;> simp only [actMetric] <;> rfl

/-- No other label is ever counted. -/
theorem flowEvent_labels (ev : Bool) (env : Env) (bs : List MessageBlock) (s : Saver) (h : runSaver env bs = some s) (e : String)
    (he : Metric.flowEvent e ∈ saverMetrics ev env bs) : e = "open" := by
  obtain ⟨l, -, -, h3, -, -⟩ := saver_metrics ev env bs s h
  have : Metric.flowEvent e ∈ traceMetrics ev s.trace := by rw [h3]; exact List.mem_filter.2 ⟨he, rfl⟩
  unfold traceMetrics at this
  obtain ⟨⟨t, act⟩, -, ha⟩ := List.mem_filterMap.1 this
  cases act <;> simp [actMetric] at ha
  exact ha.2.symm

/-- C82 violated: in no run is any flow event counted other than "open", although close events are emitted. -/
theorem C82_violated : (∀ ev env bs s e, runSaver env bs = some s → e ≠ "open" → (saverMetrics ev env bs).count (.flowEvent e) = 0)
    ∧ (runSaver exEnv exBlocks).map (fun s => (opensEmitted s.trace, closesEmitted s.trace)) = some (2, 2) := by
  refine ⟨fun ev env bs s e h he => ?_, by decide +kernel⟩
  rw [List.count_eq_zero]
  exact fun hm => he (flowEvent_labels ev env bs s h e hm)

example : (runSaver exEnv exBlocks).map (fun s => (filesCreated s.trace, opensEmitted s.trace)) = some (2, 2)
    ∧ (saverMetrics true exEnv exBlocks).count .newFile = 2 ∧ (saverMetrics true exEnv exBlocks).count (.flowEvent "open") = 2 := by decide +kernel

/-! ## C83 -/

theorem filterMap_traced (ev : Bool) (f : Metric → Option Nat) (g : Stamped → Option Nat) (hf : ∀ m, m.traced = false → f m = none)
    (hg : ∀ a, g a = (actMetric ev a).bind f) (tr : List Stamped) (ms : List Metric)
    (h : traceMetrics ev tr = ms.filter Metric.traced) : ms.filterMap f = tr.filterMap g := by
  have h1 : ms.filterMap f = (ms.filter Metric.traced).filterMap f := by
    clear h
    induction ms with
    | nil => rfl
    | cons m ms ih =>
      cases e : m.traced with
      | true => rw [List.filter_cons_of_pos e, List.filterMap_cons, List.filterMap_cons, ih]
      | false => rw [List.filter_cons_of_neg (by simp [e]), List.filterMap_cons, hf m e, ih]
  rw [h1, ← h]
  unfold traceMetrics
  rw [List.filterMap_filterMap]
  congr 1
  funext a
  exact (hg a).symm

/-- C83. In every run, the byte rates exported are those the saver observed (C45 to C47 say what these are). -/
theorem C83_rates (ev : Bool) (env : Env) (bs : List MessageBlock) (s : Saver) (h : runSaver env bs = some s) (d : Dir) :
    rates d (saverMetrics ev env bs) = observations d s.trace := by
  obtain ⟨l, -, -, h3, -, -⟩ := saver_metrics ev env bs s h
  refine filterMap_traced ev _ _ ?_ ?_ s.trace _ h3
  · intro m hm; cases d <;> cases m <;> first | rfl | simp [Metric.traced] at hm
  · intro a
    obtain ⟨t, act⟩ := a
    cases d <;> cases act <;> simp only [actMetric] <;> first | rfl | (cases ev <;> rfl)

theorem direction_sent (d : Dir) (x y : UInt64) :
    (directionMetrics x y "totalSent < reportedSent" "totalSent-reportedSent exceeds network capacity" .sendRate).filter (aboutBytes d)
      = if d = .sent then directionMetrics x y "totalSent < reportedSent" "totalSent-reportedSent exceeds network capacity" .sendRate else [] := by
  unfold directionMetrics
  cases d <;> split <;> (try split) <;> simp_all [aboutBytes]

theorem direction_received (d : Dir) (x y : UInt64) :
    (directionMetrics x y "totalReceived < reportedReceived" "totalReceived-reportedReceived exceeds network capacity" .receiveRate).filter (aboutBytes d)
      = if d = .received then directionMetrics x y "totalReceived < reportedReceived" "totalReceived-reportedReceived exceeds network capacity" .receiveRate else [] := by
  unfold directionMetrics
  cases d <;> split <;> (try split) <;> simp_all [aboutBytes]

theorem ofMessage_about (d : Dir) (pre : List Metric) (h : ∀ m ∈ pre, m.ofMessage) : pre.filter (aboutBytes d) = [] := by
  rw [List.filter_eq_nil_iff]
  intro m hm
  rcases h m hm with rfl | rfl | rfl <;> cases d <;> simp [aboutBytes]

theorem direction_length (x y : UInt64) (a b : String) (f : UInt64 → Metric) : (directionMetrics x y a b f).length = 1 := by
  unfold directionMetrics
  split
  · split <;> rfl
  · rfl

theorem blocks_about (ev : Bool) (env : Env) (d : Dir) (bs : List MessageBlock) (l l' : LoopState) (h : l.blocks env bs = some l') :
    (blocksMetrics ev env bs l).countP (aboutBytes d) = newSeconds l.lastReportTime bs := by
  induction bs generalizing l with
  | nil => rfl
  | cons b bs ih =>
    simp only [LoopState.blocks] at h
    obtain ⟨l1, h1, h2⟩ := Option.bind_eq_some_iff.1 h
    obtain ⟨-, s, lm, s4, s6, r4, r6, -, a1, -, -, -, a2, -, pre, a4, a5, -⟩ := block_metrics ev env l b l1 h1
    have b2 := ih l1 h2
    rw [blocksMetrics, h1]
    simp only [List.countP_append]
    rw [b2, newSeconds, List.countP_eq_length_filter, a4, List.filter_append, ofMessage_about d pre a5, List.filter_cons_of_neg (by cases d <;> simp [aboutBytes])]
    have ht : l1.lastReportTime = if unixSeconds b.v4Time > lm.lastReportTime then unixSeconds b.v4Time else lm.lastReportTime := by
      rw [a2]; unfold LoopState.report; split
      · rfl
      · rfl
    rw [a1] at ht
    unfold reportMetrics
    rw [a1, ht]
    by_cases hn : unixSeconds b.v4Time > l.lastReportTime
    · have hn' : l.lastReportTime < b.v4Time / 1000000000 := hn
      rw [if_pos hn, if_pos hn, if_pos hn', List.filter_append, direction_sent, direction_received]
      have hl := direction_length
      cases d <;> simp [hl] <;> simp only [unixSeconds] <;> omega
    · have hn' : ¬ l.lastReportTime < b.v4Time / 1000000000 := hn
      rw [if_neg hn, if_neg hn, if_neg hn']
      simp

/-- C83. In every run, for each direction there is exactly one observation or one counted error for each block that begins a new second. -/
theorem C83_each_second (ev : Bool) (env : Env) (bs : List MessageBlock) (s : Saver) (h : runSaver env bs = some s) (d : Dir) :
    (saverMetrics ev env bs).countP (aboutBytes d) = newSeconds (-62135596800) bs := by
  obtain ⟨l, h1, h2, -, -, -⟩ := saver_metrics ev env bs s h
  rw [h2]
  exact blocks_about ev env d bs newLoop l h1

/-- C83 (special case of `C83_which`). Which of these it is: when a block begins a new second, in a `Tidy` history and away from 2^64, the difference between
the true total and what was exported so far, or the error that applies. -/
theorem C83_which_tidy (ev : Bool) (env : Env) (hv : ViewOK env) (d : Dir) (bs : List MessageBlock) (b : MessageBlock) (l l' : LoopState)
    (h : runBlocks env bs = some l) (hb : l.block env b = some l') (ht : Tidy (history env.exclude (bs ++ [b])))
    (hnew : ∀ b' ∈ bs, b'.v4Time / 1000000000 < b.v4Time / 1000000000) (h0 : -62135596800 < b.v4Time / 1000000000)
    (hT : lastTotal d ((bs ++ [b]).flatMap (reports env.exclude)) < 2^64)
    (hmax : (observations d l.svr.trace).foldr (· + ·) 0 + 12500000000 < 2^64) :
    (blockMetrics ev env l b).filter (aboutBytes d)
      = [expectedReport d ((observations d l.svr.trace).foldr (· + ·) 0) (lastTotal d ((bs ++ [b]).flatMap (reports env.exclude)))] := by
  have hsum : (observations d l.svr.trace).foldr (· + ·) 0 = (dget d l.reported).toNat := (obs_inv env hv d _ l h).1
  obtain ⟨-, s, lm, s4, s6, r4, r6, -, a1, a1', e4, e5, a2, -, pre, a4, a5, -⟩ := block_metrics ev env l b l' hb
  have hn : unixSeconds b.v4Time > lm.lastReportTime := by
    rw [a1]
    rcases last_inv env hv bs l h with e | ⟨b', hb', e⟩
    · rw [e]; exact h0
    · rw [e]; exact hnew b' hb'
  have htot := tidy_total env hv d bs b l l' h hb ht
  obtain ⟨-, -, -, f4, f5, -, -⟩ := report_effect lm b.v4Time s4 s6 r4 r6
  rw [a2, f4, f5] at htot
  rw [hsum] at hmax ⊢
  generalize hN : lastTotal d ((bs ++ [b]).flatMap (reports env.exclude)) = N at *
  have key : ∀ x y : UInt64, x.toNat = N → y.toNat + 12500000000 < 2^64 → ∀ p q f,
      directionMetrics x y p q f = [if N < y.toNat then .error p else if y.toNat + 12500000000 < N then .error q else f (UInt64.ofNat (N - y.toNat))] := by
    intro x y hx hy p q f
    have hlt : x < y ↔ N < y.toNat := by rw [UInt64.lt_iff_toNat_lt, hx]
    unfold directionMetrics
    cases hk : skipReport x y with
    | true =>
      have := skip_true hy hk
      by_cases c : x < y
      · rw [if_pos rfl, if_pos c, if_pos (hlt.1 c)]
      · rw [if_pos rfl, if_neg c, if_neg (fun e => c (hlt.2 e)), if_pos]
        have := mt hlt.2 c
        omega
    | false =>
      have := skip_false hk
      rw [if_neg (by simp), if_neg (by omega), if_neg (by omega)]
      congr 2
      apply UInt64.toNat_inj.1
      rw [UInt64.toNat_sub_of_le _ _ (UInt64.le_iff_toNat_le.2 (by omega)), hx, UInt64.toNat_ofNat', Nat.mod_eq_of_lt (by omega)]
  rw [a4, List.filter_append, ofMessage_about d pre a5, List.filter_cons_of_neg (by cases d <;> simp [aboutBytes]), reportMetrics, if_pos hn, List.filter_append,
    direction_sent, direction_received]
  have hNn : (total64 d ((bs ++ [b]).flatMap (reports env.exclude))).toNat = N := by
    rw [total64, UInt64.toNat_ofNat', hN, Nat.mod_eq_of_lt hT]
  obtain ⟨g1, g2⟩ := sums_live e4 e5 d
  cases d with
  | sent =>
    rw [key _ lm.reported.sent ?_ (by rw [a1']; exact hmax)]
    · simp only [if_true, reduceCtorEq, if_false, List.append_nil, List.nil_append, expectedReport]
      rw [a1']
      rfl
    · rw [← hNn, ← htot, ← g1 rfl, UInt64.add_assoc _ s4 s6]
      rfl
  | received =>
    rw [key _ lm.reported.received ?_ (by rw [a1']; exact hmax)]
    · simp only [if_true, reduceCtorEq, if_false, List.nil_append, expectedReport]
      rw [a1']
      rfl
    · rw [← hNn, ← htot, ← g2 rfl, UInt64.add_assoc _ r4 r6]
      rfl

/-- The sizes of the cache of a run, from a state between two cycles. -/
theorem blocks_sizes (ev : Bool) (env : Env) (bs : List MessageBlock) (h : List Call) (l l' : LoopState) (hc : l.svr.cache = cacheAfter h) (h0 : (cycles h).2 = [])
    (hb : l.blocks env bs = some l') : (cacheSizes (blocksMetrics ev env bs l)).length = bs.length
    ∧ ∀ (i : Nat) b n, bs[i]? = some b → (cacheSizes (blocksMetrics ev env bs l))[i]? = some n → ConnectionsIn env.exclude b n := by
  induction bs generalizing l h with
  | nil => exact ⟨rfl, fun i b n e => by simp at e⟩
  | cons b bs ih =>
    simp only [LoopState.blocks] at hb
    obtain ⟨l1, h1, h2⟩ := Option.bind_eq_some_iff.1 hb
    obtain ⟨-, s, lm, s4, s6, r4, r6, a0, -, -, -, -, a2, -, pre, a4, a5, -⟩ := block_metrics ev env l b l1 h1
    have hs : s.cache = cacheAfter (h ++ (reports env.exclude b).map .update) := by
      clear a4 a2 h1 h2 hb
      have : ∀ (rs : List ArchivalRecord) h (s0 : Saver), s0.cache = cacheAfter h → s0.swapAll env rs = some s → s.cache = cacheAfter (h ++ rs.map .update) := by
        intro rs
        induction rs with
        | nil => intro h s0 e e'; simp only [Saver.swapAll] at e'; injection e' with e'; subst e'; simpa using e
        | cons r rs ih =>
          intro h s0 e e'
          simp only [Saver.swapAll] at e'
          obtain ⟨s2, e1, e2⟩ := Option.bind_eq_some_iff.1 e'
          have := ih (h ++ [.update r]) s2 (by rw [swapAndQueue_cache env _ r s2 e1, e, cacheAfter_update]) e2
          simpa using this
      exact this _ h l.svr hc a0
    have hcyc : (cycles (h ++ (reports env.exclude b).map .update)).2 = reports env.exclude b := by
      rw [cycles_updates h _ (fun r hr => reports_complete hr), h0]; rfl
    have hl1 : l1.svr.cache = cacheAfter (h ++ (reports env.exclude b).map .update ++ [.endCycle]) := by
      obtain ⟨s', lf, t4, t6, u4, u6, d1, d2, rfl, -, -⟩ := block_decompose env l b l1 h1
      have : s' = s := Option.some.inj (d1.symm.trans a0)
      subst this
      rw [report_cache, finish_cache env _ lf d2, cacheAfter_endCycle, ← hs]
    obtain ⟨i1, i2⟩ := ih _ l1 hl1 (by rw [cycles_endCycle]) h2
    have hsz : cacheSizes (blocksMetrics ev env (b :: bs) l) = s.cache.current.length :: cacheSizes (blocksMetrics ev env bs l1) := by
      have hd : ∀ (x y : UInt64) (p q : String) (f : UInt64 → Metric), (∀ n, cacheSizes [f n] = []) → cacheSizes (directionMetrics x y p q f) = [] := by
        intro x y p q f hf
        unfold directionMetrics
        split
        · split <;> rfl
        · exact hf _
      have hr : cacheSizes (reportMetrics lm b.v4Time s4 s6 r4 r6) = [] := by
        unfold reportMetrics
        split
        · rw [cacheSizes, List.filterMap_append]
          exact (congr (congrArg _ (hd _ _ _ _ _ (fun _ => rfl))) (hd _ _ _ _ _ (fun _ => rfl)))
        · rfl
      have hp : cacheSizes pre = [] := by
        unfold cacheSizes
        rw [List.filterMap_eq_nil_iff]
        intro m hm
        rcases a5 m hm with rfl | rfl | rfl <;> rfl
      rw [blocksMetrics, h1, a4]
      unfold cacheSizes at hr hp ⊢
      simp only [List.filterMap_append, List.filterMap_cons, hp, hr, List.nil_append, List.cons_append]
    rw [hsz]
    refine ⟨by simp [i1], fun i b' n e1 e2 => ?_⟩
    cases i with
    | succ i => simp only [List.getElem?_cons_succ] at e1 e2; exact i2 i b' n e1 e2
    | zero =>
      simp only [List.getElem?_cons_zero] at e1 e2
      injection e1 with e1; injection e2 with e2
      subst e1 e2
      have hi := cacheInv_after (h ++ (reports env.exclude b).map .update)
      rw [← hs, hcyc] at hi
      refine ⟨s.cache.current.keys, hi.wfc, by simp [GoMap.keys], fun k => ?_⟩
      rw [GoMap.mem_keys_iff, hi.cur_get]
      constructor
      · rintro ⟨v, hv⟩; exact ⟨v, lastFor_mem hv⟩
      · rintro ⟨r, hr, e⟩
        cases hl : lastFor k (reports env.exclude b) with
        | some v => exact ⟨v, rfl⟩
        | none => exact absurd e (lastFor_none.1 hl r hr)

/-- C83. In every run, one cache size is exported per block: the number of different connections reported in it. -/
theorem C83_cache (ev : Bool) (env : Env) (bs : List MessageBlock) (s : Saver) (h : runSaver env bs = some s) :
    (cacheSizes (saverMetrics ev env bs)).length = bs.length
    ∧ ∀ (i : Nat) b n, bs[i]? = some b → (cacheSizes (saverMetrics ev env bs))[i]? = some n → ConnectionsIn env.exclude b n := by
  obtain ⟨l, h1, h2, -, -, -⟩ := saver_metrics ev env bs s h
  rw [h2]
  exact blocks_sizes ev env bs [] newLoop l rfl rfl h1

example : rates .sent (saverMetrics true exEnv statBlocks) = [12, 4] ∧ newSeconds (-62135596800) statBlocks = 2 ∧ cacheSizes (saverMetrics true exEnv statBlocks) = [2, 2, 2]
    ∧ (runSaver exEnv statBlocks).isSome = true := by decide +kernel
example : (saverMetrics true exEnv bigBlocks).countP (· == .error "totalSent-reportedSent exceeds network capacity") = newSeconds (-62135596800) bigBlocks
    ∧ newSeconds (-62135596800) bigBlocks ≠ 0 := by decide +kernel
-- a total that drops: the last message of the connection has no counters the saver finds
example : (saverMetrics true exEnv [exBlock 1000000000 [exMsg 1 0 5], exBlock 2000000000 [exMsgA 1 [8, 0, 4, 0, 0, 0, 0, 0]]]).filter (aboutBytes .sent)
    = [.sendRate 5, .error "totalSent < reportedSent"] := by decide +kernel
-- the hypotheses of `C83_which_tidy` hold for the second block of `statBlocks` (`Tidy` is shown in Props/SaverStats.lean)
example : expectedReport .sent 12 (lastTotal .sent ((statBlocks.take 2).flatMap (reports none))) = .sendRate 4
    ∧ (runBlocks exEnv (statBlocks.take 2)).isSome = true := by decide +kernel

/-! ## C84 -/

/-- A message of type NLMSG_ERROR. -/
def isErrorMsg (m : NetlinkMessage) : Bool := m.header.type == 2

theorem batch_metrics (seq pid : UInt32) (ms res : List NetlinkMessage) (r : List NetlinkMessage) (o : Option (Option GoErr))
    (h : oneTypeBatch seq pid ms res = (r, o)) :
    (∀ x ∈ batchMetrics seq pid ms, ∃ t, x = .error t ∧ t ∈ ["wrong seq num", "wrong pid", "NLMSG_ERROR"])
    ∧ res.length ≤ r.length
    ∧ (batchMetrics seq pid ms).count (.error "NLMSG_ERROR") + res.countP isErrorMsg = r.countP isErrorMsg
    ∧ (batchMetrics seq pid ms).count (.error "wrong seq num") = (if o = some (some .badSequence) then 1 else 0)
    ∧ (batchMetrics seq pid ms).count (.error "wrong pid") = (if o = some (some .badPid) then 1 else 0) := by
  induction ms generalizing res with
  | nil => simp only [oneTypeBatch] at h; injection h with h1 h2; subst h1 h2; simp [batchMetrics]
  | cons m ms ih =>
    rw [batchMetrics]
    rw [oneTypeBatch] at h
    by_cases h1 : m.header.seq = seq
    · by_cases h2 : m.header.pid = pid
      · by_cases h3 : m.header.type = NLMSG_DONE
        · simp only [processSingleMessage, messageMetrics, h1, h2, h3, ne_eq, not_true_eq_false, if_false, if_true] at h ⊢
          simp at h; obtain ⟨rfl, rfl⟩ := h
          simp
        · by_cases h4 : m.header.type = NLMSG_ERROR
          · by_cases h5 : m.data.length < 4
            · simp only [processSingleMessage, messageMetrics, h1, h2, h4, h5, ne_eq, not_true_eq_false, if_false, if_true] at h ⊢
              simp [NLMSG_DONE, NLMSG_ERROR] at h; obtain ⟨rfl, rfl⟩ := h
              simp [NLMSG_DONE, NLMSG_ERROR]
            · by_cases h6 : u32At 0 m.data = 0
              · simp only [processSingleMessage, messageMetrics, h1, h2, h4, h5, h6, ne_eq, not_true_eq_false, if_false, if_true] at h ⊢
                simp [NLMSG_DONE, NLMSG_ERROR] at h; obtain ⟨rfl, rfl⟩ := h
                simp [NLMSG_DONE, NLMSG_ERROR]
              · have he : isErrorMsg m = true := by simp [isErrorMsg, h4]
                by_cases h7 : m.header.flags &&& NLM_F_MULTI = 0
                · simp only [processSingleMessage, messageMetrics, h1, h2, h4, h5, h6, h7, ne_eq, not_true_eq_false, if_false, if_true] at h ⊢
                  simp [NLMSG_DONE, NLMSG_ERROR] at h; obtain ⟨rfl, rfl⟩ := h
                  simp [NLMSG_DONE, NLMSG_ERROR, List.countP_append, he]
                  omega
                · simp only [processSingleMessage, messageMetrics, h1, h2, h4, h5, h6, h7, ne_eq, not_true_eq_false, if_false, if_true] at h ⊢
                  simp [NLMSG_DONE, NLMSG_ERROR] at h ⊢
                  obtain ⟨a1, a2, a3, a4, a5⟩ := ih _ h
                  simp only [List.countP_append, List.countP_singleton, he, List.length_append, List.length_singleton] at a2 a3
                  simp only [if_true] at a3
                  refine ⟨by simpa using a1, by omega, ?_, ?_, ?_⟩
                  · omega
                  · simpa using a4
                  · simpa using a5
          · have he : isErrorMsg m = false := by simp [isErrorMsg]; exact h4
            by_cases h7 : m.header.flags &&& NLM_F_MULTI = 0
            · simp only [processSingleMessage, messageMetrics, h1, h2, h3, h4, h7, ne_eq, not_true_eq_false, if_false, if_true] at h ⊢
              simp at h; obtain ⟨rfl, rfl⟩ := h
              simp [List.countP_append, he]
            · simp only [processSingleMessage, messageMetrics, h1, h2, h3, h4, h7, ne_eq, not_true_eq_false, if_false] at h ⊢
              simp at h ⊢
              obtain ⟨a1, a2, a3, a4, a5⟩ := ih _ h
              simp only [List.countP_append, List.countP_singleton, he, List.length_append, List.length_singleton] at a2 a3
              exact ⟨by simpa using a1, by omega, by simpa using a3, by simpa using a4, by simpa using a5⟩
      · simp only [processSingleMessage, messageMetrics, h1, h2, ne_eq, not_true_eq_false, not_false_eq_true, if_false, if_true] at h ⊢
        simp at h; obtain ⟨rfl, rfl⟩ := h
        simp
    · simp only [processSingleMessage, messageMetrics, h1, ne_eq, not_false_eq_true, if_true] at h ⊢
      simp at h; obtain ⟨rfl, rfl⟩ := h
      simp

/-- The receive loop. Either it ends with what has been collected, or with nothing because of an error of `Receive`. -/
theorem loop_metrics (seq pid : UInt32) (script : List (Except GoErr (List NetlinkMessage))) (res : List NetlinkMessage) :
    (∀ x ∈ (loopMetrics seq pid script res).1, ∃ t, x = .error t ∧ t ∈ ["wrong seq num", "wrong pid", "NLMSG_ERROR"])
    ∧ (oneTypeLoop seq pid script res = none → (loopMetrics seq pid script res).2 = none)
    ∧ ∀ out err, oneTypeLoop seq pid script res = some (out, err) → ∃ acc, (loopMetrics seq pid script res).2 = some acc.length ∧
      ((out = acc
        ∧ (loopMetrics seq pid script res).1.count (.error "NLMSG_ERROR") + res.countP isErrorMsg = out.countP isErrorMsg
        ∧ (loopMetrics seq pid script res).1.count (.error "wrong seq num") = (if err = some .badSequence then 1 else 0)
        ∧ (loopMetrics seq pid script res).1.count (.error "wrong pid") = (if err = some .badPid then 1 else 0))
      ∨ (out = [] ∧ ∃ e, err = some e ∧ .error e ∈ script)) := by
  induction script generalizing res with
  | nil => simp [loopMetrics, oneTypeLoop]
  | cons x script ih =>
    cases x with
    | error e =>
      refine ⟨by simp [loopMetrics], by simp [oneTypeLoop], ?_⟩
      intro out err h
      simp only [oneTypeLoop] at h
      injection h with h; injection h with h1 h2
      exact ⟨res, rfl, Or.inr ⟨h1.symm, e, h2.symm, by simp⟩⟩
    | ok msgs =>
      cases hb : oneTypeBatch seq pid msgs res with
      | mk r o =>
        obtain ⟨a1, a2, a3, a4, a5⟩ := batch_metrics seq pid msgs res r o hb
        simp only [loopMetrics, oneTypeLoop, hb]
        cases o with
        | some e =>
          refine ⟨a1, by simp, ?_⟩
          intro out err h
          simp only at h
          injection h with h; injection h with h1 h2
          subst h1 h2
          refine ⟨r, rfl, Or.inl ⟨rfl, a3, ?_, ?_⟩⟩
          · simp only [a4, Option.some.injEq]
          · simp only [a5, Option.some.injEq]
        | none =>
          obtain ⟨b1, b2, b3⟩ := ih r
          refine ⟨?_, b2, ?_⟩
          · intro x hx
            rcases List.mem_append.1 hx with hx | hx
            · exact a1 x hx
            · exact b1 x hx
          · intro out err h
            obtain ⟨acc, c1, c2⟩ := b3 out err h
            refine ⟨acc, c1, ?_⟩
            rcases c2 with ⟨d1, d2, d3, d4⟩ | ⟨d1, e, d2, d3⟩
            · refine Or.inl ⟨d1, ?_, ?_, ?_⟩
              · simp only [List.count_append]; omega
              · simp only [List.count_append, a4, d3]; simp
              · simp only [List.count_append, a5, d4]; simp
            · exact Or.inr ⟨d1, e, d2, by simp [d3]⟩

theorem errors_not_conn (l : List Metric) (h : ∀ x ∈ l, ∃ t, x = .error t ∧ t ∈ ["wrong seq num", "wrong pid", "NLMSG_ERROR"]) : l.filter isConnCount = [] := by
  rw [List.filter_eq_nil_iff]
  intro x hx
  obtain ⟨t, rfl, -⟩ := h x hx
  simp [isConnCount]

/-- C84. Every dump that returns exports exactly one number of connections, labelled with its address family. It is the number of messages returned if the dump
succeeded, and never less than that. -/
theorem C84_count (fam : UInt8) (setup : Option GoErr) (seq pid : UInt32) (script : List (Except GoErr (List NetlinkMessage))) (res : List NetlinkMessage)
    (err : Option GoErr) (h : oneType setup seq pid script = some (res, err)) :
    ∃ af n, (dumpMetrics fam setup seq pid script).filter isConnCount = [.connCount af n] ∧ (fam = 2 → af = "ipv4") ∧ (fam = 10 → af = "ipv6")
      ∧ res.length ≤ n ∧ (err = none → n = res.length) := by
  have hl : (fam = 2 → afLabel fam = "ipv4") ∧ (fam = 10 → afLabel fam = "ipv6") := ⟨by rintro rfl; decide, by rintro rfl; decide⟩
  cases setup with
  | some e =>
    simp only [oneType] at h
    injection h with h; injection h with h1 h2
    subst h1 h2
    exact ⟨_, 0, rfl, hl.1, hl.2, Nat.le_refl _, by simp⟩
  | none =>
    simp only [oneType] at h
    obtain ⟨a1, -, a3⟩ := loop_metrics seq pid script []
    obtain ⟨acc, b1, b2⟩ := a3 res err h
    refine ⟨afLabel fam, acc.length, ?_, hl.1, hl.2, ?_, ?_⟩
    · unfold dumpMetrics
      simp only
      cases hm : loopMetrics seq pid script [] with
      | mk ms o =>
        rw [hm] at a1 b1
        simp only at a1 b1
        subst b1
        simp only [List.filter_append, errors_not_conn ms a1]
        rfl
    · rcases b2 with ⟨rfl, -⟩ | ⟨rfl, -⟩ <;> simp
    · rintro rfl
      rcases b2 with ⟨rfl, -⟩ | ⟨-, e, b2, -⟩
      · rfl
      · simp at b2

/-- C84. While a dump is waiting for the kernel, it has not exported a number of connections. -/
theorem C84_waiting (fam : UInt8) (setup : Option GoErr) (seq pid : UInt32) (script : List (Except GoErr (List NetlinkMessage)))
    (h : oneType setup seq pid script = none) : (dumpMetrics fam setup seq pid script).filter isConnCount = [] := by
  cases setup with
  | some e => simp [oneType] at h
  | none =>
    simp only [oneType] at h
    obtain ⟨a1, a2, -⟩ := loop_metrics seq pid script []
    have := a2 h
    unfold dumpMetrics
    simp only
    cases hm : loopMetrics seq pid script [] with
    | mk ms o =>
      rw [hm] at a1 this
      simp only at a1 this
      subst this
      exact errors_not_conn ms a1

/-- C84 (partial). If the socket works, a wrong sequence number or a wrong pid is counted exactly when the dump fails because of it, and netlink errors are
counted once for each error message that is returned. Missing: errors of the socket and messages that are too short, see `C84_violated`. -/
theorem C84_errors_partial (fam : UInt8) (seq pid : UInt32) (script : List (Except GoErr (List NetlinkMessage))) (hs : ∀ e, .error e ∉ script)
    (res : List NetlinkMessage) (err : Option GoErr) (h : oneType none seq pid script = some (res, err)) :
    (dumpMetrics fam none seq pid script).count (.error "wrong seq num") = (if err = some .badSequence then 1 else 0)
    ∧ (dumpMetrics fam none seq pid script).count (.error "wrong pid") = (if err = some .badPid then 1 else 0)
    ∧ (dumpMetrics fam none seq pid script).count (.error "NLMSG_ERROR") = res.countP (fun m => m.header.type = 2) := by
  simp only [oneType] at h
  obtain ⟨-, -, a3⟩ := loop_metrics seq pid script []
  obtain ⟨acc, b1, b2⟩ := a3 res err h
  rcases b2 with ⟨-, c1, c2, c3⟩ | ⟨-, e, -, b2⟩
  · unfold dumpMetrics
    simp only
    cases hm : loopMetrics seq pid script [] with
    | mk ms o =>
      rw [hm] at b1 c1 c2 c3
      simp only at b1 c1 c2 c3
      subst b1
      simp only [List.count_append, c2, c3]
      refine ⟨by simp, by simp, ?_⟩
      have : res.countP (fun m => decide (m.header.type = 2)) = res.countP isErrorMsg := by
        refine List.countP_congr (fun m _ => ?_)
        simp [isErrorMsg]
      rw [this, ← c1]
      simp
  · exact absurd b2 (hs e)

/-- A batch after which the dump goes on has been collected completely. -/
theorem batch_waiting (seq pid : UInt32) (ms res r : List NetlinkMessage) (h : oneTypeBatch seq pid ms res = (r, none)) :
    r = res ++ ms ∧ batchMetrics seq pid ms = List.replicate (ms.countP isErrorMsg) (.error "NLMSG_ERROR") := by
  induction ms generalizing res with
  | nil => simp only [oneTypeBatch] at h; injection h with h1 h2; subst h1; simp [batchMetrics]
  | cons m ms ih =>
    rw [batchMetrics]
    rw [oneTypeBatch] at h
    by_cases h1 : m.header.seq = seq
    · by_cases h2 : m.header.pid = pid
      · by_cases h3 : m.header.type = NLMSG_DONE
        · simp [processSingleMessage, h1, h2, h3] at h
        · by_cases h7 : m.header.flags &&& NLM_F_MULTI = 0
          · by_cases h4 : m.header.type = NLMSG_ERROR
            · by_cases h5 : m.data.length < 4
              · simp [processSingleMessage, h1, h2, h4, h5, NLMSG_DONE, NLMSG_ERROR] at h
              · by_cases h6 : u32At 0 m.data = 0 <;> simp [processSingleMessage, h1, h2, h4, h5, h6, h7, NLMSG_DONE, NLMSG_ERROR] at h
            · simp [processSingleMessage, h1, h2, h3, h4, h7] at h
          · by_cases h4 : m.header.type = NLMSG_ERROR
            · have he : isErrorMsg m = true := by simp [isErrorMsg, h4]
              by_cases h5 : m.data.length < 4
              · simp [processSingleMessage, h1, h2, h4, h5, NLMSG_DONE, NLMSG_ERROR] at h
              · by_cases h6 : u32At 0 m.data = 0
                · simp [processSingleMessage, h1, h2, h4, h5, h6, NLMSG_DONE, NLMSG_ERROR] at h
                · simp only [processSingleMessage, messageMetrics, h1, h2, h4, h5, h6, h7, ne_eq, not_true_eq_false, if_false, if_true] at h ⊢
                  simp [NLMSG_DONE, NLMSG_ERROR] at h ⊢
                  obtain ⟨i1, i2⟩ := ih _ h
                  refine ⟨by rw [i1]; simp, ?_⟩
                  rw [List.countP_cons_of_pos he, List.replicate_succ, i2]
            · have he : ¬ isErrorMsg m = true := by simp [isErrorMsg]; exact h4
              simp only [processSingleMessage, messageMetrics, h1, h2, h3, h4, h7, ne_eq, not_true_eq_false, if_false] at h ⊢
              simp at h ⊢
              obtain ⟨i1, i2⟩ := ih _ h
              refine ⟨by rw [i1]; simp, ?_⟩
              rw [List.countP_cons_of_neg he, i2]
      · simp [processSingleMessage, h1, h2] at h
    · simp [processSingleMessage, h1] at h

/-- A dump returns by itself, or because `Receive` fails while it is waiting. -/
theorem loop_ends (seq pid : UInt32) (script : List (Except GoErr (List NetlinkMessage))) (res out : List NetlinkMessage) (err : Option GoErr)
    (h : oneTypeLoop seq pid script res = some (out, err)) :
    (∃ (oks : List (List NetlinkMessage)) (e : GoErr) (post : List (Except GoErr (List NetlinkMessage))), script = oks.map .ok ++ .error e :: post ∧ oneTypeLoop seq pid (oks.map .ok) res = none ∧ out = [] ∧ err = some e
      ∧ loopMetrics seq pid script res = (List.replicate (oks.flatten.countP isErrorMsg) (.error "NLMSG_ERROR"), some (res.length + oks.flatten.length)))
    ∨ ((∃ (oks : List (List NetlinkMessage)) (post : List (Except GoErr (List NetlinkMessage))), script = oks.map .ok ++ post ∧ oneTypeLoop seq pid (oks.map .ok) res = some (out, err))
      ∧ (loopMetrics seq pid script res).2 = some out.length
      ∧ (loopMetrics seq pid script res).1.count (.error "NLMSG_ERROR") + res.countP isErrorMsg = out.countP isErrorMsg
      ∧ (loopMetrics seq pid script res).1.count (.error "wrong seq num") = (if err = some .badSequence then 1 else 0)
      ∧ (loopMetrics seq pid script res).1.count (.error "wrong pid") = (if err = some .badPid then 1 else 0)) := by
  induction script generalizing res with
  | nil => simp [oneTypeLoop] at h
  | cons x script ih =>
    cases x with
    | error e =>
      simp only [oneTypeLoop] at h
      injection h with h; injection h with h1 h2
      exact Or.inl ⟨[], e, script, rfl, rfl, h1.symm, h2.symm, rfl⟩
    | ok msgs =>
      cases hb : oneTypeBatch seq pid msgs res with
      | mk r o =>
        obtain ⟨a1, a2, a3, a4, a5⟩ := batch_metrics seq pid msgs res r o hb
        simp only [oneTypeLoop, hb] at h
        cases o with
        | some e =>
          simp only at h
          injection h with h; injection h with h1 h2
          subst h1 h2
          refine Or.inr ⟨⟨[msgs], script, rfl, by simp [oneTypeLoop, hb]⟩, ?_⟩
          simp only [loopMetrics, hb]
          refine ⟨trivial, a3, ?_, ?_⟩
          · simp only [a4, Option.some.injEq]
          · simp only [a5, Option.some.injEq]
        | none =>
          obtain ⟨w1, w2⟩ := batch_waiting seq pid msgs res r hb
          rcases ih r h with ⟨oks, e, post, c1, c2, c3, c4, c5⟩ | ⟨⟨oks, post, c1, c2⟩, d1, d2, d3, d4⟩
          · refine Or.inl ⟨msgs :: oks, e, post, by simp [c1], by simpa [oneTypeLoop, hb] using c2, c3, c4, ?_⟩
            simp only [loopMetrics, hb, c5, w2]
            simp only [List.flatten_cons, List.countP_append, List.replicate_append_replicate, List.length_append, w1, Nat.add_assoc]
          · refine Or.inr ⟨⟨msgs :: oks, post, by simp [c1], by simpa [oneTypeLoop, hb] using c2⟩, ?_⟩
            simp only [loopMetrics, hb]
            refine ⟨d1, ?_, ?_, ?_⟩
            · simp only [List.count_append]; omega
            · simp only [List.count_append, a4, d3]; simp
            · simp only [List.count_append, a5, d4]; simp

/-- C84, exactly, for every dump that returns. (1) If the socket could not be set up, a number of connections of 0 is exported and no error is counted. (2) If
`Receive` failed while the dump was waiting, nothing is returned; the number of connections exported is that of all messages received until then, the error
messages among these are counted and the failure is not. (3) Otherwise the number of connections is that of the messages returned, a wrong sequence number or
pid is counted exactly if it is the reason for the failure, and netlink errors once for each error message that is returned. -/
theorem C84_exact (fam : UInt8) (setup : Option GoErr) (seq pid : UInt32) (script : List (Except GoErr (List NetlinkMessage))) (res : List NetlinkMessage)
    (err : Option GoErr) (h : oneType setup seq pid script = some (res, err)) :
    (setup ≠ none ∧ res = [] ∧ err = setup ∧ ∃ af, dumpMetrics fam setup seq pid script = [.connCount af 0])
    ∨ (setup = none ∧ ∃ (oks : List (List NetlinkMessage)) (e : GoErr) (post : List (Except GoErr (List NetlinkMessage))), script = oks.map .ok ++ .error e :: post ∧ oneType none seq pid (oks.map .ok) = none ∧ res = [] ∧ err = some e
      ∧ ∃ af, dumpMetrics fam setup seq pid script
        = List.replicate (oks.flatten.countP (fun m => m.header.type = 2)) (.error "NLMSG_ERROR") ++ [.connCount af oks.flatten.length])
    ∨ (setup = none ∧ (∃ (oks : List (List NetlinkMessage)) (post : List (Except GoErr (List NetlinkMessage))), script = oks.map .ok ++ post ∧ oneType none seq pid (oks.map .ok) = some (res, err))
      ∧ ∃ af, (dumpMetrics fam setup seq pid script).filter isConnCount = [.connCount af res.length]
      ∧ (dumpMetrics fam setup seq pid script).count (.error "wrong seq num") = (if err = some .badSequence then 1 else 0)
      ∧ (dumpMetrics fam setup seq pid script).count (.error "wrong pid") = (if err = some .badPid then 1 else 0)
      ∧ (dumpMetrics fam setup seq pid script).count (.error "NLMSG_ERROR") = res.countP (fun m => m.header.type = 2)) := by
  have hcp : ∀ l : List NetlinkMessage, l.countP (fun m => decide (m.header.type = 2)) = l.countP isErrorMsg := by
    intro l
    refine List.countP_congr (fun m _ => ?_)
    simp [isErrorMsg]
  cases setup with
  | some e =>
    simp only [oneType] at h
    injection h with h; injection h with h1 h2
    subst h1 h2
    exact Or.inl ⟨by simp, rfl, rfl, _, rfl⟩
  | none =>
    right
    simp only [oneType] at h
    obtain ⟨a1, -, -⟩ := loop_metrics seq pid script []
    rcases loop_ends seq pid script [] res err h with ⟨oks, e, post, c1, c2, c3, c4, c5⟩ | ⟨c0, d1, d2, d3, d4⟩
    · refine Or.inl ⟨rfl, oks, e, post, c1, c2, c3, c4, afLabel fam, ?_⟩
      simp only [dumpMetrics, c5, hcp, List.length_nil, Nat.zero_add]
    · refine Or.inr ⟨rfl, c0, afLabel fam, ?_⟩
      cases hm : loopMetrics seq pid script [] with
      | mk ms o =>
        rw [hm] at a1 d1 d2 d3 d4
        simp only at a1 d1 d2 d3 d4
        subst d1
        simp only [dumpMetrics, hm, List.filter_append, errors_not_conn ms a1, List.count_append, d3, d4, hcp]
        refine ⟨rfl, by simp, by simp, ?_⟩
        rw [← d2]; simp

/-- C84 violated: if `Receive` fails, no error is counted, and the number of connections exported is that of messages which were dropped; if an error message
is too short or the socket cannot be set up, no error is counted either. -/
theorem C84_violated :
    (oneType none 7 9 [.ok [exMore, exMore], .error .read] = some ([], some .read)
      ∧ dumpMetrics 2 none 7 9 [.ok [exMore, exMore], .error .read] = [.connCount "ipv4" 2])
    ∧ (oneType none 7 9 [.ok [{ exMore with header := { exMore.header with type := 2 } }]] = some ([], some .badMsgData)
      ∧ dumpMetrics 2 none 7 9 [.ok [{ exMore with header := { exMore.header with type := 2 } }]] = [.connCount "ipv4" 0])
    ∧ (oneType (some .read) 7 9 [] = some ([], some .read) ∧ dumpMetrics 10 (some .read) 7 9 [] = [.connCount "ipv6" 0]) := by decide

example : dumpMetrics 10 none 7 9 [.ok [exMore, exMore], .ok [exMore, exDone, exMore], .ok [exMore]] = [.connCount "ipv6" 3] := by decide
example : dumpMetrics 2 none 7 9 [.ok [exMore, { exMore with header := { exMore.header with seq := 8 } }]] = [.error "wrong seq num", .connCount "ipv4" 1] := by decide
example : dumpMetrics 2 none 7 9 [.ok [exMore, { exMore with header := { exMore.header with type := 2 }, data := [1, 0, 0, 0] }, exDone]]
    = [.error "NLMSG_ERROR", .connCount "ipv4" 2] := by decide

/-! ## C85 -/

theorem toString_inj {p q : Nat} (h : (toString p).toList = (toString q).toList) : p = q := by
  have e : ∀ n : Nat, (toString n).toList = Nat.toDigits 10 n := fun n => Nat.toList_repr
  rw [e, e] at h
  rw [← Nat.ofDigitChars_ten_toDigits (n := p), h, Nat.ofDigitChars_ten_toDigits]

theorem skipped_inj {p q : Nat} (h : Metric.skipped (toString p) = .skipped (toString q)) : p = q := by
  injection h with h
  exact toString_inj (by rw [h])

theorem toString_ne (n : Nat) (s : String) (h : s.toList.any (fun c => !c.isDigit) = true) : toString n ≠ s := by
  intro e
  rw [← e] at h
  have e : (toString n).toList = Nat.toDigits 10 n := Nat.toList_repr
  rw [e, List.any_eq_true] at h
  obtain ⟨c, hc, hd⟩ := h
  rw [Nat.isDigit_of_mem_toDigits (by decide) (by decide) hc] at hd
  simp at hd

theorem small_or_large (t : Nat) : t = 0 ∨ t = 1 ∨ t = 2 ∨ t = 3 ∨ t = 4 ∨ t = 5 ∨ t = 6 ∨ t = 7 ∨ t = 8 ∨ t = 9 ∨ t = 10 ∨ t = 11 ∨ t = 12 ∨ t = 13 ∨ t = 14 ∨ t = 15
    ∨ t = 16 ∨ t = 17 ∨ t = 18 ∨ ∃ n, t = n + 19 := by
  by_cases h : t < 19
  · omega
  · iterate 19 right
    exact ⟨t - 19, by omega⟩

theorem attrMetric_inj {p q : Nat} (h : attrMetric p = attrMetric q) : p = q := by
  have dflt : ∀ t, t ∉ [1, 2, 3, 7, 9, 16, 11, 12, 13, 14] → attrMetric t = .skipped (toString t) := by
    intro t ht
    rcases small_or_large t with rfl | rfl | rfl | rfl | rfl | rfl | rfl | rfl | rfl | rfl | rfl | rfl | rfl | rfl | rfl | rfl | rfl | rfl | rfl | ⟨n, rfl⟩ <;>
      first | rfl | exact absurd (by decide) ht
  have inj : ∀ p ∈ [1, 2, 3, 7, 9, 16, 11, 12, 13, 14], ∀ q ∈ [1, 2, 3, 7, 9, 16, 11, 12, 13, 14], attrMetric p = attrMetric q → p = q := by decide
  have d : ∀ p ∈ [1, 2, 3, 7, 9, 16, 11, 12, 13, 14], ∀ n : Nat, attrMetric p ≠ .skipped (toString n) := by
    intro p hp n e
    simp only [List.mem_cons, List.not_mem_nil, or_false] at hp
    rcases hp with rfl | rfl | rfl | rfl | rfl | rfl | rfl | rfl | rfl | rfl <;> first
      | exact Metric.noConfusion e
      | exact toString_ne n _ (by decide) (Metric.skipped.inj e).symm
  by_cases hp : p ∈ [1, 2, 3, 7, 9, 16, 11, 12, 13, 14] <;> by_cases hq : q ∈ [1, 2, 3, 7, 9, 16, 11, 12, 13, 14]
  · exact inj p hp q hq h
  · rw [dflt q hq] at h; exact absurd h (d p hp q)
  · rw [dflt p hp] at h; exact absurd h.symm (d q hq p)
  · rw [dflt p hp, dflt q hq] at h; exact skipped_inj h

theorem switch_mem (t : Nat) (raw : Bytes) : ∀ m ∈ switchMetrics t raw, m = attrMetric t := by
  have hc : ∀ n l, ∀ m ∈ maybeCopyMetrics raw n l, m = .large l := by
    intro n l m hm
    unfold maybeCopyMetrics at hm
    split at hm
    · simp at hm
    · split at hm
      · simpa using hm
      · simp at hm
  have h1 : ∀ m x : Metric, m ∈ [x] → m = x := fun m x h => by simpa using h
  have h0 : ∀ m x : Metric, m ∈ ([] : List Metric) → m = x := fun m x h => by simp at h
  intro m hm
  rcases small_or_large t with rfl | rfl | rfl | rfl | rfl | rfl | rfl | rfl | rfl | rfl | rfl | rfl | rfl | rfl | rfl | rfl | rfl | rfl | rfl | ⟨n, rfl⟩ <;>
    first | exact hc _ _ m hm | exact h1 _ _ hm | exact h0 _ _ hm

theorem switch_understood (t : Nat) (a : Bytes) (ht : t ∉ [5, 6, 8, 10, 15, 17, 18]) (hb : t = 16 → ¬ (20 < a.length ∧ a.length ≤ 24)) :
    (understood t a → switchMetrics t a = []) ∧ (¬ understood t a → switchMetrics t a = [attrMetric t]) := by
  have hc : ∀ n l, (a.length ≤ n → maybeCopyMetrics a n l = []) ∧ (¬ a.length ≤ n → maybeCopyMetrics a n l = [.large l]) := by
    intro n l
    unfold maybeCopyMetrics
    constructor
    · intro h; split
      · rfl
      · rw [if_neg (by omega)]
    · intro h; rw [if_neg (by omega), if_pos (by omega)]
  have e1 : goSizeof goBBRInfo = 24 := by decide +kernel
  have e2 : Spec.sizeOf tcp_bbr_info = 20 := by decide +kernel
  have e3 : goSizeof goTCPInfo = Spec.sizeOf tcp_info := by decide +kernel
  have hu : (True → ([] : List Metric) = []) ∧ (¬ True → ([] : List Metric) = [attrMetric 4]) := ⟨fun _ => rfl, fun h => absurd trivial h⟩
  have hf : ∀ m : Metric, (False → [m] = []) ∧ (¬ False → [m] = [m]) := fun m => ⟨False.elim, fun _ => rfl⟩
  rcases small_or_large t with rfl | rfl | rfl | rfl | rfl | rfl | rfl | rfl | rfl | rfl | rfl | rfl | rfl | rfl | rfl | rfl | rfl | rfl | rfl | ⟨n, rfl⟩
  case inr.inr.inl => show (a.length ≤ Spec.sizeOf tcp_info → _) ∧ (¬ a.length ≤ Spec.sizeOf tcp_info → _); rw [← e3]; exact hc _ _
  case inr.inr.inr.inr.inr.inr.inr.inr.inr.inr.inr.inr.inr.inr.inr.inr.inl =>
    have := hb rfl
    show (a.length ≤ Spec.sizeOf tcp_bbr_info → maybeCopyMetrics a (goSizeof goBBRInfo) _ = _) ∧ (¬ a.length ≤ Spec.sizeOf tcp_bbr_info → maybeCopyMetrics a (goSizeof goBBRInfo) _ = _)
    rw [e2, e1]
    exact ⟨fun h => (hc 24 _).1 (by omega), fun h => (hc 24 _).2 (by omega)⟩
  all_goals first
    | exact hf _
    | exact hu
    | exact hc _ _
    | (simp at ht; done)

theorem loop_count (t : Nat) (as : List (Option GoSlice)) (t0 : Nat) (s s' : Snapshot) (h : decodeLoop t0 as s = some s') :
    (t < t0 → (decodeLoopMetrics t0 as).count (attrMetric t) = 0)
    ∧ (t0 ≤ t → ((as[t - t0]?).join = none → (decodeLoopMetrics t0 as).count (attrMetric t) = 0)
      ∧ ∀ raw, (as[t - t0]?).join = some raw → (decodeLoopMetrics t0 as).count (attrMetric t) = (switchMetrics t raw.val).count (attrMetric t)) := by
  have other : ∀ t' raw, t' ≠ t → (switchMetrics t' raw).count (attrMetric t) = 0 := by
    intro t' raw hne
    rw [List.count_eq_zero]
    intro hm
    exact hne (attrMetric_inj (switch_mem t' raw _ hm)).symm
  induction as generalizing t0 s with
  | nil => simp [decodeLoopMetrics]
  | cons x as ih =>
    have step : ∀ raw, x = some raw → decodeLoopMetrics t0 (x :: as) = switchMetrics t0 raw.val ++ decodeLoopMetrics (t0 + 1) as := by
      rintro raw rfl
      rw [decodeLoopMetrics, if_neg]
      rintro ⟨rfl, h4⟩
      simp [decodeLoop, decodeSwitch, congestionAlgorithm, h4] at h
    have hnext : ∃ s1, decodeLoop (t0 + 1) as s1 = some s' := by
      cases x with
      | none => exact ⟨s, h⟩
      | some raw =>
        simp only [decodeLoop] at h
        split at h
        · simp at h
        · exact ⟨_, h⟩
    obtain ⟨s1, h1⟩ := hnext
    obtain ⟨i1, i2⟩ := ih (t0 + 1) s1 h1
    constructor
    · intro hlt
      cases x with
      | none => rw [decodeLoopMetrics]; exact i1 (by omega)
      | some raw => rw [step raw rfl, List.count_append, other t0 _ (by omega), i1 (by omega)]
    · intro hle
      by_cases he : t0 = t
      · subst he
        simp only [Nat.sub_self, List.getElem?_cons_zero]
        cases x with
        | none => exact ⟨fun _ => by rw [decodeLoopMetrics]; exact i1 (by omega), fun raw e => by simp at e⟩
        | some raw =>
          refine ⟨fun e => by simp at e, fun raw' e => ?_⟩
          simp at e; subst e
          rw [step raw rfl, List.count_append, i1 (by omega)]; rfl
      · have hidx : (x :: as)[t - t0]? = as[t - (t0 + 1)]? := by
          rw [show t - t0 = (t - (t0 + 1)) + 1 by omega, List.getElem?_cons_succ]
        rw [hidx]
        have hc : (decodeLoopMetrics t0 (x :: as)).count (attrMetric t) = (decodeLoopMetrics (t0 + 1) as).count (attrMetric t) := by
          cases x with
          | none => rw [decodeLoopMetrics]
          | some raw => rw [step raw rfl, List.count_append, other t0 _ he]; simp
        rw [hc]
        exact i2 (by omega)

theorem decodeMetrics_ok {r : ArchivalRecord} {md : Option Metadata} {s : Snapshot} (h : decode r = .ok (md, s)) : decodeMetrics r = decodeLoopMetrics 0 r.attrs := by
  unfold decode at h
  unfold decodeMetrics
  split at h
  · simp at h
  · rename_i hn
    rw [if_neg hn]
    cases hr : r.rawIDM with
    | none => rfl
    | some raw =>
      rw [hr] at h
      simp only at h ⊢
      cases hp : parseIDM raw with
      | ok m => rfl
      | err e => rw [hp] at h; simp at h
      | panic => rw [hp] at h; simp at h

/-- C85 (partial). For every record that is decoded, an attribute that is present and cannot be decoded completely is counted exactly once, under its own
label, and one that is absent or completely decoded is not counted. Missing: the attributes of one byte, the mark and MD5 signatures, see `C85_violated`; BBR
infos of 21 to 24 bytes. -/
theorem C85_counted_partial (r : ArchivalRecord) (md : Option Metadata) (s : Snapshot) (h : decode r = .ok (md, s)) (t : Nat)
    (ht : t ∉ [5, 6, 8, 10, 15, 17, 18]) (hb : ∀ a, attr r 16 = some a → ¬ (20 < a.length ∧ a.length ≤ 24)) :
    (∀ a, attr r t = some a → ¬ understood t a → (decodeMetrics r).count (attrMetric t) = 1)
    ∧ (∀ a, attr r t = some a → understood t a → (decodeMetrics r).count (attrMetric t) = 0)
    ∧ (attr r t = none → (decodeMetrics r).count (attrMetric t) = 0) := by
  obtain ⟨-, idm, hl, -⟩ := decode_ok h
  rw [decodeMetrics_ok h]
  obtain ⟨h1, h2⟩ := (loop_count t _ _ _ _ hl).2 (Nat.zero_le t)
  simp only [Nat.sub_zero] at h1 h2
  have hu := fun a (ha : attr r t = some a) => switch_understood t a ht (fun e => hb a (e ▸ ha))
  have ha : attr r t = ((r.attrs[t]?).join).map (·.val) := rfl
  cases hj : (r.attrs[t]?).join with
  | none =>
    rw [hj] at ha
    exact ⟨fun a e => by rw [ha] at e; simp at e, fun a e => by rw [ha] at e; simp at e, fun _ => h1 hj⟩
  | some raw =>
    rw [hj] at ha
    rw [h2 raw hj]
    have ha : attr r t = some raw.val := ha
    refine ⟨fun a e hn => ?_, fun a e hn => ?_, fun e => by rw [ha] at e; simp at e⟩
    · rw [ha] at e; injection e with e; subst e
      rw [(hu _ ha).2 hn]; simp
    · rw [ha] at e; injection e with e; subst e
      rw [(hu _ ha).1 hn]; simp

theorem switch_exact (t : Nat) (a : Bytes) : (¬ understood t a ∧ ¬ neverCounted t a → switchMetrics t a = [attrMetric t])
    ∧ (understood t a ∨ neverCounted t a → switchMetrics t a = []) := by
  by_cases hn : neverCounted t a
  · refine ⟨fun h => absurd hn h.2, fun _ => ?_⟩
    rcases hn with ht | ⟨rfl, hl⟩
    · simp only [List.mem_cons, List.not_mem_nil, or_false] at ht
      rcases ht with rfl | rfl | rfl | rfl | rfl | rfl | rfl <;> rfl
    · have e1 : goSizeof goBBRInfo = 24 := by decide +kernel
      show maybeCopyMetrics a (goSizeof goBBRInfo) _ = []
      unfold maybeCopyMetrics
      rw [e1]
      split
      · rfl
      · rw [if_neg (by omega)]
  · obtain ⟨h1, h2⟩ := switch_understood t a (fun ht => hn (Or.inl ht)) (fun ht hl => hn (Or.inr ⟨ht, hl.2⟩))
    exact ⟨fun h => h2 h.1, fun h => h1 (h.resolve_right hn)⟩

open Classical in
/-- C85, exactly, for every record that is decoded and every type of attribute: it is counted, once, if and only if it is present, cannot be decoded
completely and is not one of those that are never counted. -/
theorem C85_exact (r : ArchivalRecord) (md : Option Metadata) (s : Snapshot) (h : decode r = .ok (md, s)) (t : Nat) :
    (decodeMetrics r).count (attrMetric t) = if ∃ a, attr r t = some a ∧ ¬ understood t a ∧ ¬ neverCounted t a then 1 else 0 := by
  obtain ⟨-, idm, hl, -⟩ := decode_ok h
  rw [decodeMetrics_ok h]
  obtain ⟨h1, h2⟩ := (loop_count t _ _ _ _ hl).2 (Nat.zero_le t)
  simp only [Nat.sub_zero] at h1 h2
  have ha : attr r t = ((r.attrs[t]?).join).map (·.val) := rfl
  cases hj : (r.attrs[t]?).join with
  | none =>
    rw [hj] at ha
    rw [h1 hj, if_neg (by rintro ⟨a, e, _⟩; rw [ha] at e; simp at e)]
  | some raw =>
    rw [hj] at ha
    have ha : attr r t = some raw.val := ha
    rw [h2 raw hj]
    by_cases hc : ¬ understood t raw.val ∧ ¬ neverCounted t raw.val
    · rw [if_pos ⟨raw.val, ha, hc⟩, (switch_exact t raw.val).1 hc]; simp
    · rw [if_neg (by rintro ⟨a, e, e2⟩; rw [ha] at e; injection e with e; subst e; exact hc e2), (switch_exact t raw.val).2 ?_]
      · simp
      · by_cases hu : understood t raw.val
        · exact Or.inl hu
        · by_cases hv : neverCounted t raw.val
          · exact Or.inr hv
          · exact absurd ⟨hu, hv⟩ hc

theorem loop_mem (as : List (Option GoSlice)) (t0 : Nat) : ∀ m ∈ decodeLoopMetrics t0 as, ∃ (i : Nat) (raw : GoSlice), as[i]? = some (some raw) ∧ m = attrMetric (t0 + i) := by
  induction as generalizing t0 with
  | nil => intro m hm; simp [decodeLoopMetrics] at hm
  | cons x as ih =>
    have hrec : ∀ m ∈ decodeLoopMetrics (t0 + 1) as, ∃ (i : Nat) (raw : GoSlice), (x :: as)[i]? = some (some raw) ∧ m = attrMetric (t0 + i) := by
      intro m hm
      obtain ⟨i, raw, h1, h2⟩ := ih (t0 + 1) m hm
      exact ⟨i + 1, raw, by simpa using h1, by rw [h2]; congr 1; omega⟩
    intro m hm
    cases x with
    | none => rw [decodeLoopMetrics] at hm; exact hrec m hm
    | some raw =>
      rw [decodeLoopMetrics] at hm
      rcases List.mem_append.1 hm with hm | hm
      · exact ⟨0, raw, by simp, switch_mem t0 _ m hm⟩
      · split at hm
        · simp at hm
        · exact hrec m hm

/-- C85. Whatever the record, nothing is counted except under the label of an attribute that is present. -/
theorem C85_only (r : ArchivalRecord) : ∀ m ∈ decodeMetrics r, ∃ t a, attr r t = some a ∧ m = attrMetric t := by
  have key : ∀ m ∈ decodeLoopMetrics 0 r.attrs, ∃ t a, attr r t = some a ∧ m = attrMetric t := by
    intro m hm
    obtain ⟨i, raw, h1, h2⟩ := loop_mem r.attrs 0 m hm
    refine ⟨i, raw.val, ?_, by rw [h2, Nat.zero_add]⟩
    show ((r.attrs[i]?).join).map (·.val) = _
    rw [h1]; rfl
  intro m hm
  unfold decodeMetrics at hm
  split at hm
  · simp at hm
  · split at hm
    · exact key m hm
    · split at hm
      · exact key m hm
      · simp at hm

/-- C85 violated: an MD5 signature, a mark of two bytes and an empty TOS are flagged as not fully parsed but not counted. -/
theorem C85_violated : ∀ x ∈ [(18, [1, 2]), (15, [1, 2]), (5, [])], ∃ r md s, decode r = .ok (md, s) ∧ attr r x.1 = some x.2 ∧ ¬ understood x.1 x.2
    ∧ s.notFullyParsed.toNat.testBit (x.1 - 1) = true ∧ decodeMetrics r = [] := by
  intro x hx
  simp only [List.mem_cons, List.not_mem_nil, or_false] at hx
  rcases hx with rfl | rfl | rfl
  · obtain ⟨md, s, h1, h2⟩ := of_decode (snapRec (List.replicate 18 none ++ [some ⟨[1, 2], []⟩])) (fun s => s.notFullyParsed.toNat.testBit 17) (by decide +kernel)
    exact ⟨_, md, s, h1, by decide +kernel, by simp [understood], h2, by decide +kernel⟩
  · obtain ⟨md, s, h1, h2⟩ := of_decode (snapRec (List.replicate 15 none ++ [some ⟨[1, 2], []⟩])) (fun s => s.notFullyParsed.toNat.testBit 14) (by decide +kernel)
    exact ⟨_, md, s, h1, by decide +kernel, by simp [understood], h2, by decide +kernel⟩
  · obtain ⟨md, s, h1, h2⟩ := of_decode (snapRec (List.replicate 5 none ++ [some ⟨[], []⟩])) (fun s => s.notFullyParsed.toNat.testBit 4) (by decide +kernel)
    exact ⟨_, md, s, h1, by decide +kernel, by simp [understood], h2, by decide +kernel⟩

example : decodeMetrics (snapRec [none, some ⟨List.replicate 17 1, []⟩, some ⟨List.replicate 104 1, []⟩, none, none, none, none, none, none, none, none, some ⟨[1], []⟩])
    = [.large "MemInfo", .skipped "INET_DIAG_SKV6ONLY"] := by decide +kernel

end TcpInfo
