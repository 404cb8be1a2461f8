import Verif.Model.Metrics
import Verif.Spec.Metrics
import Verif.Lemmas.SaverAcct
import Verif.Props.SaverRuns
import Verif.Props.SaverStats
/-!
# Metrics and trace
-/

namespace TcpInfo
open Spec

/-- The metric that belongs to an action. -/
def actMetric (events : Bool) (a : Stamped) : Option Metric :=
  match a.act with
  | .flowCreated _ _ _ => if events then some (.flowEvent "open") else none
  | .openFile _ _ _ => some .newFile
  | .observeSent n => some (.sendRate n)
  | .observeReceived n => some (.receiveRate n)
  | _ => none

/-- The metrics that belong to an action. -/
def Metric.traced : Metric → Bool
  | .newFile | .flowEvent _ | .sendRate _ | .receiveRate _ => true
  | _ => false

/-- The metrics of a trace. -/
def traceMetrics (events : Bool) (tr : List Stamped) : List Metric := tr.filterMap (actMetric events)

theorem traceMetrics_snoc (ev : Bool) (tr : List Stamped) (a : Stamped) : traceMetrics ev (tr ++ [a]) = traceMetrics ev tr ++ (actMetric ev a).toList := by
  unfold traceMetrics
  rw [List.filterMap_append]
  cases h : actMetric ev a <;> simp [h]

theorem flowCreated_traced (ev : Bool) : (flowCreatedMetrics ev).filter Metric.traced = if ev then [.flowEvent "open"] else [] := by
  cases ev <;> rfl

theorem getConn_metrics (ev : Bool) (env : Env) (s : Saver) (k : UInt64) (idm : InetDiagMsg) (t : Int) :
    traceMetrics ev (s.getConn env k idm t).1.trace
      = traceMetrics ev s.trace ++ (getConnMetrics ev (s.conns.get k)).filter Metric.traced := by
  unfold Saver.getConn
  cases hg : s.conns.get k with
  | some c => simp [getConnMetrics]
  | none =>
    simp only [Saver.emit, Saver.readClock, traceMetrics_snoc, actMetric, getConnMetrics, flowCreated_traced]
    cases ev <;> simp

theorem queue_metrics (ev : Bool) (env : Env) (s : Saver) (msg : ArchivalRecord) (s' : Saver) (e : Option GoErr) (h : s.queue env msg = some (s', e)) :
    traceMetrics ev s'.trace = traceMetrics ev s.trace ++ (queueMetrics ev env s msg).filter Metric.traced := by
  unfold Saver.queue at h
  unfold queueMetrics
  split at h
  · simp at h
  · simp at h
  · rename_i idm hp
    simp only [hp] at h ⊢
    split at h
    · rename_i h0
      injection h with h; injection h with h1 h2; subst h1; rw [if_pos h0]; simp
    · rename_i h0
      rw [if_neg h0]
      split at h
      · rename_i hm
        injection h with h; injection h with h1 h2; subst h1; rw [if_pos hm]; simp
      · rename_i hm
        rw [if_neg hm]
        have g1 := getConn_metrics ev env s (cookieOf idm) idm msg.timestamp
        generalize s.getConn env (cookieOf idm) idm msg.timestamp = sc at h g1 ⊢
        have g2 : traceMetrics ev (sc.1.closeExpired env (cookieOf idm) sc.2).1.trace = traceMetrics ev sc.1.trace := by
          simp only [Saver.closeExpired]
          split
          · simp [Saver.emit, Saver.readClock, traceMetrics_snoc, actMetric]
          · rfl
        generalize sc.1.closeExpired env (cookieOf idm) sc.2 = sc2 at h g2 ⊢
        have g3 : traceMetrics ev (if sc2.2.writer = none then sc2.1.rotate env sc2.2 else (sc2.1, sc2.2, none)).1.trace
            = traceMetrics ev sc2.1.trace ++ (if sc2.2.writer = none then rotateMetrics env sc2.1 sc2.2 else []).filter Metric.traced := by
          split
          · have hd : (sc2.1.rotateDir env sc2.2).1.trace = sc2.1.trace := by unfold Saver.rotateDir; split <;> rfl
            simp only [Saver.rotate, rotateMetrics]
            split
            · simp only [hd]; simp
            · simp only [Saver.emit, traceMetrics_snoc, actMetric, hd]
              rfl
          · simp
        generalize (if sc2.2.writer = none then sc2.1.rotate env sc2.2 else (sc2.1, sc2.2, none)) = sce at h g3 ⊢
        simp only [List.filter_append]
        split at h
        · injection h with h; injection h with h1 h2; subst h1
          rw [g3, g2, g1, List.append_assoc]
        · injection h with h; injection h with h1 h2; subst h1
          simp only [Saver.emit, traceMetrics_snoc, actMetric]
          rw [g3, g2, g1, List.append_assoc]; simp

theorem queue_no_snapshot (ev : Bool) (env : Env) (s : Saver) (msg : ArchivalRecord) : (queueMetrics ev env s msg).filter (fun m => !m.traced) = [] := by
  have h1 : (flowCreatedMetrics ev).filter (fun m => !m.traced) = [] := by cases ev <;> rfl
  have h2 : ∀ s c, (rotateMetrics env s c).filter (fun m => !m.traced) = [] := by
    intro s c; unfold rotateMetrics; split <;> rfl
  unfold queueMetrics
  split
  · simp only
    split
    · rfl
    · split
      · rfl
      · rw [List.filter_append]
        have a : ∀ o : Option Conn, (getConnMetrics ev o).filter (fun m : Metric => !m.traced) = [] := by
          intro o; cases o
          · exact h1
          · rfl
        rw [a]
        split
        · rw [h2]; rfl
        · rfl
  · rfl

/-- What a report of a connection does to traced metrics, and how often it is counted as a snapshot. -/
theorem swap_metrics (ev : Bool) (env : Env) (s : Saver) (r : ArchivalRecord) (s' : Saver) (h : s.swapAndQueue env r = some s') :
    traceMetrics ev s'.trace = traceMetrics ev s.trace ++ (swapMetrics ev env s r).filter Metric.traced
    ∧ (swapMetrics ev env s r).filter (fun m => !m.traced) = List.replicate ((s'.stats.new + s'.stats.diff) - (s.stats.new + s.stats.diff)) .snapshot
    ∧ s.stats.new + s.stats.diff ≤ s'.stats.new + s'.stats.diff := by
  have hcl : ∀ (s0 : Saver) k old, (s0.recordClosing k r old).stats = s0.stats ∧ (s0.recordClosing k r old).trace = s0.trace := by
    intro s0 k old; unfold Saver.recordClosing; split <;> exact ⟨rfl, rfl⟩
  have hq : ∀ s0 : Saver, (s0.queue env r).map (·.1) = some s' → s0.trace = s.trace → s0.stats.new + s0.stats.diff = s.stats.new + s.stats.diff + 1 →
      traceMetrics ev s'.trace = traceMetrics ev s.trace ++ (Metric.snapshot :: queueMetrics ev env s0 r).filter Metric.traced
      ∧ (Metric.snapshot :: queueMetrics ev env s0 r).filter (fun m => !m.traced)
          = List.replicate ((s'.stats.new + s'.stats.diff) - (s.stats.new + s.stats.diff)) .snapshot
      ∧ s.stats.new + s.stats.diff ≤ s'.stats.new + s'.stats.diff := by
    intro s0 he ht hs
    obtain ⟨⟨s1, e⟩, hq, rfl⟩ := Option.map_eq_some_iff.1 he
    have hst := (queue_cache env _ r _ e hq).2.1
    refine ⟨?_, ?_, ?_⟩
    · rw [queue_metrics ev env s0 r s1 e hq, ht]; rfl
    · simp only [hst, hs]
      rw [List.filter_cons]
      have : (!Metric.traced .snapshot) = true := rfl
      rw [if_pos this, queue_no_snapshot]
      simp
    · simp only [hst, hs]; omega
  unfold Saver.swapAndQueue at h
  unfold swapMetrics
  simp only at h ⊢
  generalize s.cache.update r = u at h ⊢
  obtain ⟨c, res⟩ := u
  cases res with
  | panic => simp at h
  | err e => simp only at h ⊢; injection h with h; subst h; simp
  | ok o =>
    cases o with
    | none => simp only at h ⊢; exact hq _ h rfl (by simp only; omega)
    | some cached =>
      simp only at h ⊢
      cases hp : parseIDM r.raw with
      | panic => rw [hp] at h; simp at h
      | err e => rw [hp] at h; simp only at h ⊢; injection h with h; subst h; simp
      | ok idm =>
        rw [hp] at h
        simp only at h ⊢
        cases hc : compareRecords r (some (env.view s.tick cached)) with
        | panic => rw [hc] at h; simp at h
        | err e => rw [hc] at h; simp only at h ⊢; injection h with h; subst h; simp [hcl]
        | ok ch =>
          rw [hc] at h
          simp only at h ⊢
          split
          · rename_i hne
            rw [if_pos hne] at h
            exact hq _ h (by simp only [hcl]) (by simp only [hcl]; omega)
          · rename_i hne
            rw [if_neg hne] at h
            injection h with h; subst h; simp [hcl]

theorem replicate_split (a b c : Nat) (h1 : a ≤ b) (h2 : b ≤ c) (x : Metric) : List.replicate (b - a) x ++ List.replicate (c - b) x = List.replicate (c - a) x := by
  rw [List.replicate_append_replicate]; congr 1; omega

theorem handle_metrics (ev : Bool) (env : Env) (t : Int) (msgs : List (Option NetlinkMessage)) (s : Saver) (a b : UInt64) (s' : Saver) (x y : UInt64)
    (h : s.handleType env t msgs a b = some (s', x, y)) :
    traceMetrics ev s'.trace = traceMetrics ev s.trace ++ (handleMetrics ev env t msgs s).filter Metric.traced
    ∧ (handleMetrics ev env t msgs s).filter (fun m => !m.traced) = List.replicate ((s'.stats.new + s'.stats.diff) - (s.stats.new + s.stats.diff)) .snapshot
    ∧ s.stats.new + s.stats.diff ≤ s'.stats.new + s'.stats.diff := by
  induction msgs generalizing s a b with
  | nil => simp only [Saver.handleType] at h; injection h with h; injection h with h; subst h; simp [handleMetrics]
  | cons m msgs ih =>
    cases m with
    | none => simp only [Saver.handleType] at h; rw [handleMetrics]; exact ih s a b h
    | some m =>
      simp only [Saver.handleType] at h
      rw [handleMetrics]
      cases hm : makeArchivalRecord m env.exclude with
      | panic => rw [hm] at h; simp at h
      | err e => rw [hm] at h; simp only at h ⊢; exact ih s a b h
      | ok o =>
        cases o with
        | none => rw [hm] at h; simp only at h ⊢; exact ih s a b h
        | some ar =>
          rw [hm] at h
          simp only at h ⊢
          cases hs : s.swapAndQueue env { ar with timestamp := t } with
          | none => rw [hs] at h; simp at h
          | some s1 =>
            rw [hs] at h
            simp only at h ⊢
            obtain ⟨a1, a2, a3⟩ := swap_metrics ev env s _ s1 hs
            obtain ⟨b1, b2, b3⟩ := ih s1 _ _ h
            refine ⟨?_, ?_, by omega⟩
            · rw [b1, a1, List.filter_append, List.append_assoc]
            · rw [List.filter_append, a2, b2, replicate_split _ _ _ a3 b3]

theorem endConn_metrics (ev : Bool) (env : Env) (s : Saver) (k : UInt64) (s' : Saver) (h : s.endConn env k = some s') :
    traceMetrics ev s'.trace = traceMetrics ev s.trace ++ endConnMetrics ev ∧ s'.stats = s.stats := by
  unfold Saver.endConn at h
  simp only at h
  split at h
  · simp at h
  · have e0 : endConnMetrics ev = [] := rfl
    rw [e0]
    split at h
    · split at h
      · injection h with h; subst h; simp only [Saver.emit, Saver.readClock, traceMetrics_snoc, actMetric, Option.toList, List.append_nil, and_self]
      · injection h with h; subst h; simp [Saver.emit, Saver.readClock, traceMetrics_snoc, actMetric]
    · injection h with h; subst h; simp [Saver.emit, Saver.readClock, traceMetrics_snoc, actMetric]

theorem endAll_metrics (ev : Bool) (env : Env) (ks : List UInt64) (s s' : Saver) (h : Saver.endAll env ks s = some s') :
    traceMetrics ev s'.trace = traceMetrics ev s.trace ++ ks.flatMap (fun _ => endConnMetrics ev) := by
  induction ks generalizing s with
  | nil => simp only [Saver.endAll] at h; injection h with h; subst h; simp
  | cons k ks ih =>
    simp only [Saver.endAll] at h
    obtain ⟨s1, h1, h2⟩ := Option.bind_eq_some_iff.1 h
    rw [ih s1 h2, (endConn_metrics ev env s k s1 h1).1, List.flatMap_cons, List.append_assoc]

theorem expireAll_metrics (ev : Bool) (env : Env) (res : GoMap ArchivalRecord) (ks : List UInt64) (hks : ∀ k ∈ ks, ∃ r, res.get k = some r) (l l' : LoopState)
    (h : LoopState.expireAll env res ks l = some l') :
    traceMetrics ev l'.svr.trace = traceMetrics ev l.svr.trace ++ ks.flatMap (fun _ => endConnMetrics ev)
    ∧ l'.svr.stats.new = l.svr.stats.new ∧ l'.svr.stats.diff = l.svr.stats.diff ∧ l'.lastReportTime = l.lastReportTime
    ∧ l'.reported = l.reported := by
  induction ks generalizing l with
  | nil => simp only [LoopState.expireAll] at h; injection h with h; subst h; simp
  | cons k ks ih =>
    simp only [LoopState.expireAll] at h
    obtain ⟨l1, h1, h2⟩ := Option.bind_eq_some_iff.1 h
    obtain ⟨a1, a2, a3, a4, a5⟩ := ih (fun k' hk' => hks k' (by simp [hk'])) l1 h2
    obtain ⟨ar, har⟩ := hks k (by simp)
    unfold LoopState.expire at h1
    rw [har] at h1
    simp only at h1
    split at h1
    · simp at h1
    · rename_i s1 hs
      injection h1 with h1; subst h1
      obtain ⟨b1, b2⟩ := endConn_metrics ev env _ k s1 hs
      have f := finalStats_frame { l.svr with tick := l.svr.tick + 1 } k (env.view l.svr.tick ar)
      refine ⟨?_, ?_, ?_, ?_, ?_⟩
      · rw [a1, List.flatMap_cons, ← List.append_assoc]
        congr 1
        simp only [b1]
        rw [f.2.1]
      · rw [a2]; simp only [b2, (finalStats_frame _ _ _).2.2.1]
      · rw [a3]; simp only [b2, (finalStats_frame _ _ _).2.2.1]
      · rw [a4]
      · rw [a5]

theorem direction_traced (total reported : UInt64) (less exceeds : String) (f : UInt64 → Metric) (hf : ∀ n, (f n).traced = true) :
    (directionMetrics total reported less exceeds f).filter Metric.traced = (if skipReport total reported then [] else [f (total - reported)]) := by
  unfold directionMetrics
  split
  · split <;> rfl
  · simp [hf]

theorem report_metrics (ev : Bool) (l : LoopState) (t : Int) (s4 s6 r4 r6 : UInt64) :
    traceMetrics ev (l.report t s4 s6 r4 r6).svr.trace = traceMetrics ev l.svr.trace ++ (reportMetrics l t s4 s6 r4 r6).filter Metric.traced := by
  unfold LoopState.report reportMetrics
  split
  · rw [List.filter_append, direction_traced _ _ _ _ _ (fun _ => rfl), direction_traced _ _ _ _ _ (fun _ => rfl)]
    simp only
    generalize skipReport (l.closed.sent + l.svr.closingTotals.sent + s4 + s6) l.reported.sent = a
    have e : ∀ x : LoopState, x = (if a = true then l
        else { l with svr := l.svr.emit (.observeSent (l.closed.sent + l.svr.closingTotals.sent + s4 + s6 - l.reported.sent)),
                      reported := { l.reported with sent := l.closed.sent + l.svr.closingTotals.sent + s4 + s6 } }) → x.reported.received = l.reported.received := by
      rintro x rfl; cases a <;> rfl
    rw [e _ rfl]
    cases a <;> cases skipReport (l.closed.received + l.svr.closingTotals.received + r4 + r6) l.reported.received <;>
      simp [Saver.emit, traceMetrics, actMetric]
  · simp

/-- The metrics that a message can give rise to. -/
def Metric.ofMessage (m : Metric) : Prop := m = .snapshot ∨ m = .newFile ∨ m = .flowEvent "open"

theorem queue_mem (ev : Bool) (env : Env) (s : Saver) (r : ArchivalRecord) : ∀ m ∈ queueMetrics ev env s r, m.ofMessage := by
  have h1 : ∀ o, ∀ m ∈ getConnMetrics ev o, m.ofMessage := by
    intro o m hm
    cases o with
    | some c => simp [getConnMetrics] at hm
    | none => cases ev <;> simp [getConnMetrics, flowCreatedMetrics] at hm; exact Or.inr (Or.inr hm)
  have h2 : ∀ s c, ∀ m ∈ rotateMetrics env s c, m.ofMessage := by
    intro s c m hm
    unfold rotateMetrics at hm
    split at hm
    · simp at hm
    · simp at hm; exact Or.inr (Or.inl hm)
  intro m hm
  unfold queueMetrics at hm
  split at hm
  · simp only at hm
    split at hm
    · simp at hm
    · split at hm
      · simp at hm
      · rcases List.mem_append.1 hm with hm | hm
        · exact h1 _ m hm
        · split at hm
          · exact h2 _ _ m hm
          · simp at hm
  · simp at hm

theorem swap_mem (ev : Bool) (env : Env) (s : Saver) (r : ArchivalRecord) : ∀ m ∈ swapMetrics ev env s r, m.ofMessage := by
  have h : ∀ s0, ∀ m ∈ Metric.snapshot :: queueMetrics ev env s0 r, m.ofMessage := by
    intro s0 m hm
    rcases List.mem_cons.1 hm with hm | hm
    · exact Or.inl hm
    · exact queue_mem ev env s0 r m hm
  intro m hm
  unfold swapMetrics at hm
  simp only at hm
  split at hm
  · exact h _ m hm
  · split at hm
    · split at hm
      · split at hm
        · exact h _ m hm
        · simp at hm
      · simp at hm
    · simp at hm
  · simp at hm

theorem handle_mem (ev : Bool) (env : Env) (t : Int) (msgs : List (Option NetlinkMessage)) (s : Saver) : ∀ m ∈ handleMetrics ev env t msgs s, m.ofMessage := by
  induction msgs generalizing s with
  | nil => intro m hm; simp [handleMetrics] at hm
  | cons x msgs ih =>
    cases x with
    | none => rw [handleMetrics]; exact ih s
    | some x =>
      intro m hm
      rw [handleMetrics] at hm
      split at hm
      · simp only at hm
        split at hm
        · exact swap_mem _ _ _ _ m hm
        · rcases List.mem_append.1 hm with hm | hm
          · exact swap_mem _ _ _ _ m hm
          · exact ih _ m hm
      · simp at hm
      · exact ih s m hm

theorem count_snapshot (l : List Metric) : l.count .snapshot = (l.filter (fun m => !m.traced)).count .snapshot := by
  rw [List.count_filter rfl]

/-- The metrics of a block, apart from those that belong to an action. -/
theorem block_metrics (ev : Bool) (env : Env) (l : LoopState) (b : MessageBlock) (l' : LoopState) (h : l.block env b = some l') :
    traceMetrics ev l'.svr.trace = traceMetrics ev l.svr.trace ++ (blockMetrics ev env l b).filter Metric.traced
    ∧ ∃ s l1 s4 s6 r4 r6, l.svr.swapAll env (reports env.exclude b) = some s ∧ l1.lastReportTime = l.lastReportTime
      ∧ l1.reported = l.reported ∧ s4 + s6 = sumSent (reports env.exclude b) ∧ r4 + r6 = sumReceived (reports env.exclude b)
      ∧ l' = l1.report b.v4Time s4 s6 r4 r6
      ∧ l.svr.stats.new + l.svr.stats.diff ≤ l'.svr.stats.new + l'.svr.stats.diff
      ∧ ∃ pre, blockMetrics ev env l b = pre ++ .cacheSize s.cache.current.length :: reportMetrics l1 b.v4Time s4 s6 r4 r6
        ∧ (∀ m ∈ pre, m.ofMessage)
        ∧ pre.count .snapshot = (l'.svr.stats.new + l'.svr.stats.diff) - (l.svr.stats.new + l.svr.stats.diff) := by
  unfold LoopState.block at h
  unfold blockMetrics
  cases h4 : l.svr.handleType env b.v4Time b.v4Messages 0 0 with
  | none => rw [h4] at h; simp at h
  | some p =>
    obtain ⟨s, s4, r4⟩ := p
    rw [h4] at h
    simp only at h ⊢
    cases h6 : s.handleType env b.v6Time b.v6Messages 0 0 with
    | none => rw [h6] at h; simp at h
    | some p =>
      obtain ⟨s1, s6, r6⟩ := p
      rw [h6] at h
      simp only at h ⊢
      cases he : LoopState.expireAll env s1.cache.endCycle.2 (env.order s1.tick s1.cache.endCycle.2.keys)
          { l with svr := { s1 with cache := s1.cache.endCycle.1, tick := s1.tick + 1 } } with
      | none => rw [he] at h; simp at h
      | some l1 =>
        rw [he] at h
        simp only at h ⊢
        injection h with h; subst h
        obtain ⟨a1, a2, a3⟩ := handle_metrics ev env _ _ _ _ _ _ _ _ h4
        obtain ⟨b1, b2, b3⟩ := handle_metrics ev env _ _ _ _ _ _ _ _ h6
        obtain ⟨c1, c2, c3, c4, c5⟩ := expireAll_metrics ev env s1.cache.endCycle.2 _
          (fun k hk => (GoMap.mem_keys_iff _ _).1 ((env.order_perm _ _).mem_iff.1 hk)) _ _ he
        have e0 : ∀ ks : List UInt64, ks.flatMap (fun _ => endConnMetrics ev) = [] := by
          intro ks; induction ks with
          | nil => rfl
          | cons k ks ih => rw [List.flatMap_cons, ih]; rfl
        obtain ⟨x, x2, x3⟩ := handleType_swapAll env _ _ _ _ _ _ _ _ h4
        obtain ⟨y, y2, y3⟩ := handleType_swapAll env _ _ _ _ _ _ _ _ h6
        simp only at c1 c2 c3 c4 c5
        have hst := (report_effect l1 b.v4Time s4 s6 r4 r6).2.1
        refine ⟨?_, s1, l1, s4, s6, r4, r6, ?_, c4, c5, ?_, ?_, rfl, ?_, handleMetrics ev env b.v4Time b.v4Messages l.svr ++ handleMetrics ev env b.v6Time b.v6Messages s, ?_, ?_, ?_⟩
        · rw [report_metrics, c1, b1, a1, e0]
          simp only [List.filter_append, endCycleMetrics, List.append_assoc, List.append_nil]
          rfl
        · unfold reports; rw [swapAll_append, x]; exact y
        · unfold reports; rw [sumSent_append, x2, y2]; simp
        · unfold reports; rw [sumReceived_append, x3, y3]; simp
        · rw [hst, c2, c3]; omega
        · rw [e0]; simp [endCycleMetrics]
        · intro m hm
          rcases List.mem_append.1 hm with hm | hm <;> exact handle_mem _ _ _ _ _ m hm
        · rw [List.count_append, count_snapshot, count_snapshot (handleMetrics _ _ _ b.v6Messages _), a2, b2, hst, c2, c3, List.count_replicate_self, List.count_replicate_self]
          omega

end TcpInfo
