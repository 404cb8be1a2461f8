import Verif.Lemmas.SaverSwap
/-!
# Effect of the end of a cycle and of the end of the run
-/

namespace TcpInfo
open Spec

theorem endConn_effect (env : Env) (hm : env.marshallers ≠ 0) (s : Saver) (k : UInt64) :
    ∃ s', s.endConn env k = some s'
    ∧ (∀ k', k' ≠ k → s'.conns.get k' = s.conns.get k')
    ∧ written s'.trace = written s.trace
    ∧ (∀ u, flowEvents u s'.trace = flowEvents u s.trace ++ (if u = env.uuid k then [false] else []))
    ∧ ((∀ c, s.conns.get k = some c → c.writer ≠ none) → s'.conns.get k = none)
    ∧ s'.stats = s.stats ∧ s'.closingStats = s.closingStats ∧ s'.closingTotals = s.closingTotals ∧ s'.cache = s.cache
    ∧ (GoMap.WF s.conns → GoMap.WF s'.conns) := by
  have hfl : ∀ (u : String), (flowEvent u ⟨env.now s.tick, .flowDeleted (env.wall (env.now s.tick)) (env.uuid k)⟩).toList = if u = env.uuid k then [false] else [] := by
    intro u
    simp only [flowEvent]
    by_cases hu : u = env.uuid k
    · simp [hu]
    · simp [hu, Ne.symm hu]
  unfold Saver.endConn
  simp only [if_neg hm]
  have hconns : ((s.readClock env).emit (.flowDeleted (env.wall (s.readClock env).clock) (env.uuid k))).conns = s.conns := rfl
  rw [hconns]
  cases hc : s.conns.get k with
  | none =>
    refine ⟨_, rfl, fun _ _ => rfl, ?_, ?_, fun _ => hc, rfl, rfl, rfl, rfl, id⟩
    · simp [Saver.emit, Saver.readClock, written_snoc, writtenOf]
    · intro u; simp only [Saver.emit, Saver.readClock, flowEvents_snoc, hfl]
  | some c =>
    simp only
    by_cases hw : c.writer.isSome
    · rw [if_pos hw]
      refine ⟨_, rfl, fun k' hne => GoMap.get_del_ne _ hne, ?_, ?_, fun _ => GoMap.get_del_self _ _, rfl, rfl, rfl, rfl, fun h => GoMap.wf_del h k⟩
      · simp only [Saver.emit, Saver.readClock, written_snoc, writtenOf]; simp
      · intro u
        simp only [Saver.emit, Saver.readClock, flowEvents_snoc, hfl]
        simp [flowEvent]
    · rw [if_neg hw]
      refine ⟨_, rfl, fun _ _ => rfl, ?_, ?_, fun h => ?_, rfl, rfl, rfl, rfl, id⟩
      · simp [Saver.emit, Saver.readClock, written_snoc, writtenOf]
      · intro u; simp only [Saver.emit, Saver.readClock, flowEvents_snoc, hfl]
      · have := h c rfl
        cases hx : c.writer with
        | none => exact absurd hx this
        | some _ => rw [hx] at hw; simp at hw

theorem finalStats_frame (s : Saver) (k : UInt64) (ar : ArchivalRecord) :
    (s.finalStats k ar).1.conns = s.conns ∧ (s.finalStats k ar).1.trace = s.trace ∧ (s.finalStats k ar).1.stats = s.stats
    ∧ (s.finalStats k ar).1.cache = s.cache := by
  unfold Saver.finalStats
  split
  · split <;> exact ⟨rfl, rfl, rfl, rfl⟩
  · exact ⟨rfl, rfl, rfl, rfl⟩

/-- The accounting part of an iteration over the residual map. -/
def Saver.acct (s : Saver) (k : UInt64) (ar : ArchivalRecord) : Saver × TcpStats := s.finalStats k ar

theorem finalStats_acct (s s' : Saver) (k : UInt64) (ar : ArchivalRecord) (h1 : s.closingStats = s'.closingStats) (h2 : s.closingTotals = s'.closingTotals) :
    (s.finalStats k ar).1.closingStats = (s'.finalStats k ar).1.closingStats ∧ (s.finalStats k ar).1.closingTotals = (s'.finalStats k ar).1.closingTotals
    ∧ (s.finalStats k ar).2 = (s'.finalStats k ar).2 := by
  unfold Saver.finalStats
  rw [h1, h2]
  split
  · split <;> exact ⟨by simp [h1], by simp [h2], rfl⟩
  · exact ⟨h1, h2, rfl⟩

theorem expire_effect (env : Env) (hm : env.marshallers ≠ 0) (hview : ∀ n r, env.view n r = r) (res : GoMap ArchivalRecord) (l : LoopState) (k : UInt64)
    (ar : ArchivalRecord) (hk : res.get k = some ar) :
    ∃ l', l.expire env res k = some l'
    ∧ (∀ k', k' ≠ k → l'.svr.conns.get k' = l.svr.conns.get k')
    ∧ written l'.svr.trace = written l.svr.trace
    ∧ (∀ u, flowEvents u l'.svr.trace = flowEvents u l.svr.trace ++ (if u = env.uuid k then [false] else []))
    ∧ ((∀ c, l.svr.conns.get k = some c → c.writer ≠ none) → l'.svr.conns.get k = none)
    ∧ l'.svr.stats = { l.svr.stats with expired := l.svr.stats.expired + 1 }
    ∧ l'.svr.closingStats = (l.svr.finalStats k ar).1.closingStats ∧ l'.svr.closingTotals = (l.svr.finalStats k ar).1.closingTotals
    ∧ l'.closed = ⟨l.closed.sent + (l.svr.finalStats k ar).2.sent, l.closed.received + (l.svr.finalStats k ar).2.received⟩
    ∧ l'.reported = l.reported ∧ l'.lastReportTime = l.lastReportTime
    ∧ (GoMap.WF l.svr.conns → GoMap.WF l'.svr.conns) := by
  unfold LoopState.expire
  rw [hk]
  simp only [hview]
  obtain ⟨f1, f2, f3, f4⟩ := finalStats_frame { l.svr with tick := l.svr.tick + 1 } k ar
  obtain ⟨g1, g2, g3⟩ := finalStats_acct { l.svr with tick := l.svr.tick + 1 } l.svr k ar rfl rfl
  obtain ⟨s', e1, e2, e3, e4, e5, e6, e7, e8, e9, e10⟩ := endConn_effect env hm ({ l.svr with tick := l.svr.tick + 1 }.finalStats k ar).1 k
  rw [e1]
  simp only
  rw [f1] at e2 e5 e10
  rw [f2] at e3 e4
  rw [f3] at e6
  refine ⟨_, rfl, e2, e3, e4, e5, ?_, ?_, ?_, ?_, rfl, rfl, e10⟩
  · show ({ s'.stats with expired := s'.stats.expired + 1 } : Counters) = _
    rw [e6]
  · show s'.closingStats = _
    rw [e7, g1]
  · show s'.closingTotals = _
    rw [e8, g2]
  · show (⟨_, _⟩ : TcpStats) = _
    rw [g3]

theorem expireAll_effect (env : Env) (hm : env.marshallers ≠ 0) (hview : ∀ n r, env.view n r = r) (res : GoMap ArchivalRecord) (ks : List UInt64)
    (hnd : ks.Nodup) (hks : ∀ k ∈ ks, ∃ r, res.get k = some r) (l : LoopState) :
    ∃ l', LoopState.expireAll env res ks l = some l'
    ∧ (∀ k, k ∉ ks → l'.svr.conns.get k = l.svr.conns.get k)
    ∧ written l'.svr.trace = written l.svr.trace
    ∧ (∀ k, flowEvents (env.uuid k) l'.svr.trace = flowEvents (env.uuid k) l.svr.trace ++ (if k ∈ ks then [false] else []))
    ∧ (∀ u, (∀ k, u ≠ env.uuid k) → flowEvents u l'.svr.trace = flowEvents u l.svr.trace)
    ∧ (∀ k ∈ ks, (∀ c, l.svr.conns.get k = some c → c.writer ≠ none) → l'.svr.conns.get k = none)
    ∧ l'.svr.stats = { l.svr.stats with expired := l.svr.stats.expired + ks.length }
    ∧ l'.reported = l.reported ∧ l'.lastReportTime = l.lastReportTime
    ∧ (GoMap.WF l.svr.conns → GoMap.WF l'.svr.conns) := by
  induction ks generalizing l with
  | nil => exact ⟨l, rfl, fun _ _ => rfl, rfl, fun _ => by simp, fun _ _ => rfl, by simp, rfl, rfl, rfl, id⟩
  | cons k ks ih =>
    obtain ⟨ar, har⟩ := hks k (by simp)
    obtain ⟨l1, a1, a2, a3, a4, a5, a6, -, -, -, a9, a10, a11⟩ := expire_effect env hm hview res l k ar har
    have hnd' := List.nodup_cons.1 hnd
    obtain ⟨l2, b1, b2, b3, b4, b4', b5, b6, b9, b10, b11⟩ := ih hnd'.2 (fun k' h => hks k' (by simp [h])) l1
    refine ⟨l2, ?_, ?_, by rw [b3, a3], ?_, ?_, ?_, ?_, by rw [b9, a9], by rw [b10, a10], fun h => b11 (a11 h)⟩
    · simp only [LoopState.expireAll, a1]; exact b1
    · intro k' hk'
      rw [List.mem_cons, not_or] at hk'
      rw [b2 k' hk'.2, a2 k' hk'.1]
    · intro k'
      rw [b4 k', a4]
      by_cases h : k' = k
      · subst h
        simp [hnd'.1]
      · have : env.uuid k' ≠ env.uuid k := fun e => h (env.uuid_inj _ _ e)
        simp [h, this]
    · intro u hu
      rw [b4' u hu, a4]
      simp [hu k]
    · intro k' hk' hc
      by_cases h : k' = k
      · subst h
        rw [b2 k' hnd'.1]
        exact a5 hc
      · refine b5 k' (by simpa [h] using hk') ?_
        rw [a2 k' h]; exact hc
    · rw [b6, a6]
      simp only [List.length_cons]
      congr 1; omega

theorem report_effect (l : LoopState) (t : Int) (s4 s6 r4 r6 : UInt64) :
    (l.report t s4 s6 r4 r6).svr.conns = l.svr.conns ∧ (l.report t s4 s6 r4 r6).svr.stats = l.svr.stats
    ∧ (l.report t s4 s6 r4 r6).svr.closingStats = l.svr.closingStats ∧ (l.report t s4 s6 r4 r6).svr.closingTotals = l.svr.closingTotals
    ∧ (l.report t s4 s6 r4 r6).closed = l.closed
    ∧ written (l.report t s4 s6 r4 r6).svr.trace = written l.svr.trace
    ∧ ∀ u, flowEvents u (l.report t s4 s6 r4 r6).svr.trace = flowEvents u l.svr.trace := by
  unfold LoopState.report
  split
  · simp only
    split <;> split <;>
      refine ⟨rfl, rfl, rfl, rfl, rfl, ?_, ?_⟩ <;> simp only [Saver.emit, written_snoc, writtenOf, flowEvents_snoc, flowEvent] <;> simp
  · exact ⟨rfl, rfl, rfl, rfl, rfl, rfl, fun _ => rfl⟩

/-- The connections that a cycle ends: reported in the previous one, not in the current one. -/
theorem residual_mem (h : List Call) (k : UInt64) :
    k ∈ (cacheAfter h).endCycle.2.keys ↔ (lastFor k (cycles h).1 ≠ none ∧ lastFor k (cycles h).2 = none) := by
  rw [GoMap.mem_keys_iff]
  show (∃ v, (cacheAfter h).previous.get k = some v) ↔ _
  rw [(cacheInv_after h).prev_get k]
  by_cases hc : lastFor k (cycles h).2 = none
  · rw [if_pos hc]
    cases lastFor k (cycles h).1 <;> simp [hc]
  · rw [if_neg hc]; simp [hc]

theorem residual_get (h : List Call) (k : UInt64) (r : ArchivalRecord) (hk : (cacheAfter h).endCycle.2.get k = some r) :
    lastFor k (cycles h).1 = some r ∧ lastFor k (cycles h).2 = none := by
  have hk : (cacheAfter h).previous.get k = some r := hk
  rw [(cacheInv_after h).prev_get k] at hk
  by_cases hc : lastFor k (cycles h).2 = none
  · rw [if_pos hc] at hk; exact ⟨hk, hc⟩
  · rw [if_neg hc] at hk; simp at hk

/-- Everything the end of a cycle does, except for the accounting. -/
theorem finish_effect (env : Env) (hm : env.marshallers ≠ 0) (hview : ∀ n r, env.view n r = r) (h : List Call) (l : LoopState)
    (hc : l.svr.cache = cacheAfter h) :
    ∃ l', l.finish env = some l'
    ∧ (∀ k, ¬ (lastFor k (cycles h).1 ≠ none ∧ lastFor k (cycles h).2 = none) → l'.svr.conns.get k = l.svr.conns.get k)
    ∧ written l'.svr.trace = written l.svr.trace
    ∧ (∀ k, flowEvents (env.uuid k) l'.svr.trace = flowEvents (env.uuid k) l.svr.trace
        ++ (if lastFor k (cycles h).1 ≠ none ∧ lastFor k (cycles h).2 = none then [false] else []))
    ∧ (∀ u, (∀ k, u ≠ env.uuid k) → flowEvents u l'.svr.trace = flowEvents u l.svr.trace)
    ∧ (∀ k, (lastFor k (cycles h).1 ≠ none ∧ lastFor k (cycles h).2 = none) → (∀ c, l.svr.conns.get k = some c → c.writer ≠ none) →
        l'.svr.conns.get k = none)
    ∧ l'.svr.stats = { l.svr.stats with expired := l.svr.stats.expired + (cacheAfter h).endCycle.2.keys.length }
    ∧ l'.reported = l.reported ∧ l'.lastReportTime = l.lastReportTime
    ∧ (GoMap.WF l.svr.conns → GoMap.WF l'.svr.conns) := by
  unfold LoopState.finish
  rw [hc]
  have hperm := env.order_perm l.svr.tick (cacheAfter h).endCycle.2.keys
  have hmem : ∀ k, k ∈ env.order l.svr.tick (cacheAfter h).endCycle.2.keys ↔ (lastFor k (cycles h).1 ≠ none ∧ lastFor k (cycles h).2 = none) := by
    intro k; rw [hperm.mem_iff, residual_mem]
  have hnd : (env.order l.svr.tick (cacheAfter h).endCycle.2.keys).Nodup := hperm.nodup_iff.2 (C30_endCycle h).1
  have hks : ∀ k ∈ env.order l.svr.tick (cacheAfter h).endCycle.2.keys, ∃ r, (cacheAfter h).endCycle.2.get k = some r := by
    intro k hk
    rw [hperm.mem_iff, GoMap.mem_keys_iff] at hk
    exact hk
  obtain ⟨l', a1, a2, a3, a4, a4', a5, a6, a9, a10, a11⟩ := expireAll_effect env hm hview _ _ hnd hks
    { l with svr := { l.svr with cache := (cacheAfter h).endCycle.1, tick := l.svr.tick + 1 } }
  refine ⟨l', a1, ?_, a3, ?_, a4', ?_, ?_, a9, a10, a11⟩
  · intro k hk; exact a2 k (fun hh => hk ((hmem k).1 hh))
  · intro k; rw [a4 k]
    by_cases hh : k ∈ env.order l.svr.tick (cacheAfter h).endCycle.2.keys
    · rw [if_pos hh, if_pos ((hmem k).1 hh)]
    · rw [if_neg hh, if_neg (fun x => hh ((hmem k).2 x))]
  · intro k hk hc'; exact a5 k ((hmem k).2 hk) hc'
  · rw [a6, hperm.length_eq]

theorem endAll_effect (env : Env) (hm : env.marshallers ≠ 0) (ks : List UInt64) (hnd : ks.Nodup) (s : Saver) :
    ∃ s', Saver.endAll env ks s = some s'
    ∧ written s'.trace = written s.trace
    ∧ (∀ k, flowEvents (env.uuid k) s'.trace = flowEvents (env.uuid k) s.trace ++ (if k ∈ ks then [false] else []))
    ∧ (∀ u, (∀ k, u ≠ env.uuid k) → flowEvents u s'.trace = flowEvents u s.trace) ∧ s'.stats = s.stats := by
  induction ks generalizing s with
  | nil => exact ⟨s, rfl, rfl, fun _ => by simp, fun _ _ => rfl, rfl⟩
  | cons k ks ih =>
    have hnd' := List.nodup_cons.1 hnd
    obtain ⟨s1, a1, a2, a3, a4, a5, a6, -⟩ := endConn_effect env hm s k
    obtain ⟨s2, b1, b2, b3, b4, b5⟩ := ih hnd'.2 s1
    refine ⟨s2, by simp only [Saver.endAll, a1]; exact b1, by rw [b2, a3], ?_, ?_, by rw [b5, a6]⟩
    · intro k'
      rw [b3 k', a4]
      by_cases h : k' = k
      · subst h; simp [hnd'.1]
      · have : env.uuid k' ≠ env.uuid k := fun e => h (env.uuid_inj _ _ e)
        simp [h, this]
    · intro u hu; rw [b4 u hu, a4]; simp [hu k]

theorem close_effect (env : Env) (hm : env.marshallers ≠ 0) (s : Saver) (hw : GoMap.WF s.conns) :
    ∃ s', s.close env = some s'
    ∧ written s'.trace = written s.trace
    ∧ (∀ k, flowEvents (env.uuid k) s'.trace = flowEvents (env.uuid k) s.trace ++ (if s.conns.get k ≠ none then [false] else []))
    ∧ (∀ u, (∀ k, u ≠ env.uuid k) → flowEvents u s'.trace = flowEvents u s.trace) ∧ s'.stats = s.stats := by
  have hperm := env.order_perm s.tick s.conns.keys
  obtain ⟨s', a1, a2, a3, a4, a5⟩ := endAll_effect env hm (env.order s.tick s.conns.keys) (hperm.nodup_iff.2 hw) { s with tick := s.tick + 1 }
  refine ⟨s'.emit .closeChans, by simp only [Saver.close, a1]; rfl, ?_, ?_, ?_, a5⟩
  · rw [← show written s'.trace = written s.trace from a2]
    simp [Saver.emit, written_snoc, writtenOf]
  · intro k
    have : (k ∈ env.order s.tick s.conns.keys) ↔ s.conns.get k ≠ none := by
      rw [hperm.mem_iff]
      have := GoMap.get_eq_none_iff s.conns k
      constructor
      · intro h1 h2; exact this.1 h2 h1
      · intro h1; exact Classical.not_not.1 (fun h2 => h1 (this.2 h2))
    have a3 := a3 k
    simp only [this] at a3
    rw [← a3]
    simp [Saver.emit, flowEvents_snoc, flowEvent]
  · intro u hu
    rw [← show flowEvents u s'.trace = flowEvents u s.trace from a4 u hu]
    simp [Saver.emit, flowEvents_snoc, flowEvent]

end TcpInfo
