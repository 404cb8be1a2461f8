import Verif.Lemmas.SaverQueue
/-!
# `swapAndQueue` in terms of the history of reports
-/

namespace TcpInfo
open Spec

theorem cycles_complete (h : List Call) : ∀ r, r ∈ (cycles h).1 ∨ r ∈ (cycles h).2 → complete r = true := by
  suffices ∀ (h : List Call) (p q : List ArchivalRecord), (∀ r, r ∈ p ∨ r ∈ q → complete r = true) → ∀ r,
      r ∈ (h.foldl (fun (p, c) call => match call with
        | .update r => (p, if complete r then c ++ [r] else c)
        | .endCycle => (c, [])) (p, q)).1 ∨ r ∈ (h.foldl (fun (p, c) call => match call with
        | .update r => (p, if complete r then c ++ [r] else c)
        | .endCycle => (c, [])) (p, q)).2 → complete r = true by
    exact this h [] [] (by simp)
  intro h
  induction h with
  | nil => intro p q hh; exact hh
  | cons c h ih =>
    intro p q hh
    cases c with
    | endCycle => exact ih q [] (fun r hr => hh r (by simpa using Or.inr (by simpa using hr)))
    | update x =>
      refine ih _ _ ?_
      intro r hr
      by_cases hc : complete x = true
      · simp only [hc, if_true] at hr
        rcases hr with hr | hr
        · exact hh r (Or.inl hr)
        · rcases List.mem_append.1 hr with hr | hr
          · exact hh r (Or.inr hr)
          · have : r = x := by simpa using hr
            rw [this]; exact hc
      · simp only [hc] at hr
        exact hh r hr

theorem lastFor_mem {k : UInt64} {l : List ArchivalRecord} {r : ArchivalRecord} (h : lastFor k l = some r) :
    r ∈ l ∧ cookie (r.rawIDM.getD []) = k := by
  unfold lastFor at h
  have := List.mem_of_getLast? h
  rw [List.mem_filter] at this
  exact ⟨this.1, by simpa using this.2⟩

theorem update_reference (h : List Call) (r : ArchivalRecord) (hr : complete r = true) :
    (cacheAfter h).update r = (cacheAfter (h ++ [.update r]), .ok (reference h r)) := by
  rw [cacheAfter_update]
  have := C29_update h r hr
  simp only at this
  rw [← show ((cacheAfter h).update r).2 = .ok (reference h r) from this]

theorem reference_mem {h : List Call} {r p : ArchivalRecord} (hp : reference h r = some p) : p ∈ (cycles h).1 ∧ ck p = ck r := by
  unfold reference at hp
  simp only at hp
  split at hp
  · exact lastFor_mem hp
  · simp at hp

/-- Effect of `recordClosing` on the fields it changes. -/
theorem recordClosing_frame (s : Saver) (k : UInt64) (pm old : ArchivalRecord) :
    (s.recordClosing k pm old).conns = s.conns ∧ (s.recordClosing k pm old).trace = s.trace ∧ (s.recordClosing k pm old).stats = s.stats
    ∧ (s.recordClosing k pm old).cache = s.cache := by
  unfold Saver.recordClosing
  split <;> exact ⟨rfl, rfl, rfl, rfl⟩

/-- The closing statistics after report `r`. -/
def closingAfter (s : Saver) (h : List Call) (r : ArchivalRecord) : Saver :=
  match reference h r with
  | none => s
  | some p => s.recordClosing (ck r) r p

/-- Everything `swapAndQueue` does. -/
theorem swap_effect (env : Env) (hview : ∀ n r, env.view n r = r) (h : List Call) (s : Saver) (hc : s.cache = cacheAfter h) (r : ArchivalRecord)
    (hr : complete r = true) (hi : InfoOK r) (hh : ∀ p ∈ (cycles h).1, InfoOK p) :
    ∃ s', s.swapAndQueue env r = some s'
    ∧ s'.cache = cacheAfter (h ++ [.update r])
    ∧ s'.stats.total = s.stats.total + 1 ∧ s'.stats.expired = s.stats.expired
    ∧ (reference h r = none → s'.stats.new = s.stats.new + 1 ∧ s'.stats.diff = s.stats.diff)
    ∧ (reference h r ≠ none → s'.stats.new = s.stats.new ∧ (Due h r → s'.stats.diff = s.stats.diff + 1) ∧ (¬ Due h r → s'.stats.diff = s.stats.diff))
    ∧ s'.closingStats = (closingAfter s h r).closingStats ∧ s'.closingTotals = (closingAfter s h r).closingTotals
    ∧ (∀ k', k' ≠ ck r → s'.conns.get k' = s.conns.get k')
    ∧ (¬ Due h r → s'.conns = s.conns ∧ s'.trace = s.trace)
    ∧ (Due h r → (written s'.trace = written s.trace ++ [r] ∨ written s'.trace = written s.trace)
        ∧ (∀ u, flowEvents u s'.trace = flowEvents u s.trace ++
            (if u = env.uuid (ck r) ∧ s.conns.get (ck r) = none ∧ ck r ≠ 0 ∧ 1 ≤ env.marshallers then [true] else []))
        ∧ ((∀ n, env.createOK n = true) → ck r ≠ 0 → 1 ≤ env.marshallers →
            written s'.trace = written s.trace ++ [r] ∧ ∃ c w, s'.conns.get (ck r) = some c ∧ c.writer = some w)) := by
  obtain ⟨idm, hidm, hck⟩ := cookieOf_parse hr
  have hup := update_reference h r hr
  have hqueue : ∀ s0 : Saver, ∃ s' e, s0.queue env r = some (s', e)
      ∧ (∀ k', k' ≠ ck r → s'.conns.get k' = s0.conns.get k')
      ∧ written s'.trace = written s0.trace ++ (if e = none then [r] else [])
      ∧ (e = none → ∃ c w, s'.conns.get (ck r) = some c ∧ c.writer = some w)
      ∧ (∀ u, flowEvents u s'.trace = flowEvents u s0.trace ++
        (if u = env.uuid (ck r) ∧ s0.conns.get (ck r) = none ∧ ck r ≠ 0 ∧ 1 ≤ env.marshallers then [true] else []))
      ∧ ((∀ n, env.createOK n = true) → ck r ≠ 0 → 1 ≤ env.marshallers → e = none) := by
    intro s0
    have := queue_effect env s0 r idm hidm
    rw [hck] at this
    exact this
  have fin : ∀ s' s0 : Saver, ∀ e : Option GoErr, s0.queue env r = some (s', e) → s0.trace = s.trace → s0.conns = s.conns →
      (∀ k', k' ≠ ck r → s'.conns.get k' = s0.conns.get k') →
      written s'.trace = written s0.trace ++ (if e = none then [r] else []) →
      (e = none → ∃ c w, s'.conns.get (ck r) = some c ∧ c.writer = some w) →
      (∀ u, flowEvents u s'.trace = flowEvents u s0.trace ++
        (if u = env.uuid (ck r) ∧ s0.conns.get (ck r) = none ∧ ck r ≠ 0 ∧ 1 ≤ env.marshallers then [true] else [])) →
      ((∀ n, env.createOK n = true) → ck r ≠ 0 → 1 ≤ env.marshallers → e = none) →
      (written s'.trace = written s.trace ++ [r] ∨ written s'.trace = written s.trace)
        ∧ (∀ u, flowEvents u s'.trace = flowEvents u s.trace ++
            (if u = env.uuid (ck r) ∧ s.conns.get (ck r) = none ∧ ck r ≠ 0 ∧ 1 ≤ env.marshallers then [true] else []))
        ∧ ((∀ n, env.createOK n = true) → ck r ≠ 0 → 1 ≤ env.marshallers →
            written s'.trace = written s.trace ++ [r] ∧ ∃ c w, s'.conns.get (ck r) = some c ∧ c.writer = some w) := by
    intro s' s0 e _ ht hcn h1 h2 h3 h4 h5
    refine ⟨?_, ?_, ?_⟩
    · rw [h2, ht]
      split
      · exact Or.inl rfl
      · exact Or.inr (by simp)
    · intro u; rw [h4 u, ht, hcn]
    · intro a b c
      have he := h5 a b c
      refine ⟨by rw [h2, ht, if_pos he], h3 he⟩
  unfold Saver.swapAndQueue
  simp only
  rw [hc, hup]
  cases href : reference h r with
  | none =>
    have hdue : Due h r := by intro p hp; rw [href] at hp; simp at hp
    simp only
    obtain ⟨s', e, q1, q2, q3, q4, q5, q6⟩ := hqueue { s with cache := cacheAfter (h ++ [.update r]), stats := { s.stats with total := s.stats.total + 1, new := s.stats.new + 1 } }
    obtain ⟨f1, f2, f3, f4⟩ := queue_cache env _ r s' e q1
    refine ⟨s', by rw [q1]; rfl, f1, by rw [f2], by rw [f2], fun _ => ⟨by rw [f2], by rw [f2]⟩, fun h => absurd rfl h,
      by rw [f3]; simp only [closingAfter, href], by rw [f4]; simp only [closingAfter, href], q2, fun h => absurd hdue h, fun _ => ?_⟩
    exact fin s' _ e q1 rfl rfl q2 q3 q4 q5 q6
  | some p =>
    simp only
    rw [hview, hidm]
    simp only
    obtain ⟨hpm, hpk⟩ := reference_mem href
    have hpc := cycles_complete h p (Or.inl hpm)
    obtain ⟨ch, hcmp, hch⟩ := compare_due r p hr hpc hi (hh p hpm)
    have hdue : Due h r ↔ ch ≠ .noMajorChange := by
      rw [hch]
      constructor
      · intro hd; exact hd p href
      · intro hd p' hp'
        rw [href] at hp'; injection hp' with hp'; subst hp'; exact hd
    rw [hcmp, hck]
    simp only
    have hca : ∀ s0 : Saver, s0.closingStats = s.closingStats → s0.closingTotals = s.closingTotals →
        (s0.recordClosing (ck r) r p).closingStats = (closingAfter s h r).closingStats
        ∧ (s0.recordClosing (ck r) r p).closingTotals = (closingAfter s h r).closingTotals := by
      intro s0 e1 e2
      simp only [closingAfter, href, Saver.recordClosing]
      split <;> simp [e1, e2]
    by_cases hcc : ch ≠ .noMajorChange
    · rw [if_pos hcc]
      generalize hs0 : ({ conns := s.conns, closingStats := s.closingStats, closingTotals := s.closingTotals, cache := cacheAfter (h ++ [Call.update r]), stats := { s.stats with total := s.stats.total + 1 }, tick := s.tick + 1, clock := s.clock, nextWriter := s.nextWriter, trace := s.trace } : Saver) = s0
      obtain ⟨z1, z2, z3, z4⟩ := recordClosing_frame s0 (ck r) r p
      obtain ⟨w1, w2⟩ := hca s0 (by rw [← hs0]) (by rw [← hs0])
      obtain ⟨s', e, q1, q2, q3, q4, q5, q6⟩ := hqueue { s0.recordClosing (ck r) r p with stats := { (s0.recordClosing (ck r) r p).stats with diff := (s0.recordClosing (ck r) r p).stats.diff + 1 } }
      obtain ⟨f1, f2, f3, f4⟩ := queue_cache env _ r s' e q1
      have t1 : s0.trace = s.trace := by rw [← hs0]
      have t2 : s0.conns = s.conns := by rw [← hs0]
      have t3 : s0.stats = { s.stats with total := s.stats.total + 1 } := by rw [← hs0]
      refine ⟨s', by rw [q1]; rfl, ?_, ?_, ?_, fun h => by simp at h, fun _ => ⟨?_, fun _ => ?_, fun hn => absurd (hdue.2 hcc) hn⟩, ?_, ?_, ?_, fun hn => absurd (hdue.2 hcc) hn, fun _ => ?_⟩
      · rw [f1]; simp only [z4]; rw [← hs0]
      · rw [f2]; simp only [z3, t3]
      · rw [f2]; simp only [z3, t3]
      · rw [f2]; simp only [z3, t3]
      · rw [f2]; simp only [z3, t3]
      · rw [f3]; exact w1
      · rw [f4]; exact w2
      · intro k' hne; rw [q2 k' hne]; simp only [z1, t2]
      · exact fin s' _ e q1 (z2.trans t1) (z1.trans t2) q2 q3 q4 q5 q6
    · rw [if_neg hcc]
      generalize hs0 : ({ conns := s.conns, closingStats := s.closingStats, closingTotals := s.closingTotals, cache := cacheAfter (h ++ [Call.update r]), stats := { s.stats with total := s.stats.total + 1 }, tick := s.tick + 1, clock := s.clock, nextWriter := s.nextWriter, trace := s.trace } : Saver) = s0
      obtain ⟨z1, z2, z3, z4⟩ := recordClosing_frame s0 (ck r) r p
      obtain ⟨w1, w2⟩ := hca s0 (by rw [← hs0]) (by rw [← hs0])
      have t1 : s0.trace = s.trace := by rw [← hs0]
      have t2 : s0.conns = s.conns := by rw [← hs0]
      have t3 : s0.stats = { s.stats with total := s.stats.total + 1 } := by rw [← hs0]
      refine ⟨_, rfl, ?_, ?_, ?_, fun h => by simp at h, fun _ => ⟨?_, fun hd => absurd (hdue.1 hd) hcc, fun _ => ?_⟩, w1, w2, ?_, fun _ => ⟨z1.trans t2, z2.trans t1⟩, fun hd => absurd (hdue.1 hd) hcc⟩
      · rw [z4, ← hs0]
      · rw [z3, t3]
      · rw [z3, t3]
      · rw [z3, t3]
      · rw [z3, t3]
      · intro k' _; rw [z1, t2]

end TcpInfo
