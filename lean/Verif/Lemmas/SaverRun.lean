import Verif.Lemmas.SaverEnd
import Verif.Lemmas.SaverFiles
/-!
# Invariants of whole runs
-/

namespace TcpInfo
open Spec

/-- What holds after every history in which all records are `InfoOK`. -/
structure RunInv (h : List Call) (l : LoopState) : Prop where
  cache : l.svr.cache = cacheAfter h
  info : ∀ r, r ∈ (cycles h).1 ∨ r ∈ (cycles h).2 → InfoOK r

theorem runInv_update {env : Env} (hview : ∀ n r, env.view n r = r) {h : List Call} {l : LoopState} (hi : RunInv h l) {r : ArchivalRecord}
    (hr : complete r = true) (hq : InfoOK r) {s' : Saver} (hs : l.svr.swapAndQueue env r = some s') :
    RunInv (h ++ [.update r]) { l with svr := s' } := by
  obtain ⟨s1, e1, e2, -⟩ := swap_effect env hview h l.svr hi.cache r hr hq (fun p hp => hi.info p (Or.inl hp))
  have : s1 = s' := Option.some.inj (e1.symm.trans hs)
  subst this
  refine ⟨e2, ?_⟩
  rw [cycles_update, if_pos hr]
  rintro x (hx | hx)
  · exact hi.info x (Or.inl hx)
  · rcases List.mem_append.1 hx with hx | hx
    · exact hi.info x (Or.inr hx)
    · have : x = r := by simpa using hx
      subst this; exact hq

theorem runInv_endCycle {env : Env} {h : List Call} {l l1 : LoopState} (hi : RunInv h l) (hf : l.finish env = some l1) (t : Int) (s4 s6 r4 r6 : UInt64) :
    RunInv (h ++ [.endCycle]) (l1.report t s4 s6 r4 r6) := by
  refine ⟨?_, ?_⟩
  · rw [report_cache, finish_cache env l l1 hf, hi.cache, cacheAfter_endCycle]
  · rw [cycles_endCycle]
    rintro x (hx | hx)
    · exact hi.info x (Or.inr hx)
    · simp at hx

theorem runInv_new : RunInv [] newLoop := ⟨rfl, by simp [cycles]⟩

/-- `run_induct` with `RunInv` available. -/
theorem run_induct' (env : Env) (hview : ∀ n r, env.view n r = r) (P : List Call → LoopState → Prop) (Q : ArchivalRecord → Prop) (h0 : P [] newLoop)
    (hu : ∀ h l r s', complete r = true → InfoOK r → Q r → RunInv h l → P h l → l.svr.swapAndQueue env r = some s' →
      P (h ++ [.update r]) { l with svr := s' })
    (he : ∀ h l l1 t s4 s6 r4 r6, RunInv h l → P h l → l.finish env = some l1 → s4 + s6 = sumSent (cycles h).2 → r4 + r6 = sumReceived (cycles h).2 →
      P (h ++ [.endCycle]) (l1.report t s4 s6 r4 r6))
    (bs : List MessageBlock) (hI : ∀ b ∈ bs, AllInfoOK env.exclude b) (hQ : ∀ b ∈ bs, ∀ r ∈ reports env.exclude b, Q r) (l : LoopState)
    (hr : runBlocks env bs = some l) : RunInv (history env.exclude bs) l ∧ P (history env.exclude bs) l := by
  refine run_induct env (fun h l => RunInv h l ∧ P h l) (fun r => InfoOK r ∧ Q r) ⟨runInv_new, h0⟩ ?_ ?_ bs (fun b hb r hr => ⟨hI b hb r hr, hQ b hb r hr⟩) l hr
  · rintro h l r s' hr ⟨hq, hq'⟩ ⟨hi, hp⟩ hs
    exact ⟨runInv_update hview hi hr hq hs, hu h l r s' hr hq hq' hi hp hs⟩
  · rintro h l l1 t s4 s6 r4 r6 ⟨hi, hp⟩ hf e1 e2
    exact ⟨runInv_endCycle hi hf t s4 s6 r4 r6, he h l l1 t s4 s6 r4 r6 hi hp hf e1 e2⟩

/-- The run does not crash. -/
theorem swapAll_total (env : Env) (hview : ∀ n r, env.view n r = r) (rs : List ArchivalRecord) (hrs : ∀ r ∈ rs, complete r = true ∧ InfoOK r)
    (h : List Call) (l : LoopState) (hi : RunInv h l) : ∃ s', l.svr.swapAll env rs = some s' ∧ RunInv (h ++ rs.map .update) { l with svr := s' } := by
  induction rs generalizing h l with
  | nil => exact ⟨l.svr, rfl, by simpa using hi⟩
  | cons r rs ih =>
    have hr := hrs r (by simp)
    obtain ⟨s1, e1, -⟩ := swap_effect env hview h l.svr hi.cache r hr.1 hr.2 (fun p hp => hi.info p (Or.inl hp))
    obtain ⟨s2, e2, e3⟩ := ih (fun r' h' => hrs r' (by simp [h'])) _ _ (runInv_update hview hi hr.1 hr.2 e1)
    refine ⟨s2, by simp only [Saver.swapAll, e1]; exact e2, ?_⟩
    simpa using e3

/-- Messages on which record construction does not panic. -/
def NoPanic (ex : Option ExcludeConfig) (msgs : List (Option NetlinkMessage)) : Prop :=
  ∀ m, some m ∈ msgs → makeArchivalRecord m ex ≠ .panic

theorem handleType_total (env : Env) (t : Int) (msgs : List (Option NetlinkMessage)) (hn : NoPanic env.exclude msgs) (s s' : Saver)
    (h : s.swapAll env (msgs.filterMap (reportOf env.exclude t)) = some s') (a b : UInt64) :
    ∃ x y, s.handleType env t msgs a b = some (s', x, y) := by
  induction msgs generalizing s a b with
  | nil => simp only [List.filterMap_nil, Saver.swapAll] at h; injection h with h; subst h; exact ⟨a, b, rfl⟩
  | cons m msgs ih =>
    have hn' : NoPanic env.exclude msgs := fun m hm => hn m (by simp [hm])
    cases m with
    | none => exact ih hn' s h a b
    | some msg =>
      simp only [Saver.handleType]
      rw [List.filterMap_cons] at h
      have hp := hn msg (by simp)
      cases hmk : makeArchivalRecord msg env.exclude with
      | panic => exact absurd hmk hp
      | err e => simp only [reportOf, hmk] at h; exact ih hn' s h a b
      | ok o =>
        cases o with
        | none => simp only [reportOf, hmk] at h; exact ih hn' s h a b
        | some ar =>
          simp only [reportOf, hmk, Saver.swapAll] at h
          obtain ⟨s1, h1, h2⟩ := Option.bind_eq_some_iff.1 h
          simp only [h1]
          exact ih hn' s1 h2 _ _

theorem block_total (env : Env) (hm : env.marshallers ≠ 0) (hview : ∀ n r, env.view n r = r) (b : MessageBlock)
    (hn : NoPanic env.exclude (b.v4Messages ++ b.v6Messages)) (hb : AllInfoOK env.exclude b) (h : List Call) (l : LoopState) (hi : RunInv h l) :
    ∃ l', l.block env b = some l' ∧ ∃ h', RunInv h' l' := by
  obtain ⟨s, e1, hi'⟩ := swapAll_total env hview (reports env.exclude b) (fun r hr => ⟨reports_complete hr, hb r hr⟩) h l hi
  have e1' := e1
  unfold reports at e1'
  rw [swapAll_append] at e1'
  obtain ⟨s4, x1, x2⟩ := Option.bind_eq_some_iff.1 e1'
  obtain ⟨a, b', y1⟩ := handleType_total env b.v4Time b.v4Messages (fun m hm => hn m (by simp [hm])) _ _ x1 0 0
  obtain ⟨c, d, y2⟩ := handleType_total env b.v6Time b.v6Messages (fun m hm => hn m (by simp [hm])) _ _ x2 0 0
  obtain ⟨l1, z1, -⟩ := finish_effect env hm hview _ _ hi'.cache
  refine ⟨l1.report b.v4Time a c b' d, ?_, _, runInv_endCycle hi' z1 _ _ _ _ _⟩
  unfold LoopState.block
  simp only [y1, y2]
  unfold LoopState.finish at z1
  simp only at z1
  rw [z1]

theorem blocks_total (env : Env) (hm : env.marshallers ≠ 0) (hview : ∀ n r, env.view n r = r) (bs : List MessageBlock)
    (hn : ∀ b ∈ bs, NoPanic env.exclude (b.v4Messages ++ b.v6Messages)) (hb : ∀ b ∈ bs, AllInfoOK env.exclude b) (h : List Call) (l : LoopState)
    (hi : RunInv h l) : ∃ l', LoopState.blocks env bs l = some l' := by
  induction bs generalizing h l with
  | nil => exact ⟨l, rfl⟩
  | cons b bs ih =>
    obtain ⟨l1, e1, h1, hi1⟩ := block_total env hm hview b (hn b (by simp)) (hb b (by simp)) h l hi
    obtain ⟨l2, e2⟩ := ih (fun b' h' => hn b' (by simp [h'])) (fun b' h' => hb b' (by simp [h'])) h1 l1 hi1
    exact ⟨l2, by simp only [LoopState.blocks, e1]; exact e2⟩

theorem run_wf {env : Env} {bs : List MessageBlock} {l : LoopState} (h : runBlocks env bs = some l) : GoMap.WF l.svr.conns :=
  (finv_run (steps_run env bs l h)).wf

theorem runSaver_split {env : Env} {bs : List MessageBlock} {s : Saver} (h : runSaver env bs = some s) :
    ∃ l, runBlocks env bs = some l ∧ l.svr.close env = some s := Option.bind_eq_some_iff.1 h

/-- A run with no marshallers that gets past the end of a connection does not exist; in particular a completed run with connections has one. -/
theorem runSaver_written {env : Env} {bs : List MessageBlock} {s : Saver} (hm : env.marshallers ≠ 0) {l : LoopState} (h : runBlocks env bs = some l)
    (h' : l.svr.close env = some s) :
    written s.trace = written l.svr.trace
    ∧ (∀ k, flowEvents (env.uuid k) s.trace = flowEvents (env.uuid k) l.svr.trace ++ (if l.svr.conns.get k ≠ none then [false] else []))
    ∧ (∀ u, (∀ k, u ≠ env.uuid k) → flowEvents u s.trace = flowEvents u l.svr.trace) ∧ s.stats = l.svr.stats := by
  obtain ⟨s', e1, e2, e3, e4, e5⟩ := close_effect env hm l.svr (run_wf h)
  have : s' = s := Option.some.inj (e1.symm.trans h')
  subst this
  exact ⟨e2, e3, e4, e5⟩

end TcpInfo
