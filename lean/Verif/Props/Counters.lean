import Verif.Model.Counters
import Verif.Lemmas.SaverAcct
import Verif.Spec.SaverExample
import Verif.Props.SaverStats
import Verif.Props.Collector
/-!
# C68: the statistics logged while the saver is running; C69: what the collector counts
-/

namespace TcpInfo
open TcpInfo.Spec

/-! ## The increments are those of the saver -/

theorem after_append (c : Counters) (a b : List Inc) : c.after (a ++ b) = (c.after a).after b := List.foldl_append

theorem after_counts (is : List Inc) (c : Counters) : c.after is =
    ⟨c.total + is.count .total, c.new + is.count .new, c.diff + is.count .diff, c.expired + is.count .expired⟩ := by
  induction is generalizing c with
  | nil => rfl
  | cons i is ih =>
    show (c.inc i).after is = _
    rw [ih]
    cases i <;> simp [Counters.inc] <;> omega

theorem swapIncs_stats (env : Env) (s : Saver) (r : ArchivalRecord) (s' : Saver) (h : s.swapAndQueue env r = some s') :
    s'.stats = s.stats.after (swapIncs env s r) := by
  have hcl : ∀ (s0 : Saver) k old, (s0.recordClosing k r old).stats = s0.stats := by
    intro s0 k old; unfold Saver.recordClosing; split <;> rfl
  have hq : ∀ s0 : Saver, (s0.queue env r).map (·.1) = some s' → s'.stats = s0.stats := by
    intro s0 he
    obtain ⟨⟨s1, e⟩, hq, rfl⟩ := Option.map_eq_some_iff.1 he
    exact (queue_cache env _ r _ e hq).2.1
  unfold Saver.swapAndQueue at h
  unfold swapIncs
  simp only at h
  generalize s.cache.update r = u at h ⊢
  obtain ⟨c, res⟩ := u
  cases res with
  | panic => simp at h
  | err e => simp only at h ⊢; injection h with h; subst h; rfl
  | ok o =>
    cases o with
    | none => simp only at h ⊢; rw [hq _ h]; rfl
    | some cached =>
      simp only at h ⊢
      cases hp : parseIDM r.raw with
      | panic => rw [hp] at h; simp at h
      | err e => rw [hp] at h; simp only at h ⊢; injection h with h; subst h; rfl
      | ok idm =>
        rw [hp] at h
        simp only at h ⊢
        cases hc : compareRecords r (some (env.view s.tick cached)) with
        | panic => rw [hc] at h; simp at h
        | err e => rw [hc] at h; simp only at h ⊢; injection h with h; subst h; rw [hcl]; rfl
        | ok ch =>
          rw [hc] at h
          simp only at h ⊢
          split
          · rename_i hne
            rw [if_pos hne] at h
            rw [hq _ h]
            simp only [hcl]; rfl
          · rename_i hne
            rw [if_neg hne] at h
            injection h with h; subst h; rw [hcl]; rfl

theorem handleIncs_stats (env : Env) (t : Int) (msgs : List (Option NetlinkMessage)) (s : Saver) (a b : UInt64) (s' : Saver) (x y : UInt64)
    (h : s.handleType env t msgs a b = some (s', x, y)) : s'.stats = s.stats.after (handleIncs env t msgs s) := by
  induction msgs generalizing s a b with
  | nil => simp only [Saver.handleType] at h; injection h with h; injection h with h; subst h; rfl
  | cons m msgs ih =>
    cases m with
    | none => simp only [Saver.handleType] at h; rw [handleIncs]; exact ih s a b h
    | some m =>
      simp only [Saver.handleType] at h
      rw [handleIncs]
      cases hm : makeArchivalRecord m env.exclude with
      | panic => rw [hm] at h; simp at h
      | err e => rw [hm] at h; simp only at h ⊢; exact ih s a b h
      | ok o =>
        cases o with
        | none => rw [hm] at h; simp only at h ⊢; exact ih s a b h
        | some ar =>
          rw [hm] at h
          simp only at h ⊢
          cases hs : s.swapAndQueue env { ar with timestamp := t } with
          | none => rw [hs] at h; simp at h
          | some s1 =>
            rw [hs] at h
            simp only at h ⊢
            rw [after_append, ← swapIncs_stats env s _ s1 hs]
            exact ih s1 _ _ h

theorem blockIncs_stats (env : Env) (hv : ViewOK env) (l : LoopState) (b : MessageBlock) (l' : LoopState) (h : l.block env b = some l') :
    l'.svr.stats = l.svr.stats.after (blockIncs env l b) := by
  unfold LoopState.block at h
  unfold blockIncs
  cases h4 : l.svr.handleType env b.v4Time b.v4Messages 0 0 with
  | none => rw [h4] at h; simp at h
  | some p =>
    obtain ⟨s, s4, r4⟩ := p
    rw [h4] at h
    simp only at h ⊢
    cases h6 : s.handleType env b.v6Time b.v6Messages 0 0 with
    | none => rw [h6] at h; simp at h
    | some p =>
      obtain ⟨s1, s6, r6⟩ := p
      rw [h6] at h
      simp only at h ⊢
      split at h
      · simp at h
      · rename_i l1 he
        injection h with h; subst h
        rw [(report_effect l1 _ _ _ _ _).2.1, after_append, after_append, ← handleIncs_stats env _ _ _ _ _ _ _ _ h4, ← handleIncs_stats env _ _ _ _ _ _ _ _ h6]
        have := (expireAll_acct env hv .sent s1.cache.endCycle.2 _ (fun k hk => (GoMap.mem_keys_iff _ _).1 ((env.order_perm _ _).mem_iff.1 hk)) _ _ he).2.2.2.2
        rw [this, after_counts]
        simp only [(env.order_perm _ _).length_eq, List.map_const', List.count_replicate]
        simp

theorem blocksIncs_stats (env : Env) (hv : ViewOK env) (bs : List MessageBlock) (l l' : LoopState) (h : l.blocks env bs = some l') :
    l'.svr.stats = l.svr.stats.after (blocksIncs env bs l) := by
  induction bs generalizing l with
  | nil => simp only [LoopState.blocks] at h; injection h with h; subst h; rfl
  | cons b bs ih =>
    simp only [LoopState.blocks] at h
    obtain ⟨l1, h1, h2⟩ := Option.bind_eq_some_iff.1 h
    rw [blocksIncs, h1, after_append, ← blockIncs_stats env hv l b l1 h1]
    exact ih l1 h2

/-! ## The total is counted first -/

/-- At every point, at most as many new and changed ones have been counted as reports. -/
def TotalFirst (is : List Inc) : Prop := ∀ p, (is.take p).count .new + (is.take p).count .diff ≤ (is.take p).count .total

theorem totalFirst_append {a b : List Inc} (ha : TotalFirst a) (hb : TotalFirst b) : TotalFirst (a ++ b) := by
  intro p
  have := ha p; have := hb (p - a.length)
  rw [List.take_append]
  simp only [List.count_append]
  omega

theorem totalFirst_swap (env : Env) (s : Saver) (r : ArchivalRecord) : TotalFirst (swapIncs env s r) := by
  have h : ∀ l : List Inc, l = [] ∨ l = [.new] ∨ l = [.diff] → TotalFirst (.total :: l) := by
    rintro l (rfl | rfl | rfl) p <;> rcases p with _ | _ | p <;> simp
  unfold swapIncs
  apply h
  repeat (first | split | simp)

theorem totalFirst_handle (env : Env) (t : Int) (msgs : List (Option NetlinkMessage)) (s : Saver) : TotalFirst (handleIncs env t msgs s) := by
  induction msgs generalizing s with
  | nil => intro p; simp [handleIncs]
  | cons m msgs ih =>
    cases m with
    | none => rw [handleIncs]; exact ih s
    | some m =>
      rw [handleIncs]
      split
      · simp only
        split
        · exact totalFirst_swap env s _
        · exact totalFirst_append (totalFirst_swap env s _) (ih _)
      · intro p; simp
      · exact ih s

theorem totalFirst_block (env : Env) (l : LoopState) (b : MessageBlock) : TotalFirst (blockIncs env l b) := by
  unfold blockIncs
  refine totalFirst_append (totalFirst_handle _ _ _ _) ?_
  split
  · intro p; simp
  · refine totalFirst_append (totalFirst_handle _ _ _ _) ?_
    split
    · intro p; simp
    · intro p
      rw [List.map_const', List.take_replicate]
      simp [List.count_replicate]

theorem totalFirst_blocks (env : Env) (bs : List MessageBlock) (l : LoopState) : TotalFirst (blocksIncs env bs l) := by
  induction bs generalizing l with
  | nil => intro p; simp [blocksIncs]
  | cons b bs ih =>
    rw [blocksIncs]
    refine totalFirst_append (totalFirst_block _ _ _) ?_
    split
    · intro p; simp
    · exact ih _

theorem count_take_mono (is : List Inc) (i : Inc) {p q : Nat} (h : p ≤ q) : (is.take p).count i ≤ (is.take q).count i :=
  List.Sublist.count_le i (by rw [← Nat.min_eq_left h, ← List.take_take]; exact List.take_sublist p (is.take q))

/-! ## C68 -/

/-- C68. The sequence of increments considered below is the one the saver makes: in the end it gives the saver's counters. -/
theorem C68_increments (env : Env) (hv : ViewOK env) (bs : List MessageBlock) (l : LoopState) (h : runBlocks env bs = some l) :
    l.svr.stats = Counters.after ⟨0, 0, 0, 0⟩ (blocksIncs env bs newLoop) := blocksIncs_stats env hv bs newLoop l h

/-- C68. Each number read by `LogCacheStats`, while the saver is running, is a value the counter had during the call: it is not below the value when the
call began (`p1` increments) and not above that when it ended (`p4`). -/
theorem C68_each (env : Env) (bs : List MessageBlock) (p1 p2 p3 p4 : Nat) (h12 : p1 ≤ p2) (h23 : p2 ≤ p3) (h34 : p3 ≤ p4) :
    let is := blocksIncs env bs newLoop
    let c := copyDuring is p1 p2 p3 p4
    ((is.take p1).count .total ≤ c.total ∧ c.total ≤ (is.take p4).count .total) ∧ ((is.take p1).count .new ≤ c.new ∧ c.new ≤ (is.take p4).count .new)
    ∧ ((is.take p1).count .diff ≤ c.diff ∧ c.diff ≤ (is.take p4).count .diff) ∧ ((is.take p1).count .expired ≤ c.expired ∧ c.expired ≤ (is.take p4).count .expired) := by
  simp only [copyDuring, after_counts, Nat.zero_add]
  exact ⟨⟨Nat.le_refl _, count_take_mono _ _ (by omega)⟩, ⟨count_take_mono _ _ h12, count_take_mono _ _ (by omega)⟩,
    ⟨count_take_mono _ _ (by omega), count_take_mono _ _ (by omega)⟩, ⟨count_take_mono _ _ (by omega), Nat.le_refl _⟩⟩

/-- C68 (partial: see `C68_violated`). The number of unchanged connections logged is negative by at most the number of reports the saver handled during
the call; if it handled none it is not negative, and the four numbers logged belong together. -/
theorem C68_same_partial (env : Env) (bs : List MessageBlock) (p1 p2 p3 p4 : Nat) (h12 : p1 ≤ p2) (h23 : p2 ≤ p3) (h34 : p3 ≤ p4) :
    let is := blocksIncs env bs newLoop
    let handled := (is.take p4).count .total - (is.take p1).count .total
    ∃ total same diff new : Int, logCacheStats (copyDuring is p1 p2 p3 p4) 0 0 = (total, 0, same, diff, new) ∧ total = same + diff + new
      ∧ -(handled : Int) ≤ same ∧ 0 ≤ total ∧ 0 ≤ diff ∧ 0 ≤ new := by
  simp only [copyDuring, after_counts, Nat.zero_add, logCacheStats]
  have h1 := totalFirst_blocks env bs newLoop p4
  have h2 := count_take_mono (blocksIncs env bs newLoop) .new (show p2 ≤ p4 by omega)
  have h3 := count_take_mono (blocksIncs env bs newLoop) .diff (show p3 ≤ p4 by omega)
  have h4 := count_take_mono (blocksIncs env bs newLoop) .total (show p1 ≤ p4 by omega)
  refine ⟨_, _, _, _, rfl, ?_, ?_, ?_, ?_, ?_⟩ <;> omega

/-- C68 violated: the first call of `LogCacheStats` (iteration 0) while the first block is handled: it has read the total (0) when the first connection is
counted; it logs -1 unchanged connections. -/
theorem C68_violated : ∃ (env : Env) (bs : List MessageBlock) (l : LoopState) (p1 p2 p3 p4 : Nat), runBlocks env bs = some l ∧ p1 ≤ p2 ∧ p2 ≤ p3 ∧ p3 ≤ p4
    ∧ p4 ≤ (blocksIncs env bs newLoop).length
    ∧ logCacheStats (copyDuring (blocksIncs env bs newLoop) p1 p2 p3 p4) 0 0 = (0, 0, -1, 0, 1) := by
  cases h : runBlocks exEnv statBlocks with
  | none => exact absurd h (by decide +kernel)
  | some l => exact ⟨exEnv, statBlocks, l, 0, 2, 2, 2, h, by decide, by decide, by decide, by decide +kernel, by decide +kernel⟩

example : blocksIncs exEnv statBlocks newLoop = [.total, .new, .total, .new, .total, .total, .total, .total] := by decide +kernel

/-! ## C69 -/

theorem runVars_fold (polls : List PollResult) (v : RunVars) : polls.foldl RunVars.step v =
    { v with totalCount := v.totalCount + (polls.map (fun p => p.res4.1.length + p.res6.1.length)).sum, loops := v.loops + polls.length } := by
  induction polls generalizing v with
  | nil => rfl
  | cons p ps ih =>
    rw [List.foldl_cons, ih]
    simp [RunVars.step, pollCounts]
    omega

/-- C69 (partial: only the summary line, and only if no dump failed; `C69_violated_*`). The number of sockets in the summary line is the number of messages
submitted to the saver, and the average is that by the number of polls. -/
theorem C69_summary_partial (polls : List PollResult) (t6 t4 : PollResult → Int) (h0 : polls ≠ []) (h : ∀ p ∈ polls, p.res6.2 = none ∧ p.res4.2 = none) :
    let n := (polls.map (fun p => (collectBlock p.res6 (t6 p) p.res4 (t4 p)).v6Messages.length + (collectBlock p.res6 (t6 p) p.res4 (t4 p)).v4Messages.length)).sum
    (runResult polls).2 = some (n, 0, n / polls.length) := by
  have hl : 0 < polls.length := List.length_pos_iff.2 h0
  have hs : (polls.map (fun p => (collectBlock p.res6 (t6 p) p.res4 (t4 p)).v6Messages.length + (collectBlock p.res6 (t6 p) p.res4 (t4 p)).v4Messages.length))
      = polls.map (fun p => p.res4.1.length + p.res6.1.length) := by
    refine List.map_congr_left (fun p hp => ?_)
    obtain ⟨h6, h4⟩ := h p hp
    simp only [collectBlock, h6, h4, List.length_map]
    omega
  simp only [hs, runResult, runVars_fold, Nat.zero_add, gt_iff_lt, hl, if_true]

/-- C69, what the summary line has in any run, whatever fails: the number of messages that all dumps have returned, also those that are not submitted because of an error later in the same dump; for
remote connections always 0; and the first number by that of the polls, rounded down. Without any poll there is no line. -/
theorem C69_exact (polls : List PollResult) : (runResult polls).2 = if polls = [] then none else
    some ((polls.flatMap (fun p => p.res6.1 ++ p.res4.1)).length, 0, (polls.flatMap (fun p => p.res6.1 ++ p.res4.1)).length / polls.length) := by
  have hs : (polls.flatMap (fun p => p.res6.1 ++ p.res4.1)).length = (polls.map (fun p => p.res4.1.length + p.res6.1.length)).sum := by
    rw [List.length_flatMap]
    congr 1
    exact List.map_congr_left (fun p _ => by rw [List.length_append]; omega)
  rw [hs]
  simp only [runResult, runVars_fold, Nat.zero_add, gt_iff_lt]
  by_cases h : polls = []
  · subst h; rfl
  · rw [if_neg h, if_pos (List.length_pos_iff.2 h)]

-- two polls, the first with an error after one message
example : (runResult [⟨([default], some .badMsgData), ([default, default], none)⟩, ⟨([default, default], none), ([], none)⟩]).2 = some (5, 0, 2) := by decide +kernel

theorem runResult_zero (ps : List PollResult) : (runResult ps).1 = (0, 0) := by
  simp only [runResult, runVars_fold]

/-- C69: `LogCacheStats` is called in the first poll and in every 6000th one after it, in no other one, once each and in this order. -/
theorem C69_calls (polls : List PollResult) : (∀ k : Nat, (∃ x, (k, x) ∈ logCalls polls) ↔ k < polls.length ∧ ∃ m, k = 6000 * m)
    ∧ ((logCalls polls).map (·.1)).Pairwise (· < ·) := by
  refine ⟨fun k => ?_, ?_⟩
  · simp only [logCalls, List.mem_map, List.mem_filter, List.mem_range, decide_eq_true_eq, Prod.mk.injEq]
    constructor
    · rintro ⟨x, k', ⟨h1, h2⟩, rfl, -⟩
      exact ⟨h1, k' / 6000, by omega⟩
    · rintro ⟨h1, m, rfl⟩
      exact ⟨_, _, ⟨h1, by omega⟩, rfl, rfl⟩
  · have : (logCalls polls).map (·.1) = (List.range polls.length).filter (fun k => k % 6000 = 0) := by
      simp only [logCalls, List.map_map]
      exact List.map_id'' (fun _ => rfl) _
    rw [this]
    exact List.Pairwise.filter _ List.pairwise_lt_range

/-- C69 violated: whatever happens, `Run` returns (0, 0), and passes (0, 0) to `LogCacheStats`: errors are never counted. -/
theorem C69_violated_results (polls : List PollResult) : (runResult polls).1 = (0, 0) ∧ ∀ x ∈ logCalls polls, x.2 = (0, 0) := by
  refine ⟨runResult_zero polls, fun x hx => ?_⟩
  obtain ⟨k, -, rfl⟩ := List.mem_map.1 hx
  exact runResult_zero _

/-- C69 violated: the messages of a dump that failed in the middle are counted in the summary, although none of them is submitted. -/
theorem C69_violated_summary : ∃ p : PollResult, p.res6.2 ≠ none ∧ (runResult [p]).2 = some (1, 0, 1)
    ∧ ∀ t6 t4, (collectBlock p.res6 t6 p.res4 t4).v6Messages = [] ∧ (collectBlock p.res6 t6 p.res4 t4).v4Messages = [] :=
  ⟨⟨([exMore], some .badSequence), ([], none)⟩, by simp, by decide, fun _ _ => ⟨rfl, rfl⟩⟩

-- such a failed dump with messages is possible, and polls without errors are
example : oneType none 7 9 [.ok [exMore, { exMore with header := { exMore.header with seq := 8 } }]] = some ([exMore], some .badSequence) := by decide
example : (runResult [⟨([exMore, exMore], none), ([exMore], none)⟩, ⟨([exMore], none), ([], none)⟩]).2 = some (4, 0, 2) := by decide
example : logCalls (List.replicate 3 ⟨([exMore], none), ([], none)⟩) = [(0, 0, 0)] := by decide

end TcpInfo
