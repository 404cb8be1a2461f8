import Verif.Lemmas.Exported
import Verif.Props.Metrics
/-!
# C45, C47, C83 for all histories: the exported totals
-/

namespace TcpInfo
open Spec

/-- C45 (what is exported instead, in every history whatsoever). Whenever a block leads to an observation, all observations so far add up to the counters in
this block, plus, for every pair of successive polls, the counters of the connections that were missing in the second or had lost their tcp_info there
(modulo 2^64). -/
theorem C45_exact (env : Env) (hv : ViewOK env) (d : Dir) (bs : List MessageBlock) (b : MessageBlock) (l l' : LoopState)
    (h : runBlocks env bs = some l) (hb : l.block env b = some l') (ho : observations d l'.svr.trace ≠ observations d l.svr.trace) :
    (observations d l'.svr.trace).foldr (· + ·) 0 = exportedTotal d ((bs ++ [b]).map (reports env.exclude)) % 2^64 := by
  have hrun : runBlocks env (bs ++ [b]) = some l' := by
    unfold runBlocks at h ⊢
    rw [blocks_snoc, h]; exact hb
  have hsum : sumNat (observations d l'.svr.trace) = (dget d l'.reported).toNat := (obs_inv env hv d _ l' hrun).1
  obtain ⟨T, hT, o1, o2⟩ := block_obs env hv d _ l l' (run_cache env bs l h) b hb
  show sumNat _ = _
  rw [hsum]
  rw [exported_run env hv d bs b l l' h hb] at hT
  by_cases hn : unixSeconds b.v4Time > l.lastReportTime
  · obtain ⟨-, x2, x3⟩ := o2 hn
    cases hk : skipReport T (dget d l.reported) with
    | true => exact absurd (x2 hk).1 ho
    | false => rw [(x3 hk).2, hT, UInt64.toNat_ofNat']
  · exact absurd (o1 hn).2.1 ho

/-- C83. Which of these it is, in every history: when a block begins a new second, the difference between the exported total (C45) and what was exported so
far, or the error that applies. -/
theorem C83_which (ev : Bool) (env : Env) (hv : ViewOK env) (d : Dir) (bs : List MessageBlock) (b : MessageBlock) (l l' : LoopState)
    (h : runBlocks env bs = some l) (hb : l.block env b = some l')
    (hnew : ∀ b' ∈ bs, b'.v4Time / 1000000000 < b.v4Time / 1000000000) (h0 : -62135596800 < b.v4Time / 1000000000) :
    (blockMetrics ev env l b).filter (aboutBytes d)
      = [exactReport d ((observations d l.svr.trace).foldr (· + ·) 0) (exportedTotal d ((bs ++ [b]).map (reports env.exclude)))] := by
  have hsum : (observations d l.svr.trace).foldr (· + ·) 0 = (dget d l.reported).toNat := (obs_inv env hv d _ l h).1
  obtain ⟨-, s, lm, s4, s6, r4, r6, -, a1, a1', e4, e5, a2, -, pre, a4, a5, -⟩ := block_metrics ev env l b l' hb
  have hn : unixSeconds b.v4Time > lm.lastReportTime := by
    rw [a1]
    rcases last_inv env hv bs l h with e | ⟨b', hb', e⟩
    · rw [e]; exact h0
    · rw [e]; exact hnew b' hb'
  have htot := exported_run env hv d bs b l l' h hb
  obtain ⟨-, -, -, f4, f5, -, -⟩ := report_effect lm b.v4Time s4 s6 r4 r6
  rw [a2, f4, f5] at htot
  rw [hsum]
  generalize hN : exportedTotal d ((bs ++ [b]).map (reports env.exclude)) = N at *
  have key : ∀ x y : UInt64, x.toNat = N % 2^64 → ∀ p q f,
      directionMetrics x y p q f = [if N % 2^64 < y.toNat then .error p
        else if y.toNat + 12500000000 < N % 2^64 ∨ 2^64 ≤ y.toNat + 12500000000 then .error q else f (UInt64.ofNat (N % 2^64 - y.toNat))] := by
    intro x y hx p q f
    rw [← hx]
    have hlt : x < y ↔ x.toNat < y.toNat := UInt64.lt_iff_toNat_lt
    have hm : maxDelta.toNat = 12500000000 := by decide
    have hy := y.toNat_lt
    have hxl := x.toNat_lt
    unfold directionMetrics
    cases hk : skipReport x y with
    | true =>
      by_cases c : x < y
      · rw [if_pos rfl, if_pos c, if_pos (hlt.1 c)]
      · have hc := mt hlt.2 c
        rw [if_pos rfl, if_neg c, if_neg hc, if_pos]
        by_cases hov : 2^64 ≤ y.toNat + 12500000000
        · exact Or.inr hov
        · rcases skip_true (by omega) hk with e | e
          · omega
          · exact Or.inl e
    | false =>
      have := skip_false hk
      have hno : ¬ 2^64 ≤ y.toNat + 12500000000 := by
        intro hov
        unfold skipReport at hk
        simp only [Bool.or_eq_false_iff, decide_eq_false_iff_not] at hk
        have h1 := hk.1
        have h1 : ¬ maxDelta + y < x := h1
        rw [UInt64.lt_iff_toNat_lt, UInt64.toNat_add, hm] at h1
        omega
      rw [if_neg (by simp), if_neg (by omega), if_neg (by omega)]
      congr 2
      apply UInt64.toNat_inj.1
      rw [UInt64.toNat_sub_of_le _ _ (UInt64.le_iff_toNat_le.2 (by omega)), UInt64.toNat_ofNat', Nat.mod_eq_of_lt (by omega)]
  rw [a4, List.filter_append, ofMessage_about d pre a5, List.filter_cons_of_neg (by cases d <;> simp [aboutBytes]), reportMetrics, if_pos hn, List.filter_append,
    direction_sent, direction_received]
  obtain ⟨g1, g2⟩ := sums_live e4 e5 d
  cases d with
  | sent =>
    rw [key _ lm.reported.sent ?_]
    · simp only [if_true, reduceCtorEq, if_false, List.append_nil, List.nil_append, exactReport]
      rw [a1']
      rfl
    · rw [← UInt64.toNat_ofNat', ← htot, ← g1 rfl, UInt64.add_assoc _ s4 s6]
      rfl
  | received =>
    rw [key _ lm.reported.received ?_]
    · simp only [if_true, reduceCtorEq, if_false, List.nil_append, exactReport]
      rw [a1']
      rfl
    · rw [← UInt64.toNat_ofNat', ← htot, ← g2 rfl, UInt64.add_assoc _ r4 r6]
      rfl

theorem new_second (env : Env) (hv : ViewOK env) (bs : List MessageBlock) (b : MessageBlock) (l : LoopState) (h : runBlocks env bs = some l)
    (hnew : ∀ b' ∈ bs, b'.v4Time / 1000000000 < b.v4Time / 1000000000) (h0 : -62135596800 < b.v4Time / 1000000000) :
    unixSeconds b.v4Time > l.lastReportTime := by
  rcases last_inv env hv bs l h with e | ⟨b', hb', e⟩
  · rw [e]; exact h0
  · rw [e]; exact hnew b' hb'

theorem skip_iff (T R : UInt64) : skipReport T R = false ↔ R.toNat ≤ T.toNat ∧ T.toNat ≤ R.toNat + 12500000000 ∧ R.toNat + 12500000000 < 2^64 := by
  have hm : maxDelta.toNat = 12500000000 := by decide
  have hT := T.toNat_lt
  have hR := R.toNat_lt
  unfold skipReport
  simp only [Bool.or_eq_false_iff, decide_eq_false_iff_not, GT.gt, UInt64.lt_iff_toNat_lt, UInt64.toNat_add, hm]
  omega

/-- C47, exactly (every history). In a block that begins a new second something is observed if and only if the exported total is not below what was observed
so far and at most 12.5e9 bytes above it (and that is not close to 2^64); then it is the difference. -/
theorem C47_observed_iff (env : Env) (hv : ViewOK env) (d : Dir) (bs : List MessageBlock) (b : MessageBlock) (l l' : LoopState)
    (h : runBlocks env bs = some l) (hb : l.block env b = some l')
    (hnew : ∀ b' ∈ bs, b'.v4Time / 1000000000 < b.v4Time / 1000000000) (h0 : -62135596800 < b.v4Time / 1000000000)
    (O T : Nat) (hO : O = (observations d l.svr.trace).foldr (· + ·) 0) (hT : T = exportedTotal d ((bs ++ [b]).map (reports env.exclude)) % 2^64) :
    observations d l'.svr.trace = observations d l.svr.trace ++ if O ≤ T ∧ T ≤ O + 12500000000 ∧ O + 12500000000 < 2^64 then [T - O] else [] := by
  have hsum : (observations d l.svr.trace).foldr (· + ·) 0 = (dget d l.reported).toNat := (obs_inv env hv d _ l h).1
  obtain ⟨T', hT', -, o2⟩ := block_obs env hv d _ l l' (run_cache env bs l h) b hb
  rw [exported_run env hv d bs b l l' h hb] at hT'
  have hTn : T'.toNat = T := by rw [hT', hT, UInt64.toNat_ofNat']
  have hOn : (dget d l.reported).toNat = O := by rw [hO, hsum]
  obtain ⟨-, x2, x3⟩ := o2 (new_second env hv bs b l h hnew h0)
  cases hk : skipReport T' (dget d l.reported) with
  | true =>
    have hno : ¬ (O ≤ T ∧ T ≤ O + 12500000000 ∧ O + 12500000000 < 2^64) := by
      intro hc
      rw [← hTn, ← hOn, ← skip_iff, hk] at hc
      simp at hc
    rw [(x2 hk).1, if_neg hno, List.append_nil]
  | false =>
    have hc := (skip_iff _ _).1 hk
    rw [hTn, hOn] at hc
    rw [(x3 hk).1, if_pos hc, UInt64.toNat_sub_of_le _ _ (UInt64.le_iff_toNat_le.2 (by omega)), hTn, hOn]

/-- C47 violated, from any state on: when `O` bytes have been observed, and from then on the exported total is below `O` or more than 12.5e9 bytes above it
in every poll, then nothing is ever observed again, however the traffic goes on. -/
theorem C47_violated_stuck (env : Env) (hv : ViewOK env) (d : Dir) (bs more : List MessageBlock) (l l' : LoopState) (h : runBlocks env bs = some l)
    (h' : runBlocks env (bs ++ more) = some l') (O : Nat) (hO : O = (observations d l.svr.trace).foldr (· + ·) 0)
    (hout : ∀ m1 b m2, more = m1 ++ b :: m2 → exportedTotal d ((bs ++ m1 ++ [b]).map (reports env.exclude)) % 2^64 < O
      ∨ O + 12500000000 < exportedTotal d ((bs ++ m1 ++ [b]).map (reports env.exclude)) % 2^64) :
    observations d l'.svr.trace = observations d l.svr.trace := by
  have hsum : (observations d l.svr.trace).foldr (· + ·) 0 = (dget d l.reported).toNat := (obs_inv env hv d _ l h).1
  suffices ∀ l', runBlocks env (bs ++ more) = some l' → observations d l'.svr.trace = observations d l.svr.trace ∧ dget d l'.reported = dget d l.reported from
    (this l' h').1
  clear h' l'
  refine snoc_induction (P := fun more => (∀ m1 b m2, more = m1 ++ b :: m2 → exportedTotal d ((bs ++ m1 ++ [b]).map (reports env.exclude)) % 2^64 < O
      ∨ O + 12500000000 < exportedTotal d ((bs ++ m1 ++ [b]).map (reports env.exclude)) % 2^64) →
    ∀ l', runBlocks env (bs ++ more) = some l' → observations d l'.svr.trace = observations d l.svr.trace ∧ dget d l'.reported = dget d l.reported) ?_ ?_ more hout
  · intro _ l' h'
    rw [List.append_nil, h] at h'
    injection h' with h'; subst h'
    exact ⟨rfl, rfl⟩
  · intro more b ih hout l' h'
    rw [← List.append_assoc] at h'
    obtain ⟨l1, h1, h2⟩ := runBlocks_snoc h'
    obtain ⟨i1, i2⟩ := ih (fun m1 b1 m2 e => hout m1 b1 (m2 ++ [b]) (by rw [e]; simp)) l1 h1
    obtain ⟨T, hT, o1, o2⟩ := block_obs env hv d _ l1 l' (run_cache env _ l1 h1) b h2
    rw [exported_run env hv d _ b l1 l' h1 h2] at hT
    have hTn : T.toNat = exportedTotal d ((bs ++ more ++ [b]).map (reports env.exclude)) % 2^64 := by rw [hT, UInt64.toNat_ofNat']
    have hb := hout more b [] rfl
    rw [← hTn] at hb
    have hOn : (dget d l1.reported).toNat = O := by rw [i2, hO, hsum]
    by_cases hn : unixSeconds b.v4Time > l1.lastReportTime
    · obtain ⟨-, x2, x3⟩ := o2 hn
      cases hk : skipReport T (dget d l1.reported) with
      | true => rw [(x2 hk).1, (x2 hk).2]; exact ⟨i1, i2⟩
      | false =>
        have hc := (skip_iff _ _).1 hk
        rw [hOn] at hc
        omega
    · rw [(o1 hn).2.1, (o1 hn).2.2]; exact ⟨i1, i2⟩

/-- C83, C45. In a `Tidy` history the exported total is the true one. -/
theorem C83_tidy_total (env : Env) (hv : ViewOK env) (d : Dir) (bs : List MessageBlock) (b : MessageBlock) (l l' : LoopState)
    (h : runBlocks env bs = some l) (hb : l.block env b = some l') (ht : Tidy (history env.exclude (bs ++ [b]))) :
    exportedTotal d ((bs ++ [b]).map (reports env.exclude)) % 2^64 = lastTotal d ((bs ++ [b]).flatMap (reports env.exclude)) % 2^64 := by
  have h1 := exported_run env hv d bs b l l' h hb
  rw [tidy_total env hv d bs b l l' h hb ht] at h1
  have := congrArg UInt64.toNat h1
  rw [total64, UInt64.toNat_ofNat', UInt64.toNat_ofNat'] at this
  exact this.symm

-- the four histories of `C45_violated_*`: what is exported, and what would be right
example : exportedTotal .sent (flickerBlocks.map (reports none)) = 11 ∧ lastTotal .sent (flickerBlocks.flatMap (reports none)) = 6
    ∧ (((runBlocks exEnv flickerBlocks).map (fun l => (observations .sent l.svr.trace).foldr (· + ·) 0)) = some 11) := by decide +kernel
/-- A connection with 5 bytes that is missing in one poll. -/
def missedBlocks : List MessageBlock := [exBlock 1000000000 [exMsg 1 0 5], exBlock 2000000000 [], exBlock 3000000000 [exMsg 1 0 5]]
example : exportedTotal .sent (missedBlocks.map (reports none)) = 10 ∧ (missedBlocks.map (reports none)).length = 3
    ∧ ((runBlocks exEnv missedBlocks).map (fun l => observations .sent l.svr.trace)) = some [5, 0, 5] := by decide +kernel
-- listed twice, then gone
example : exportedTotal .sent ([exBlock 1000000000 [exMsg 1 0 5, exMsg 1 0 6]].map (reports none)) = 11
    ∧ exportedTotal .sent ([exBlock 1000000000 [exMsg 1 0 5, exMsg 1 0 6], exBlock 2000000000 [exMsg 2 0 1]].map (reports none)) = 7
    ∧ (saverMetrics true exEnv [exBlock 1000000000 [exMsg 1 0 5, exMsg 1 0 6], exBlock 2000000000 [exMsg 2 0 1]]).filter (aboutBytes .sent)
      = [exactReport .sent 0 11, exactReport .sent 11 7] ∧ exactReport .sent 0 11 = .sendRate 11 ∧ exactReport .sent 11 7 = .error "totalSent < reportedSent" := by
  decide +kernel
-- the last message has no tcp_info but an attribute of a larger type: the counter is not final, and no longer counted
example : exportedTotal .sent ([exBlock 1000000000 [exMsg 1 0 5], exBlock 2000000000 [exMsgA 1 [8, 0, 4, 0, 0, 0, 0, 0]]].map (reports none)) = 0 := by decide +kernel

-- `C47_violated_stuck`: five bytes are observed, then a connection of 16 GiB appears, and sends on
example : ((runBlocks exEnv ([exBlock 1000000000 [exMsg 1 0 5]] ++ [exBlock 2000000000 [exMsgA 2 (bigInfo 4 0)], exBlock 3000000000 [exMsgA 2 (bigInfo 4 9)]])).map
      (fun l => observations .sent l.svr.trace)) = some [5]
    ∧ 5 + 12500000000 < exportedTotal .sent ([exBlock 1000000000 [exMsg 1 0 5], exBlock 2000000000 [exMsgA 2 (bigInfo 4 0)]].map (reports none)) % 2^64
    ∧ 5 + 12500000000 < exportedTotal .sent ([exBlock 1000000000 [exMsg 1 0 5], exBlock 2000000000 [exMsgA 2 (bigInfo 4 0)],
      exBlock 3000000000 [exMsgA 2 (bigInfo 4 9)]].map (reports none)) % 2^64 := by decide +kernel

end TcpInfo
