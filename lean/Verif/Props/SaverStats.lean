import Verif.Lemmas.SaverAcct
import Verif.Spec.SaverExample
/-!
# C45, C46, C47, C48: byte accounting, throughput observations, counters
-/

namespace TcpInfo
open Spec

/-! ## Effect of a block -/

theorem report_acct (d : Dir) (l : LoopState) (t : Int) (s4 s6 r4 r6 : UInt64) (live : UInt64)
    (hs : d = .sent → s4 + s6 = live) (hr : d = .received → r4 + r6 = live) :
    (¬ unixSeconds t > l.lastReportTime → l.report t s4 s6 r4 r6 = l)
    ∧ (unixSeconds t > l.lastReportTime → (l.report t s4 s6 r4 r6).lastReportTime = unixSeconds t
      ∧ (skipReport (dget d l.closed + dget d l.svr.closingTotals + live) (dget d l.reported) = true →
          observations d (l.report t s4 s6 r4 r6).svr.trace = observations d l.svr.trace ∧ dget d (l.report t s4 s6 r4 r6).reported = dget d l.reported)
      ∧ (skipReport (dget d l.closed + dget d l.svr.closingTotals + live) (dget d l.reported) = false →
          observations d (l.report t s4 s6 r4 r6).svr.trace = observations d l.svr.trace
            ++ [(dget d l.closed + dget d l.svr.closingTotals + live - dget d l.reported).toNat]
          ∧ dget d (l.report t s4 s6 r4 r6).reported = dget d l.closed + dget d l.svr.closingTotals + live)) := by
  unfold LoopState.report
  constructor
  · intro h; rw [if_neg h]
  · intro h
    rw [if_pos h]
    simp only
    cases d with
    | sent =>
      simp only [dget]
      have e : l.closed.sent + l.svr.closingTotals.sent + s4 + s6 = l.closed.sent + l.svr.closingTotals.sent + live := by
        rw [← hs rfl]; simp only [UInt64.add_assoc]
      rw [e]
      refine ⟨trivial, fun hk => ?_, fun hk => ?_⟩
      · rw [if_pos hk]
        split
        · exact ⟨rfl, rfl⟩
        · simp only [Saver.emit, observations_snoc, obsOf]; simp
      · simp only [hk, Bool.false_eq_true, if_false]
        split
        · simp only [Saver.emit, observations_snoc, obsOf]; simp
        · simp only [Saver.emit, observations_snoc, obsOf]; simp
    | received =>
      simp only [dget]
      have e : ∀ x y : UInt64, x + y + r4 + r6 = x + y + live := by
        intro x y; rw [← hr rfl]; simp only [UInt64.add_assoc]
      by_cases hsent : skipReport (l.closed.sent + l.svr.closingTotals.sent + s4 + s6) l.reported.sent = true
      · rw [if_pos hsent]
        simp only [e]
        refine ⟨trivial, fun hk => ?_, fun hk => ?_⟩
        · rw [if_pos hk]; exact ⟨rfl, rfl⟩
        · simp only [hk, Bool.false_eq_true, if_false]
          simp only [Saver.emit, observations_snoc, obsOf]; simp
      · rw [if_neg hsent]
        simp only [e]
        refine ⟨trivial, fun hk => ?_, fun hk => ?_⟩
        · rw [if_pos hk]; simp only [Saver.emit, observations_snoc, obsOf]; simp
        · simp only [hk, Bool.false_eq_true, if_false]
          simp only [Saver.emit, observations_snoc, obsOf]; simp

theorem swapAll_acct (env : Env) (hv : ViewOK env) (d : Dir) (rs : List ArchivalRecord) (hrs : ∀ r ∈ rs, complete r = true) (h : List Call) (s s' : Saver)
    (hc : s.cache = cacheAfter h) (hs : s.swapAll env rs = some s') :
    observations d s'.trace = observations d s.trace ∧ s'.cache = cacheAfter (h ++ rs.map .update) := by
  induction rs generalizing h s with
  | nil => simp only [Saver.swapAll] at hs; injection hs with hs; subst hs; simp [hc]
  | cons r rs ih =>
    simp only [Saver.swapAll] at hs
    obtain ⟨s1, h1, h2⟩ := Option.bind_eq_some_iff.1 hs
    have hr := hrs r (by simp)
    obtain ⟨-, a2, -⟩ := swap_acct env hv d h s hc r hr s1 h1
    obtain ⟨b1, b2⟩ := ih (fun r' h' => hrs r' (by simp [h'])) (h ++ [.update r]) s1
      (by rw [swapAndQueue_cache env _ r s1 h1, hc, cacheAfter_update]) h2
    exact ⟨by rw [b1, a2], by rw [b2]; simp⟩

theorem finish_keys (env : Env) (l : LoopState) :
    ∀ k ∈ env.order l.svr.tick l.svr.cache.endCycle.2.keys, ∃ r, l.svr.cache.endCycle.2.get k = some r := by
  intro k hk
  rw [(env.order_perm _ _).mem_iff, GoMap.mem_keys_iff] at hk
  exact hk

theorem sums_live {s4 s6 r4 r6 : UInt64} {rs : List ArchivalRecord} (h1 : s4 + s6 = sumSent rs) (h2 : r4 + r6 = sumReceived rs) (d : Dir) :
    (d = .sent → s4 + s6 = sumStat d rs) ∧ (d = .received → r4 + r6 = sumStat d rs) :=
  ⟨fun e => by rw [h1, sumStat_sent, e], fun e => by rw [h2, sumStat_received, e]⟩

/-- What a block does to the observations of a direction. `T` is the total computed in this block. -/
theorem block_obs (env : Env) (hv : ViewOK env) (d : Dir) (h : List Call) (l l' : LoopState) (hc : l.svr.cache = cacheAfter h) (b : MessageBlock)
    (hb : l.block env b = some l') :
    ∃ T, T = dget d l'.closed + dget d l'.svr.closingTotals + sumStat d (reports env.exclude b)
    ∧ (¬ unixSeconds b.v4Time > l.lastReportTime → l'.lastReportTime = l.lastReportTime ∧ observations d l'.svr.trace = observations d l.svr.trace ∧ dget d l'.reported = dget d l.reported)
    ∧ (unixSeconds b.v4Time > l.lastReportTime → l'.lastReportTime = unixSeconds b.v4Time
      ∧ (skipReport T (dget d l.reported) = true → observations d l'.svr.trace = observations d l.svr.trace ∧ dget d l'.reported = dget d l.reported)
      ∧ (skipReport T (dget d l.reported) = false → observations d l'.svr.trace = observations d l.svr.trace ++ [(T - dget d l.reported).toNat] ∧ dget d l'.reported = T)) := by
  obtain ⟨s, l1, s4, s6, r4, r6, e1, e2, rfl, e4, e5⟩ := block_decompose env l b l' hb
  obtain ⟨o1, c1⟩ := swapAll_acct env hv d _ (fun r hr => reports_complete hr) h l.svr s hc e1
  obtain ⟨-, a2, a3, a4, -⟩ := expireAll_acct env hv d _ _ (finish_keys env { l with svr := s }) _ _ e2
  have a2 : observations d l1.svr.trace = observations d l.svr.trace := by rw [← o1]; exact a2
  have a3 : l1.reported = l.reported := a3
  have a4 : l1.lastReportTime = l.lastReportTime := a4
  obtain ⟨-, -, -, f4, f5, -, -⟩ := report_effect l1 b.v4Time s4 s6 r4 r6
  obtain ⟨g1, g2⟩ := sums_live e4 e5 d
  obtain ⟨r1, r2⟩ := report_acct d l1 b.v4Time s4 s6 r4 r6 _ g1 g2
  refine ⟨_, rfl, ?_, ?_⟩
  · intro hn
    rw [r1 (by rw [a4]; exact hn)]
    exact ⟨a4, a2, by rw [a3]⟩
  · intro hn
    obtain ⟨x1, x2, x3⟩ := r2 (by rw [a4]; exact hn)
    rw [f4, f5]
    refine ⟨x1, ?_, ?_⟩
    · rw [← a2, ← a3]; exact x2
    · rw [← a2, ← a3]; exact x3

theorem blocks_snoc (env : Env) (bs : List MessageBlock) (b : MessageBlock) (l : LoopState) :
    LoopState.blocks env (bs ++ [b]) l = (LoopState.blocks env bs l).bind (fun l => l.block env b) := by
  induction bs generalizing l with
  | nil =>
    show (l.block env b).bind (LoopState.blocks env []) = l.block env b
    cases l.block env b <;> rfl
  | cons x bs ih =>
    simp only [List.cons_append, LoopState.blocks]
    cases l.block env x with
    | none => rfl
    | some l1 => exact ih l1

/-- Induction over the blocks of a run. -/
theorem blocks_induct (env : Env) (P : List MessageBlock → LoopState → Prop) (h0 : P [] newLoop)
    (hs : ∀ bs l b l', runBlocks env bs = some l → P bs l → l.block env b = some l' → P (bs ++ [b]) l') (bs : List MessageBlock) :
    ∀ l, runBlocks env bs = some l → P bs l := by
  refine snoc_induction (P := fun bs => ∀ l, runBlocks env bs = some l → P bs l) ?_ ?_ bs
  · intro l h; simp only [runBlocks, LoopState.blocks] at h; injection h with h; subst h; exact h0
  · intro bs b ih l h
    unfold runBlocks at h
    rw [blocks_snoc] at h
    obtain ⟨l1, h1, h2⟩ := Option.bind_eq_some_iff.1 h
    exact hs bs l1 b l h1 (ih l1 h1) h2

theorem runBlocks_snoc {env : Env} {bs : List MessageBlock} {b : MessageBlock} {l' : LoopState} (h : runBlocks env (bs ++ [b]) = some l') :
    ∃ l, runBlocks env bs = some l ∧ l.block env b = some l' := by
  unfold runBlocks at h
  rw [blocks_snoc] at h
  exact Option.bind_eq_some_iff.1 h

/-! ## C46 -/

/-- Sum of numbers. -/
def sumNat (l : List Nat) : Nat := l.foldr (· + ·) 0

theorem sumNat_snoc (l : List Nat) (n : Nat) : sumNat (l ++ [n]) = sumNat l + n := by
  induction l with
  | nil => simp [sumNat]
  | cons x l ih => simp only [sumNat, List.cons_append, List.foldr_cons] at ih ⊢; omega

theorem skip_false {T R : UInt64} (h : skipReport T R = false) : R.toNat ≤ T.toNat ∧ T.toNat ≤ R.toNat + 12500000000 := by
  unfold skipReport at h
  simp only [Bool.or_eq_false_iff, decide_eq_false_iff_not, UInt64.not_lt] at h
  obtain ⟨h1, h2⟩ := h
  rw [UInt64.le_iff_toNat_le] at h2
  have h1 : T.toNat ≤ (maxDelta + R).toNat := by
    rw [UInt64.le_iff_toNat_le] at h1
    exact h1
  rw [UInt64.toNat_add] at h1
  have hm : maxDelta.toNat = 12500000000 := by decide
  rw [hm] at h1
  have := Nat.mod_le (12500000000 + R.toNat) (2^64)
  omega

theorem skip_true {T R : UInt64} (hR : R.toNat + 12500000000 < 2^64) (h : skipReport T R = true) : T.toNat < R.toNat ∨ R.toNat + 12500000000 < T.toNat := by
  unfold skipReport at h
  have hm : maxDelta.toNat = 12500000000 := by decide
  simp only [Bool.or_eq_true, decide_eq_true_eq] at h
  rcases h with h | h
  · have h : maxDelta + R < T := h
    rw [UInt64.lt_iff_toNat_lt, UInt64.toNat_add, hm, Nat.mod_eq_of_lt (by omega)] at h
    omega
  · rw [UInt64.lt_iff_toNat_lt] at h
    omega

theorem obs_inv (env : Env) (hv : ViewOK env) (d : Dir) (bs : List MessageBlock) (l : LoopState) (h : runBlocks env bs = some l) :
    sumNat (observations d l.svr.trace) = (dget d l.reported).toNat
    ∧ (∀ n ∈ observations d l.svr.trace, n ≤ 12500000000)
    ∧ (∀ b ∈ bs, unixSeconds b.v4Time ≤ l.lastReportTime)
    ∧ ∃ ts : List Int, ts.Sublist (bs.map (fun b => unixSeconds b.v4Time)) ∧ ts.Pairwise (· < ·) ∧ ts.length = (observations d l.svr.trace).length := by
  refine blocks_induct env (fun bs l => sumNat (observations d l.svr.trace) = (dget d l.reported).toNat
    ∧ (∀ n ∈ observations d l.svr.trace, n ≤ 12500000000)
    ∧ (∀ b ∈ bs, unixSeconds b.v4Time ≤ l.lastReportTime)
    ∧ ∃ ts : List Int, ts.Sublist (bs.map (fun b => unixSeconds b.v4Time)) ∧ ts.Pairwise (· < ·) ∧ ts.length = (observations d l.svr.trace).length) ?_ ?_ bs l h
  · exact ⟨by cases d <;> rfl, by cases d <;> simp [newLoop, newSaver, observations], by simp, [], by simp, by simp, by cases d <;> rfl⟩
  · rintro bs l b l' hl ⟨i1, i2, i3, ts, t1, t2, t3⟩ hb
    obtain ⟨T, -, o1, o2⟩ := block_obs env hv d _ l l' (run_cache env bs l hl) b hb
    by_cases hn : unixSeconds b.v4Time > l.lastReportTime
    · obtain ⟨x1, x2, x3⟩ := o2 hn
      have hall : ∀ b' ∈ bs ++ [b], unixSeconds b'.v4Time ≤ l'.lastReportTime := by
        intro b' hb'
        rw [x1]
        rcases List.mem_append.1 hb' with hb' | hb'
        · have := i3 b' hb'; omega
        · have : b' = b := by simpa using hb'
          rw [this]; omega
      cases hk : skipReport T (dget d l.reported) with
      | true =>
        obtain ⟨y1, y2⟩ := x2 hk
        rw [y1, y2]
        exact ⟨i1, i2, hall, ts, by rw [List.map_append]; exact t1.trans (List.sublist_append_left _ _), t2, t3⟩
      | false =>
        obtain ⟨y1, y2⟩ := x3 hk
        obtain ⟨z1, z2⟩ := skip_false hk
        have hsub : (T - dget d l.reported).toNat = T.toNat - (dget d l.reported).toNat := UInt64.toNat_sub_of_le _ _ (UInt64.le_iff_toNat_le.2 z1)
        rw [y1, y2]
        refine ⟨?_, ?_, hall, ts ++ [unixSeconds b.v4Time], ?_, ?_, ?_⟩
        · rw [sumNat_snoc, i1, hsub]; omega
        · intro n hn'
          rcases List.mem_append.1 hn' with hn' | hn'
          · exact i2 n hn'
          · have : n = (T - dget d l.reported).toNat := by simpa using hn'
            omega
        · rw [List.map_append]
          exact List.Sublist.append t1 (List.Sublist.refl _)
        · rw [List.pairwise_append]
          refine ⟨t2, by simp, ?_⟩
          intro x hx y hy
          have : y = unixSeconds b.v4Time := by simpa using hy
          obtain ⟨b', hb', rfl⟩ := List.mem_map.1 (t1.subset hx)
          have := i3 b' hb'
          omega
        · simp [t3]
    · obtain ⟨x1, x2, x3⟩ := o1 hn
      rw [x2, x3, x1]
      refine ⟨i1, i2, ?_, ts, by rw [List.map_append]; exact t1.trans (List.sublist_append_left _ _), t2, t3⟩
      intro b' hb'
      rcases List.mem_append.1 hb' with hb' | hb'
      · exact i3 b' hb'
      · have : b' = b := by simpa using hb'
        rw [this]; omega

/-- C46. Every observation is at most 12.5e9 bytes (1e11 bits), so in particular never a wrapped negative difference. -/
theorem C46_bounded (env : Env) (hv : ViewOK env) (d : Dir) (bs : List MessageBlock) (l : LoopState) (h : runBlocks env bs = some l) :
    ∀ n ∈ observations d l.svr.trace, 8 * n ≤ 100000000000 := by
  intro n hn
  have := (obs_inv env hv d bs l h).2.1 n hn
  omega

/-- C46. The observations add up to the total last reported. -/
theorem C46_sum (env : Env) (hv : ViewOK env) (d : Dir) (bs : List MessageBlock) (l : LoopState) (h : runBlocks env bs = some l) :
    (observations d l.svr.trace).foldr (· + ·) 0 = (match d with | .sent => l.reported.sent | .received => l.reported.received).toNat := by
  have := (obs_inv env hv d bs l h).1
  cases d <;> exact this

/-- C46. The reported totals never decrease, and a block makes at most one observation per direction. -/
theorem C46_monotone (env : Env) (hv : ViewOK env) (bs : List MessageBlock) (l l' : LoopState) (h : runBlocks env bs = some l) (b : MessageBlock)
    (hb : l.block env b = some l') :
    l.reported.sent ≤ l'.reported.sent ∧ l.reported.received ≤ l'.reported.received
    ∧ ∀ d, observations d l'.svr.trace = observations d l.svr.trace ∨ ∃ n, observations d l'.svr.trace = observations d l.svr.trace ++ [n] := by
  have key : ∀ d, dget d l.reported ≤ dget d l'.reported
      ∧ (observations d l'.svr.trace = observations d l.svr.trace ∨ ∃ n, observations d l'.svr.trace = observations d l.svr.trace ++ [n]) := by
    intro d
    obtain ⟨T, -, o1, o2⟩ := block_obs env hv d _ l l' (run_cache env bs l h) b hb
    by_cases hn : unixSeconds b.v4Time > l.lastReportTime
    · obtain ⟨x1, x2, x3⟩ := o2 hn
      cases hk : skipReport T (dget d l.reported) with
      | true => obtain ⟨y1, y2⟩ := x2 hk; rw [y2]; exact ⟨UInt64.le_refl _, Or.inl y1⟩
      | false =>
        obtain ⟨y1, y2⟩ := x3 hk
        rw [y2]; exact ⟨UInt64.le_iff_toNat_le.2 (skip_false hk).1, Or.inr ⟨_, y1⟩⟩
    · obtain ⟨x1, x2, x3⟩ := o1 hn
      rw [x3]; exact ⟨UInt64.le_refl _, Or.inl x2⟩
  exact ⟨(key .sent).1, (key .received).1, fun d => (key d).2⟩

/-- C46. At most one observation per direction per wall-clock second: the observations correspond to blocks with strictly increasing seconds. -/
theorem C46_per_second (env : Env) (hv : ViewOK env) (d : Dir) (bs : List MessageBlock) (l : LoopState) (h : runBlocks env bs = some l) :
    ∃ ts : List Int, ts.Sublist (bs.map (fun b => b.v4Time / 1000000000)) ∧ ts.Pairwise (· < ·) ∧ ts.length = (observations d l.svr.trace).length :=
  (obs_inv env hv d bs l h).2.2.2

/-- Three blocks, the last two within the same second. -/
def statBlocks : List MessageBlock :=
  [exBlock 1000000000 [exMsg 1 0 5, exMsg 2 0 7], exBlock 2000000000 [exMsg 1 0 9, exMsg 2 0 7], exBlock 2500000000 [exMsg 1 0 20, exMsg 2 0 7]]

example : ((runBlocks exEnv statBlocks).map (fun l => observations .sent l.svr.trace)) = some [12, 4] := by decide +kernel
example : ViewOK exEnv := fun _ _ => ⟨rfl, rfl, ⟨rfl, rfl, rfl⟩, rfl⟩

/-! ## C45 -/

/-- The accounting invariant. -/
structure AcctInv (d : Dir) (h : List Call) (l : LoopState) : Prop where
  prev : (cks (cycles h).1).Nodup
  cur : (cks (cycles h).2).Nodup
  split : ∃ older, recs h = older ++ (cycles h).1 ++ (cycles h).2
  sum : dget d l.closed + dget d l.svr.closingTotals + (sumStat d (cycles h).2
    + sumStat d ((cycles h).1.filter (fun p => decide (ck p ∉ cks (cycles h).2)))) = total64 d (recs h)

theorem recs_update (h : List Call) (r : ArchivalRecord) : recs (h ++ [.update r]) = recs h ++ [r] := by simp [recs]
theorem recs_endCycle (h : List Call) : recs (h ++ [.endCycle]) = recs h := by simp [recs]

theorem recs_history (ex : Option ExcludeConfig) (bs : List MessageBlock) : recs (history ex bs) = bs.flatMap (reports ex) := by
  induction bs with
  | nil => rfl
  | cons b bs ih =>
    have : history ex (b :: bs) = (reports ex b).map .update ++ [.endCycle] ++ history ex bs := by simp [history]
    rw [this]
    have hm : ∀ rs : List ArchivalRecord, recs (rs.map .update) = rs := by
      intro rs; induction rs with
      | nil => rfl
      | cons r rs ih => simp only [recs, List.map_cons, List.filterMap_cons] at ih ⊢; rw [ih]
    have ha : ∀ a b, recs (a ++ b) = recs a ++ recs b := fun a b => by simp [recs]
    rw [ha, ha, ih, hm]
    simp [recs]

theorem tidy_init {h : List Call} {c : Call} (ht : Tidy (h ++ [c])) : Tidy h := by
  intro h1 r h2 e
  exact ht h1 r (h2 ++ [c]) (by rw [e]; simp)

theorem filter_snoc_key (l : List ArchivalRecord) (cur : List ArchivalRecord) (r : ArchivalRecord) :
    l.filter (fun p => decide (ck p ∉ cks (cur ++ [r]))) = (l.filter (fun p => decide (ck p ∉ cks cur))).filter (fun x => decide (ck x ≠ ck r)) := by
  rw [List.filter_filter]
  congr 1
  funext p
  rw [Bool.eq_iff_iff]
  simp only [decide_eq_true_eq, Bool.and_eq_true, cks, List.map_append, List.mem_append, List.map_cons, List.map_nil, List.mem_singleton]
  constructor
  · intro h; exact ⟨fun e => h (Or.inr e), fun e => h (Or.inl e)⟩
  · rintro ⟨h1, h2⟩ (e | e)
    · exact h2 e
    · exact h1 e

theorem nodup_filter_cks {l : List ArchivalRecord} (hn : (cks l).Nodup) (q : ArchivalRecord → Bool) : (cks (l.filter q)).Nodup :=
  List.Sublist.nodup (List.Sublist.map _ List.filter_sublist) hn

theorem acct_update (env : Env) (hv : ViewOK env) (d : Dir) (h : List Call) (l : LoopState) (hc : l.svr.cache = cacheAfter h) (r : ArchivalRecord)
    (hr : complete r = true) (s' : Saver) (hs : l.svr.swapAndQueue env r = some s') (ht : Tidy (h ++ [.update r])) (hi : AcctInv d h l) :
    AcctInv d (h ++ [.update r]) { l with svr := s' } := by
  obtain ⟨t1, t2, t3⟩ := ht h r [] rfl
  obtain ⟨a1, -⟩ := swap_acct env hv d h l.svr hc r hr s' hs
  have hcur : ∀ x ∈ (cycles h).2, ck x ≠ ck r := lastFor_none.1 t1
  have href : reference h r = lastFor (ck r) (cycles h).1 := by
    unfold reference; simp only; rw [if_pos t1]
  have hcyc : cycles (h ++ [.update r]) = ((cycles h).1, (cycles h).2 ++ [r]) := by rw [cycles_update, if_pos hr]
  obtain ⟨older, hold⟩ := hi.split
  refine ⟨by rw [hcyc]; exact hi.prev, ?_, ⟨older, by rw [hcyc, recs_update, hold]; simp⟩, ?_⟩
  · rw [hcyc]
    show (cks ((cycles h).2 ++ [r])).Nodup
    rw [cks, List.map_append, List.nodup_append]
    refine ⟨hi.cur, by simp, ?_⟩
    intro a ha b hb
    obtain ⟨x, hx, rfl⟩ := List.mem_map.1 ha
    have : b = ck r := by simpa using hb
    rw [this]; exact hcur x hx
  · rw [hcyc, recs_update]
    simp only
    rw [filter_snoc_key, sumStat_append, a1]
    have hsum := hi.sum
    have hrs : sumStat d [r] = stat d r := by simp [sumStat]
    rw [hrs]
    have hsome : (counter d r).isSome = (counter .sent r).isSome := counter_isSome' _ _ _
    cases hp : lastFor (ck r) (cycles h).1 with
    | none =>
      -- not in the previous cycle
      have hprev : ∀ x ∈ (cycles h).1, ck x ≠ ck r := lastFor_none.1 hp
      have hf : ((cycles h).1.filter (fun p => decide (ck p ∉ cks (cycles h).2))).filter (fun x => decide (ck x ≠ ck r))
          = (cycles h).1.filter (fun p => decide (ck p ∉ cks (cycles h).2)) := by
        rw [List.filter_eq_self]
        intro x hx
        simpa using hprev x (List.mem_filter.1 hx).1
      have hcd : closingDelta d h r = 0 := by unfold closingDelta; rw [href, hp]
      rw [hf, hcd]
      have hgoal : total64 d (recs h ++ [r]) = total64 d (recs h) + stat d r := by
        by_cases hcr : (counter .sent r).isSome = true
        · refine total64_snoc_first d _ r (by rw [hsome]; exact hcr) ?_
          rcases t2 hcr with ⟨p, hp', -⟩ | hno
          · rw [hp] at hp'; simp at hp'
          · intro x hx he
            have := hno x hx he
            rw [counter_isSome' d .sent]
            cases hh : counter .sent x with
            | none => rfl
            | some n => rw [hh] at this; simp at this
        · have hf : (counter d r).isSome = false := by rw [hsome]; simpa using hcr
          rw [total64_snoc_none d _ r hf, stat_none hf]; simp
      rw [hgoal, ← hsum]
      simp only [UInt64.add_zero]
      grind
    | some p =>
      obtain ⟨hpm, hpk⟩ := lastFor_mem hp
      have hpk : ck p = ck r := hpk
      have hpf : p ∈ (cycles h).1.filter (fun p => decide (ck p ∉ cks (cycles h).2)) := by
        rw [List.mem_filter]
        refine ⟨hpm, ?_⟩
        rw [decide_eq_true_eq]
        intro hm
        obtain ⟨x, hx, he⟩ := List.mem_map.1 hm
        exact hcur x hx (by rw [← hpk]; exact he)
      have hrem := sumStat_remove d _ (nodup_filter_cks hi.prev _) p hpf
      rw [hpk] at hrem
      have hcd : closingDelta d h r = if hasDiagInfo r = false ∧ hasDiagInfo p = true then stat d p else 0 := by
        unfold closingDelta; rw [href, hp]
      rw [hcd]
      -- p is the last record of its connection
      obtain ⟨q1, q2, hq⟩ := List.append_of_mem hpm
      have hq2 : ∀ x ∈ q2 ++ (cycles h).2, ck x ≠ ck r := by
        intro x hx
        rcases List.mem_append.1 hx with hx | hx
        · intro e
          have hn := hi.prev
          rw [hq, cks, List.map_append, List.map_cons, List.nodup_append] at hn
          exact (List.nodup_cons.1 hn.2.1).1 (List.mem_map.2 ⟨x, hx, by rw [hpk]; exact e⟩)
        · exact hcur x hx
      have hrecs : recs h = (older ++ q1) ++ p :: (q2 ++ (cycles h).2) := by rw [hold, hq]; simp
      by_cases hcr : (counter .sent r).isSome = true
      · have hir : hasDiagInfo r = true := counter_hasInfo hcr
        rw [if_neg (by rw [hir]; simp)]
        by_cases hcp : (counter .sent p).isSome = true
        · have hnext := total64_snoc_next d (older ++ q1) (q2 ++ (cycles h).2) p r (by rw [hsome]; exact hcr) (by rw [counter_isSome' d .sent]; exact hcp) hpk hq2
          rw [← hrecs] at hnext
          generalize sumStat d (((cycles h).1.filter (fun p => decide (ck p ∉ cks (cycles h).2))).filter (fun x => decide (ck x ≠ ck r))) = F at *
          rw [hrem] at hsum
          generalize total64 d (recs h ++ [r]) = T' at *
          generalize total64 d (recs h) = T at *
          grind
        · have hno : ∀ x ∈ recs h, ck x = ck r → (counter d x).isSome = false := by
            rcases t2 hcr with ⟨p', hp', hc'⟩ | hno
            · have : p' = p := by rw [hp] at hp'; exact (Option.some.inj hp').symm
              rw [this] at hc'; exact absurd hc' hcp
            · intro x hx he
              have := hno x hx he
              rw [counter_isSome' d .sent]
              cases hh : counter .sent x with
              | none => rfl
              | some n => rw [hh] at this; simp at this
          rw [total64_snoc_first d _ r (by rw [hsome]; exact hcr) hno, ← hsum, hrem]
          have : stat d p = 0 := stat_none (by rw [counter_isSome' d .sent]; simpa using hcp)
          rw [this]
          grind
      · have hf : (counter d r).isSome = false := by rw [hsome]; simpa using hcr
        have hir : hasDiagInfo r = false := by
          cases hh : hasDiagInfo r with
          | false => rfl
          | true =>
            exfalso
            apply hcr
            apply t3
            have e : (r.attributes.getD []) = r.attrs := by unfold ArchivalRecord.attrs; cases r.attributes <;> rfl
            rw [e]
            simpa [hasDiagInfo, INET_DIAG_INFO] using hh
        rw [total64_snoc_none d _ r hf, stat_none hf, ← hsum, hrem]
        cases hip : hasDiagInfo p with
        | true => rw [if_pos ⟨hir, rfl⟩]; grind
        | false =>
          rw [if_neg (by simp), stat_noInfo d hip]
          grind

theorem acct_finish (env : Env) (hv : ViewOK env) (d : Dir) (h : List Call) (l l1 : LoopState) (hc : l.svr.cache = cacheAfter h)
    (hf : l.finish env = some l1) (hi : AcctInv d h l) (t : Int) (s4 s6 r4 r6 : UInt64) : AcctInv d (h ++ [.endCycle]) (l1.report t s4 s6 r4 r6) := by
  obtain ⟨a1, -⟩ := expireAll_acct env hv d _ _ (finish_keys env l) _ _ hf
  have a1 : dget d l1.closed + dget d l1.svr.closingTotals = dget d l.closed + dget d l.svr.closingTotals
    + sumKeys (resStat d l.svr.cache.endCycle.2) (env.order l.svr.tick l.svr.cache.endCycle.2.keys) := a1
  obtain ⟨-, -, -, f4, f5, -, -⟩ := report_effect l1 t s4 s6 r4 r6
  obtain ⟨older, hold⟩ := hi.split
  have hcyc := cycles_endCycle h
  refine ⟨by rw [hcyc]; exact hi.cur, by rw [hcyc]; simp [cks], ⟨older ++ (cycles h).1, by rw [hcyc, recs_endCycle, hold]; simp⟩, ?_⟩
  rw [f4, f5, hcyc, recs_endCycle, a1, ← hi.sum]
  have hall : (cycles h).2.filter (fun p => decide (ck p ∉ cks ([] : List ArchivalRecord))) = (cycles h).2 := by
    rw [List.filter_eq_self]; intro x _; simp [cks]
  simp only
  rw [hall]
  have hks : sumKeys (resStat d l.svr.cache.endCycle.2) (env.order l.svr.tick l.svr.cache.endCycle.2.keys)
      = sumStat d ((cycles h).1.filter (fun p => decide (ck p ∉ cks (cycles h).2))) := by
    have hperm : (env.order l.svr.tick l.svr.cache.endCycle.2.keys).Perm (cks ((cycles h).1.filter (fun p => decide (ck p ∉ cks (cycles h).2)))) := by
      refine (env.order_perm _ _).trans ?_
      rw [hc, List.perm_ext_iff_of_nodup (C30_endCycle h).1 (nodup_filter_cks hi.prev _)]
      intro k
      rw [residual_mem]
      constructor
      · rintro ⟨h1, h2⟩
        obtain ⟨p, hp⟩ := Option.ne_none_iff_exists'.1 h1
        obtain ⟨hm, hk⟩ := lastFor_mem hp
        refine List.mem_map.2 ⟨p, List.mem_filter.2 ⟨hm, ?_⟩, hk⟩
        rw [decide_eq_true_eq]
        intro hm'
        obtain ⟨x, hx, he⟩ := List.mem_map.1 hm'
        exact lastFor_none.1 h2 x hx (by rw [← hk]; exact he)
      · intro hk
        obtain ⟨p, hp, rfl⟩ := List.mem_map.1 hk
        obtain ⟨hm, hn⟩ := List.mem_filter.1 hp
        rw [decide_eq_true_eq] at hn
        refine ⟨by rw [lastFor_unique hi.prev hm]; simp, lastFor_none.2 ?_⟩
        intro x hx he
        exact hn (List.mem_map.2 ⟨x, hx, he⟩)
    rw [sumKeys_perm _ hperm]
    refine sumKeys_cks d _ _ ?_
    intro p hp
    have hk : ck p ∈ (cacheAfter h).endCycle.2.keys := by
      have : ck p ∈ env.order l.svr.tick l.svr.cache.endCycle.2.keys := hperm.mem_iff.2 (List.mem_map.2 ⟨p, hp, rfl⟩)
      rw [(env.order_perm _ _).mem_iff, hc] at this
      exact this
    obtain ⟨v, hv'⟩ := (GoMap.mem_keys_iff _ _).1 hk
    have hg := (residual_get h (ck p) v hv').1
    rw [lastFor_unique hi.prev (List.mem_filter.1 hp).1] at hg
    unfold resStat
    rw [hc, hv', ← Option.some.inj hg]
  rw [hks]
  simp only [sumStat]
  grind

theorem acct_run (env : Env) (hv : ViewOK env) (d : Dir) (bs : List MessageBlock) (l : LoopState) (h : runBlocks env bs = some l)
    (ht : Tidy (history env.exclude bs)) : AcctInv d (history env.exclude bs) l := by
  have := run_induct env (fun h l => l.svr.cache = cacheAfter h ∧ (Tidy h → AcctInv d h l)) (fun _ => True) ⟨rfl, fun _ => ?_⟩ ?_ ?_ bs
    (fun _ _ _ _ => trivial) l h
  · exact this.2 ht
  · refine ⟨by simp [cycles, cks], by simp [cycles, cks], ⟨[], rfl⟩, ?_⟩
    cases d <;> rfl
  · rintro h l r s' hr - ⟨hc, hi⟩ hs
    refine ⟨?_, fun ht => acct_update env hv d h l hc r hr s' hs ht (hi (tidy_init ht))⟩
    show s'.cache = _
    rw [swapAndQueue_cache env _ r s' hs, hc, cacheAfter_update]
  · rintro h l l1 t s4 s6 r4 r6 ⟨hc, hi⟩ hf - -
    refine ⟨by rw [report_cache, finish_cache env l l1 hf, hc, cacheAfter_endCycle], fun ht => acct_finish env hv d h l l1 hc hf (hi (tidy_init ht)) t s4 s6 r4 r6⟩

theorem tidy_total (env : Env) (hv : ViewOK env) (d : Dir) (bs : List MessageBlock) (b : MessageBlock) (l l' : LoopState) (h : runBlocks env bs = some l)
    (hb : l.block env b = some l') (ht : Tidy (history env.exclude (bs ++ [b]))) :
    dget d l'.closed + dget d l'.svr.closingTotals + sumStat d (reports env.exclude b) = total64 d ((bs ++ [b]).flatMap (reports env.exclude)) := by
  have hrun : runBlocks env (bs ++ [b]) = some l' := by
    unfold runBlocks at h ⊢
    rw [blocks_snoc, h]; exact hb
  have hi := acct_run env hv d _ _ hrun ht
  have hh : history env.exclude (bs ++ [b]) = (history env.exclude bs ++ (reports env.exclude b).map .update) ++ [.endCycle] := by simp [history]
  have hcyc : cycles (history env.exclude (bs ++ [b])) = (reports env.exclude b, []) := by
    rw [hh, cycles_endCycle, cycles_updates _ _ (fun r hr => reports_complete hr)]
    have : (cycles (history env.exclude bs)).2 = [] := by
      refine snoc_induction (P := fun bs => (cycles (history env.exclude bs)).2 = []) rfl ?_ bs
      intro bs b _
      have : history env.exclude (bs ++ [b]) = (history env.exclude bs ++ (reports env.exclude b).map .update) ++ [.endCycle] := by simp [history]
      rw [this, cycles_endCycle]
    rw [this]; simp
  have hs := hi.sum
  rw [hcyc, recs_history] at hs
  simp only [sumStat] at hs
  have hall : (reports env.exclude b).filter (fun p => decide (ck p ∉ cks ([] : List ArchivalRecord))) = reports env.exclude b := by
    rw [List.filter_eq_self]; intro x _; simp [cks]
  rw [hall] at hs
  rw [← hs]
  grind

/-- C45 (partial). Whenever a block leads to an observation, all observations so far add up to the sum, over all connections seen so far, of the last
byte counter the kernel reported for the connection (modulo 2^64) — for histories that are `Tidy`. Missing: the others, see `C45_violated_*`, and `C45_exact` for what is exported then. -/
theorem C45_conserved_partial (env : Env) (hv : ViewOK env) (d : Dir) (bs : List MessageBlock) (b : MessageBlock) (l l' : LoopState)
    (h : runBlocks env bs = some l) (hb : l.block env b = some l') (ht : Tidy (history env.exclude (bs ++ [b])))
    (ho : observations d l'.svr.trace ≠ observations d l.svr.trace) :
    (observations d l'.svr.trace).foldr (· + ·) 0 = lastTotal d ((bs ++ [b]).flatMap (reports env.exclude)) % 2^64 := by
  have hrun : runBlocks env (bs ++ [b]) = some l' := by
    unfold runBlocks at h ⊢
    rw [blocks_snoc, h]; exact hb
  have hsum : sumNat (observations d l'.svr.trace) = (dget d l'.reported).toNat := (obs_inv env hv d _ l' hrun).1
  obtain ⟨T, hT, o1, o2⟩ := block_obs env hv d _ l l' (run_cache env bs l h) b hb
  show sumNat _ = _
  rw [hsum]
  rw [tidy_total env hv d bs b l l' h hb ht] at hT
  by_cases hn : unixSeconds b.v4Time > l.lastReportTime
  · obtain ⟨-, x2, x3⟩ := o2 hn
    cases hk : skipReport T (dget d l.reported) with
    | true => exact absurd (x2 hk).1 ho
    | false =>
      rw [(x3 hk).2, hT, total64, UInt64.toNat_ofNat']
  · exact absurd (o1 hn).2.1 ho

theorem last_inv (env : Env) (hv : ViewOK env) (bs : List MessageBlock) (l : LoopState) (h : runBlocks env bs = some l) :
    l.lastReportTime = -62135596800 ∨ ∃ b ∈ bs, l.lastReportTime = unixSeconds b.v4Time := by
  refine blocks_induct env (fun bs l => l.lastReportTime = -62135596800 ∨ ∃ b ∈ bs, l.lastReportTime = unixSeconds b.v4Time) (Or.inl rfl) ?_ bs l h
  intro bs l b l' hl hi hb
  obtain ⟨T, -, o1, o2⟩ := block_obs env hv .sent _ l l' (run_cache env bs l hl) b hb
  by_cases hn : unixSeconds b.v4Time > l.lastReportTime
  · exact Or.inr ⟨b, by simp, (o2 hn).1⟩
  · rw [(o1 hn).1]
    rcases hi with hi | ⟨b', hb', e⟩
    · exact Or.inl hi
    · exact Or.inr ⟨b', by simp [hb'], e⟩

/-- C47 (partial). Whatever was skipped before: in the first block of a new second, if the true total is not below what was observed so far and at most
12.5e9 bytes above it, the difference is observed. Missing: recovery when the difference has become larger than that (`C47_violated`); for
histories that are not `Tidy` see `C47_observed_iff`. -/
theorem C47_recovers_partial (env : Env) (hv : ViewOK env) (d : Dir) (bs : List MessageBlock) (b : MessageBlock) (l l' : LoopState)
    (h : runBlocks env bs = some l) (hb : l.block env b = some l') (ht : Tidy (history env.exclude (bs ++ [b])))
    (hnew : ∀ b' ∈ bs, b'.v4Time / 1000000000 < b.v4Time / 1000000000) (h0 : -62135596800 < b.v4Time / 1000000000)
    (hlo : (observations d l.svr.trace).foldr (· + ·) 0 ≤ lastTotal d ((bs ++ [b]).flatMap (reports env.exclude)))
    (hhi : lastTotal d ((bs ++ [b]).flatMap (reports env.exclude)) ≤ (observations d l.svr.trace).foldr (· + ·) 0 + 12500000000)
    (hmax : (observations d l.svr.trace).foldr (· + ·) 0 + 12500000000 < 2^64) :
    observations d l'.svr.trace = observations d l.svr.trace
      ++ [lastTotal d ((bs ++ [b]).flatMap (reports env.exclude)) - (observations d l.svr.trace).foldr (· + ·) 0] := by
  have hsum : (observations d l.svr.trace).foldr (· + ·) 0 = (dget d l.reported).toNat := (obs_inv env hv d _ l h).1
  obtain ⟨T, hT, o1, o2⟩ := block_obs env hv d _ l l' (run_cache env bs l h) b hb
  rw [tidy_total env hv d bs b l l' h hb ht] at hT
  rw [hsum] at hlo hhi hmax ⊢
  have hn : unixSeconds b.v4Time > l.lastReportTime := by
    rcases last_inv env hv bs l h with e | ⟨b', hb', e⟩
    · rw [e]; exact h0
    · rw [e]; exact hnew b' hb'
  have hTn : T.toNat = lastTotal d ((bs ++ [b]).flatMap (reports env.exclude)) := by
    rw [hT, total64, UInt64.toNat_ofNat', Nat.mod_eq_of_lt (by omega)]
  obtain ⟨-, -, x3⟩ := o2 hn
  have hk : skipReport T (dget d l.reported) = false := by
    cases hk : skipReport T (dget d l.reported) with
    | false => rfl
    | true => have := skip_true hmax hk; omega
  rw [(x3 hk).1, UInt64.toNat_sub_of_le _ _ (UInt64.le_iff_toNat_le.2 (by omega)), hTn]

/-- C47 violated, in general: if the true total is above 12.5e9 bytes when the saver sees its first connections and does not fall below that, nothing
is ever observed, however long it runs and however slowly the total grows. -/
theorem C47_violated_forever (env : Env) (hv : ViewOK env) (d : Dir) (bs : List MessageBlock) (l : LoopState)
    (h : runBlocks env bs = some l) (ht : Tidy (history env.exclude bs))
    (hbig : ∀ bs1 b bs2, bs = bs1 ++ b :: bs2 → 12500000000 < lastTotal d ((bs1 ++ [b]).flatMap (reports env.exclude))
      ∧ lastTotal d ((bs1 ++ [b]).flatMap (reports env.exclude)) < 2^64) :
    observations d l.svr.trace = [] := by
  have key := blocks_induct env (fun bs l => Tidy (history env.exclude bs) → (∀ bs1 b bs2, bs = bs1 ++ b :: bs2 → 12500000000 < lastTotal d ((bs1 ++ [b]).flatMap (reports env.exclude))
      ∧ lastTotal d ((bs1 ++ [b]).flatMap (reports env.exclude)) < 2^64) → observations d l.svr.trace = [] ∧ dget d l.reported = 0)
    (fun _ _ => ⟨by cases d <;> rfl, by cases d <;> rfl⟩) ?_ bs l h
  · exact (key ht hbig).1
  · intro bs l b l' hl hi hb ht hbig
    have htidy : ∀ (a c : List Call), Tidy (a ++ c) → Tidy a := by
      intro a c hac h1 r h2 e
      exact hac h1 r (h2 ++ c) (by rw [e]; simp)
    have hh : history env.exclude (bs ++ [b]) = history env.exclude bs ++ ((reports env.exclude b).map .update ++ [.endCycle]) := by simp [history]
    obtain ⟨i1, i2⟩ := hi (htidy _ _ (hh ▸ ht)) (fun bs1 b1 bs2 e => hbig bs1 b1 (bs2 ++ [b]) (by rw [e]; simp))
    obtain ⟨T, hT, o1, o2⟩ := block_obs env hv d _ l l' (run_cache env bs l hl) b hb
    rw [tidy_total env hv d bs b l l' hl hb ht] at hT
    obtain ⟨b1, b2⟩ := hbig bs b [] rfl
    have hTn : T.toNat = lastTotal d ((bs ++ [b]).flatMap (reports env.exclude)) := by
      rw [hT, total64, UInt64.toNat_ofNat', Nat.mod_eq_of_lt b2]
    by_cases hn : unixSeconds b.v4Time > l.lastReportTime
    · obtain ⟨-, x2, x3⟩ := o2 hn
      cases hk : skipReport T (dget d l.reported) with
      | true => rw [(x2 hk).1, (x2 hk).2]; exact ⟨i1, i2⟩
      | false =>
        have := skip_false hk
        rw [i2] at this
        simp at this
        omega
    · rw [(o1 hn).2.1, (o1 hn).2.2]; exact ⟨i1, i2⟩

/-! ### Concrete cases -/

/-- tcp_info with the given high part (byte 4, multiples of 2^32) and low byte of `tcpi_bytes_sent`. -/
def bigInfo (hi lo : UInt8) : Bytes :=
  [236, 0, 2, 0] ++ List.replicate 200 (0 : UInt8) ++ [lo, 0, 0, 0, hi, 0, 0, 0] ++ List.replicate 24 0
/-- Only an attribute of type 1 (no tcp_info). -/
def noInfo : Bytes := [8, 0, 1, 0, 0, 0, 0, 0]

/-- A connection, first seen with 16 GiB = 17179869184 bytes sent already, sends one byte per second. -/
def bigBlocks : List MessageBlock :=
  [exBlock 1000000000 [exMsgA 1 (bigInfo 4 0)], exBlock 2000000000 [exMsgA 1 (bigInfo 4 1)], exBlock 3000000000 [exMsgA 1 (bigInfo 4 2)]]

/-- C47 violated, concretely. -/
theorem C47_violated : ((runBlocks exEnv bigBlocks).map (fun l => observations .sent l.svr.trace)) = some []
    ∧ lastTotal .sent (bigBlocks.flatMap (reports none)) = 4 * 2^32 + 2 := by decide +kernel

/-- Connection 1 with 5 bytes, without tcp_info, with 6 bytes, without tcp_info. -/
def flickerBlocks : List MessageBlock :=
  [exBlock 1000000000 [exMsg 1 0 5], exBlock 2000000000 [exMsgA 1 noInfo], exBlock 3000000000 [exMsg 1 0 6], exBlock 4000000000 [exMsgA 1 noInfo]]

/-- C45 violated: a connection that loses its tcp_info, regains it and loses it again is counted twice. -/
theorem C45_violated_flicker : ((runBlocks exEnv flickerBlocks).map (fun l => observations .sent l.svr.trace)) = some [5, 0, 6, 0]
    ∧ lastTotal .sent (flickerBlocks.flatMap (reports none)) = 6 := by decide +kernel

/-- C45 violated: a connection that is missing in one poll is counted twice afterwards. -/
theorem C45_violated_gap :
    ((runBlocks exEnv [exBlock 1000000000 [exMsg 1 0 5], exBlock 2000000000 [], exBlock 3000000000 [exMsg 1 0 5]]).map
      (fun l => observations .sent l.svr.trace)) = some [5, 0, 5]
    ∧ lastTotal .sent ([exBlock 1000000000 [exMsg 1 0 5], exBlock 2000000000 [], exBlock 3000000000 [exMsg 1 0 5]].flatMap (reports none)) = 5 := by
  decide +kernel

/-- C45 violated: a connection that is listed twice in one poll is counted twice. -/
theorem C45_violated_twice :
    ((runBlocks exEnv [exBlock 1000000000 [exMsg 1 0 5, exMsg 1 0 5]]).map (fun l => observations .sent l.svr.trace)) = some [10]
    ∧ lastTotal .sent ([exBlock 1000000000 [exMsg 1 0 5, exMsg 1 0 5]].flatMap (reports none)) = 5 := by
  decide +kernel

/-- C45 violated: the last message of a connection has no tcp_info but some attribute of a larger type, so the code takes its counters for 0 (and then
skips the report, since the total has dropped). -/
theorem C45_violated_larger_attr :
    ((runBlocks exEnv [exBlock 1000000000 [exMsg 1 0 5], exBlock 2000000000 [exMsgA 1 [8, 0, 4, 0, 0, 0, 0, 0]]]).map
      (fun l => (l.closed.sent + l.svr.closingTotals.sent, observations .sent l.svr.trace))) = some (0, [5])
    ∧ lastTotal .sent ([exBlock 1000000000 [exMsg 1 0 5], exBlock 2000000000 [exMsgA 1 [8, 0, 4, 0, 0, 0, 0, 0]]].flatMap (reports none)) = 5 := by
  decide +kernel

/-- Decides `Tidy`. -/
def tidyB : (h1 h2 : List Call) → Bool
  | _, [] => true
  | h1, .endCycle :: h2 => tidyB (h1 ++ [.endCycle]) h2
  | h1, .update r :: h2 =>
    (lastFor (ck r) (cycles h1).2).isNone
    && (!(counter .sent r).isSome || ((lastFor (ck r) (cycles h1).1).any (fun p => (counter .sent p).isSome))
      || (recs h1).all (fun r' => decide (ck r' ≠ ck r) || (counter .sent r').isNone))
    && (decide ((r.attributes.getD []).length ≤ 2) || (counter .sent r).isSome)
    && tidyB (h1 ++ [.update r]) h2

theorem tidyB_sound (h1 h2 : List Call) (ht : Tidy h1) (hb : tidyB h1 h2 = true) : Tidy (h1 ++ h2) := by
  induction h2 generalizing h1 with
  | nil => simpa using ht
  | cons c h2 ih =>
    have split : ∀ (P : List Call → ArchivalRecord → Prop) (c : Call), (∀ a r b, h1 = a ++ Call.update r :: b → P a r) → (∀ r, c = .update r → P h1 r) →
        ∀ a r b, h1 ++ [c] = a ++ Call.update r :: b → P a r := by
      intro P c hP hc a r b e
      rcases List.append_eq_append_iff.1 e with ⟨x, hx1, hx2⟩ | ⟨x, hx1, hx2⟩
      · cases x with
        | nil =>
          have hx1 : a = h1 := by simpa using hx1
          rw [hx1]
          simp only [List.nil_append, List.cons.injEq] at hx2
          exact hc r hx2.1
        | cons y ys =>
          simp only [List.cons_append, List.cons.injEq] at hx2
          have := congrArg List.length hx2.2
          simp at this
      · cases x with
        | nil =>
          have hx1 : h1 = a := by simpa using hx1
          rw [← hx1]
          simp only [List.nil_append, List.cons.injEq] at hx2
          exact hc r hx2.1.symm
        | cons y ys =>
          simp only [List.cons_append, List.cons.injEq] at hx2
          rw [← hx2.1] at hx1
          exact hP a r ys hx1
    have hstep : Tidy (h1 ++ [c]) ∧ tidyB (h1 ++ [c]) h2 = true := by
      cases c with
      | endCycle => exact ⟨split _ _ ht (fun r e => by simp at e), hb⟩
      | update r =>
        simp only [tidyB, Bool.and_eq_true] at hb
        obtain ⟨⟨⟨b1, b2⟩, b3⟩, b4⟩ := hb
        refine ⟨split _ _ ht ?_, b4⟩
        intro r' e
        injection e with e
        subst e
        refine ⟨by simpa using b1, ?_, ?_⟩
        · intro hs
          rw [hs] at b2
          simp only [Bool.not_true, Bool.false_or, Bool.or_eq_true] at b2
          rcases b2 with b2 | b2
          · left
            cases hl : lastFor (ck r) (cycles h1).1 with
            | none => rw [hl] at b2; simp at b2
            | some p => rw [hl] at b2; exact ⟨p, rfl, by simpa using b2⟩
          · right
            intro r' hr' he
            have := List.all_eq_true.1 b2 r' hr'
            simpa [he] using this
        · intro hl
          simp only [Bool.or_eq_true, decide_eq_true_eq] at b3
          rcases b3 with b3 | b3
          · omega
          · exact b3
    have := ih (h1 ++ [c]) hstep.1 hstep.2
    simpa using this

-- non-vacuity: the blocks above are tidy, lead to observations, and these add up
example : Tidy (history exEnv.exclude statBlocks) := by
  have := tidyB_sound [] (history exEnv.exclude statBlocks) (fun h1 r h2 e => by simp at e) (by decide +kernel)
  simpa using this
example : Tidy (history exEnv.exclude bigBlocks) := by
  have := tidyB_sound [] (history exEnv.exclude bigBlocks) (fun h1 r h2 e => by simp at e) (by decide +kernel)
  simpa using this
example : lastTotal .sent ((statBlocks.take 2).flatMap (reports none)) = 12 + 4 := by decide +kernel

/-! ## C48 -/

/-- C48. The total counter counts every report; new and changed ones are not more than that. -/
theorem C48_total (env : Env) (hv : ViewOK env) (bs : List MessageBlock) (l : LoopState) (h : runBlocks env bs = some l) :
    l.svr.stats.total = (bs.flatMap (reports env.exclude)).length ∧ l.svr.stats.new + l.svr.stats.diff ≤ l.svr.stats.total := by
  have key := run_induct env (fun h l => l.svr.cache = cacheAfter h ∧ l.svr.stats.total = (recs h).length ∧ l.svr.stats.new + l.svr.stats.diff ≤ l.svr.stats.total)
    (fun _ => True) ⟨rfl, rfl, by decide⟩ ?_ ?_ bs (fun _ _ _ _ => trivial) l h
  · rw [← recs_history]; exact key.2
  · rintro h l r s' hr - ⟨hc, h1, h2⟩ hs
    obtain ⟨-, -, a3, -, a5⟩ := swap_acct env hv .sent h l.svr hc r hr s' hs
    refine ⟨?_, ?_, ?_⟩
    · show s'.cache = _
      rw [swapAndQueue_cache env _ r s' hs, hc, cacheAfter_update]
    · show s'.stats.total = _
      rw [a3, h1, recs_update]; simp
    · show s'.stats.new + s'.stats.diff ≤ s'.stats.total
      omega
  · rintro h l l1 t s4 s6 r4 r6 ⟨hc, h1, h2⟩ hf - -
    refine ⟨by rw [report_cache, finish_cache env l l1 hf, hc, cacheAfter_endCycle], ?_⟩
    obtain ⟨-, -, -, -, a5⟩ := expireAll_acct env hv .sent _ _ (finish_keys env l) _ _ hf
    rw [(report_effect l1 t s4 s6 r4 r6).2.1, a5, recs_endCycle]
    exact ⟨h1, h2⟩

/-- C48. Each counter counts exactly what its name says (`CountsFor`): new = reports of connections without a record to compare with, changed = reports
that are due in comparison with their record of the previous cycle, expired = connections that disappeared. -/
theorem C48_counts (env : Env) (hm : env.marshallers ≠ 0) (hv : ViewOK env) (bs : List MessageBlock) (hI : ∀ b ∈ bs, AllInfoOK env.exclude b)
    (l : LoopState) (h : runBlocks env bs = some l) :
    CountsFor (history env.exclude bs) l.svr.stats.total l.svr.stats.new l.svr.stats.diff l.svr.stats.expired := by
  rw [runBlocks_view env hv bs hI] at h
  refine (run_induct' env.still (fun _ _ => rfl) (fun h l => CountsFor h l.svr.stats.total l.svr.stats.new l.svr.stats.diff l.svr.stats.expired) (fun _ => True)
    .nil ?_ ?_ bs hI (fun _ _ _ _ => trivial) l h).2
  · intro h l r s' hr hq _ hi hp hs
    obtain ⟨s1, e1, -, e3, e4, e5, e6, -⟩ := swap_effect env.still (fun _ _ => rfl) h l.svr hi.cache r hr hq (fun p hp => hi.info p (Or.inl hp))
    have : s1 = s' := Option.some.inj (e1.symm.trans hs)
    subst this
    show CountsFor _ s1.stats.total s1.stats.new s1.stats.diff s1.stats.expired
    by_cases hn : reference h r = none
    · rw [e3, e4, (e5 hn).1, (e5 hn).2]; exact .new hp hn
    · by_cases hd : Due h r
      · rw [e3, e4, (e6 hn).1, (e6 hn).2.1 hd]; exact .changed hp hn hd
      · rw [e3, e4, (e6 hn).1, (e6 hn).2.2 hd]; exact .same hp hd
  · intro h l l1 t s4 s6 r4 r6 hi hp hf _ _
    obtain ⟨l', f1, -, -, -, -, -, f7, -⟩ := finish_effect env.still hm (fun _ _ => rfl) h l hi.cache
    have : l' = l1 := Option.some.inj (f1.symm.trans hf)
    subst this
    rw [(report_effect l' t s4 s6 r4 r6).2.1, f7]
    exact .endCycle _ hp (C30_endCycle h).1 (fun k => residual_mem h k)

/-- C48. The counters logged at the end (the collector passes 0 and 0): total = unchanged + changed + new, none of them negative. -/
theorem C48_logged (env : Env) (hv : ViewOK env) (bs : List MessageBlock) (l : LoopState) (h : runBlocks env bs = some l) :
    ∃ total same diff new : Nat, logCacheStats l.svr.stats 0 0 = ((total : Int), 0, (same : Int), (diff : Int), (new : Int)) ∧ total = same + diff + new := by
  obtain ⟨h1, h2⟩ := C48_total env hv bs l h
  refine ⟨l.svr.stats.total, l.svr.stats.total - (l.svr.stats.new + l.svr.stats.diff), l.svr.stats.diff, l.svr.stats.new, ?_, by omega⟩
  simp only [logCacheStats]
  refine Prod.ext ?_ (Prod.ext rfl (Prod.ext ?_ rfl))
  · simp
  · simp only; omega

/-- C48. Whatever numbers of local connections and errors are passed in, the logged numbers of unchanged, changed, new, local and failed ones add up to the
total counter, and the logged total is that counter and the local ones. -/
theorem C48_logged_args (c : Counters) (localCount errCount : Int) :
    ∃ total locals same diff new : Int, logCacheStats c localCount errCount = (total, locals, same, diff, new)
      ∧ same + diff + new + locals + errCount = c.total ∧ total = c.total + locals ∧ locals = localCount ∧ diff = c.diff ∧ new = c.new := by
  refine ⟨_, _, _, _, _, rfl, ?_, rfl, rfl, rfl, rfl⟩
  omega

example : logCacheStats { total := 10, new := 3, diff := 2, expired := 1 } 4 1 = (14, 4, 0, 2, 3) := by decide

example : ((runBlocks exEnv (statBlocks ++ [exBlock 4000000000 [exMsg 1 0 20]])).map (fun l => l.svr.stats)) = some ⟨7, 2, 0, 1⟩ := by decide +kernel

end TcpInfo
