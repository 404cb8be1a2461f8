import Verif.Props.SaverStats
import Verif.Spec.Exported
/-!
# Lemmas: the saver's tables of closed and closing connections hold exactly the counters that have become final
-/

namespace TcpInfo
open Spec

theorem lasts_mem {rs : List ArchivalRecord} {r : ArchivalRecord} (h : r ∈ lasts rs) : r ∈ rs := by
  induction rs with
  | nil => simp [lasts] at h
  | cons x rs ih =>
    simp only [lasts] at h
    split at h
    · exact List.mem_cons_of_mem _ (ih h)
    · rcases List.mem_cons.1 h with rfl | h
      · simp
      · exact List.mem_cons_of_mem _ (ih h)

theorem lasts_cks (rs : List ArchivalRecord) (k : UInt64) : k ∈ cks (lasts rs) ↔ k ∈ cks rs := by
  induction rs with
  | nil => rfl
  | cons x rs ih =>
    simp only [lasts]
    split
    · rename_i ha
      rw [ih]
      simp only [cks, List.map_cons, List.mem_cons]
      refine ⟨Or.inr, ?_⟩
      rintro (rfl | h)
      · obtain ⟨y, hy, e⟩ := List.any_eq_true.1 ha
        exact List.mem_map.2 ⟨y, hy, by simpa using e⟩
      · exact h
    · simp only [cks, List.map_cons, List.mem_cons] at ih ⊢
      rw [ih]

theorem lasts_nodup (rs : List ArchivalRecord) : (cks (lasts rs)).Nodup := by
  induction rs with
  | nil => simp [lasts, cks]
  | cons x rs ih =>
    simp only [lasts]
    split
    · exact ih
    · rename_i ha
      rw [cks, List.map_cons, List.nodup_cons]
      refine ⟨?_, ih⟩
      intro hm
      have := (lasts_cks rs (ck x)).1 hm
      obtain ⟨y, hy, e⟩ := List.mem_map.1 this
      exact ha (List.any_eq_true.2 ⟨y, hy, by simpa using e⟩)

theorem lastFor_cons (k : UInt64) (x : ArchivalRecord) (rs : List ArchivalRecord) :
    lastFor k (x :: rs) = if lastFor k rs = none then (if ck x = k then some x else none) else lastFor k rs := by
  unfold lastFor
  rw [List.filter_cons]
  by_cases hx : ck x = k
  · rw [if_pos (by simpa using hx), List.getLast?_cons, if_pos hx]
    cases h : (rs.filter (fun r => decide (cookie (r.rawIDM.getD []) = k))).getLast? with
    | none => simp
    | some y => simp
  · rw [if_neg (by simpa using hx), if_neg hx]
    split
    · rename_i h; exact h
    · rfl

theorem lasts_lastFor {rs : List ArchivalRecord} {r : ArchivalRecord} (h : r ∈ lasts rs) : lastFor (ck r) rs = some r := by
  induction rs with
  | nil => simp [lasts] at h
  | cons x rs ih =>
    rw [lastFor_cons]
    simp only [lasts] at h
    split at h
    · rw [ih h]; simp
    · rename_i ha
      have hx : lastFor (ck x) rs = none := lastFor_none.2 (fun y hy e => ha (List.any_eq_true.2 ⟨y, hy, by simpa using e⟩))
      rcases List.mem_cons.1 h with rfl | h
      · rw [if_pos hx, if_pos rfl]
      · rw [ih h]; simp

theorem sumKeys_congr (f g : UInt64 → UInt64) (ks : List UInt64) (he : ∀ k ∈ ks, g k = f k) : sumKeys g ks = sumKeys f ks := by
  induction ks with
  | nil => rfl
  | cons a ks ih => simp only [sumKeys]; rw [he a (by simp), ih (fun k hk => he k (by simp [hk]))]

/-- Sum over the keys changes by the change at one key. -/
theorem sumKeys_change (f g : UInt64 → UInt64) (k : UInt64) (x : UInt64) (ks : List UInt64) (hn : ks.Nodup) (hk : k ∈ ks)
    (he : ∀ k' ∈ ks, k' ≠ k → g k' = f k') (hx : g k = f k + x) : sumKeys g ks = sumKeys f ks + x := by
  induction ks with
  | nil => simp at hk
  | cons a ks ih =>
    obtain ⟨h1, h2⟩ := List.nodup_cons.1 hn
    simp only [sumKeys]
    by_cases ha : a = k
    · subst ha
      have : sumKeys g ks = sumKeys f ks :=
        sumKeys_congr f g ks (fun k' hk' => he k' (by simp [hk']) (fun e => h1 (e ▸ hk')))
      rw [this, hx]
      grind
    · have hk' : k ∈ ks := by
        rcases List.mem_cons.1 hk with e | e
        · exact absurd e.symm ha
        · exact e
      rw [ih h2 hk' (fun k' h' hne => he k' (by simp [h']) hne), he a (by simp) ha]
      grind

theorem sumKeys_add (f g : UInt64 → UInt64) (ks : List UInt64) : sumKeys (fun k => f k + g k) ks = sumKeys f ks + sumKeys g ks := by
  induction ks with
  | nil => rfl
  | cons a ks ih => simp only [sumKeys]; rw [ih]; grind

theorem sumKeys_filter (f : UInt64 → UInt64) (p : UInt64 → Bool) (ks : List UInt64) :
    sumKeys f (ks.filter p) = sumKeys (fun k => if p k then f k else 0) ks := by
  induction ks with
  | nil => rfl
  | cons a ks ih =>
    rw [List.filter_cons]
    split
    · rename_i h; simp only [sumKeys, ih, h, if_true]
    · rename_i h; simp only [sumKeys, ih, h, if_false]; simp

/-- Statistic of the last report of connection `k` in a poll. -/
def lastStat (d : Dir) (P : List ArchivalRecord) (k : UInt64) : UInt64 := match lastFor k P with | none => 0 | some r => stat d r

/-- What the reports `rs` of a poll move to the table of closing connections. -/
def lostStat (d : Dir) (P rs : List ArchivalRecord) (k : UInt64) : UInt64 :=
  match firstFor k rs with
  | none => 0
  | some n => if hasDiagInfo n then 0 else lastStat d P k

theorem firstFor_snoc (k : UInt64) (rs : List ArchivalRecord) (r : ArchivalRecord) :
    firstFor k (rs ++ [r]) = (firstFor k rs).or (if ck r = k then some r else none) := by
  unfold firstFor
  rw [List.find?_append]
  congr 1
  by_cases h : ck r = k <;> simp [List.find?, h]

theorem firstFor_none {k : UInt64} {rs : List ArchivalRecord} : firstFor k rs = none ↔ lastFor k rs = none := by
  rw [lastFor_none, firstFor, List.find?_eq_none]
  constructor
  · intro h r hr e; exact h r hr (by simpa using e)
  · intro h r hr e; exact h r hr (by simpa using e)

theorem closing_polls (env : Env) (hv : ViewOK env) (d : Dir) (h0 : List Call) (hcur : (cycles h0).2 = []) (s : Saver) (hc : s.cache = cacheAfter h0)
    (rs : List ArchivalRecord) : (∀ r ∈ rs, complete r = true) → ∀ s', s.swapAll env rs = some s' →
    s'.cache = cacheAfter (h0 ++ rs.map .update)
    ∧ dget d s'.closingTotals = dget d s.closingTotals + sumKeys (lostStat d (cycles h0).1 rs) (cks (lasts (cycles h0).1)) := by
  refine snoc_induction (P := fun rs => (∀ r ∈ rs, complete r = true) → ∀ s', s.swapAll env rs = some s' →
    s'.cache = cacheAfter (h0 ++ rs.map .update)
    ∧ dget d s'.closingTotals = dget d s.closingTotals + sumKeys (lostStat d (cycles h0).1 rs) (cks (lasts (cycles h0).1))) ?_ ?_ rs
  · intro _ s' hs
    simp only [Saver.swapAll] at hs; injection hs with hs; subst hs
    refine ⟨by simpa using hc, ?_⟩
    have : sumKeys (lostStat d (cycles h0).1 []) (cks (lasts (cycles h0).1)) = 0 := by
      generalize cks (lasts (cycles h0).1) = ks
      induction ks with
      | nil => rfl
      | cons k ks ih => simp only [sumKeys]; rw [ih]; simp [lostStat, firstFor]
    rw [this]; simp
  · intro rs r ih hrs s' hs
    have hsplit : ∃ s1, s.swapAll env rs = some s1 ∧ s1.swapAndQueue env r = some s' := by
      clear ih hrs hc
      induction rs generalizing s with
      | nil =>
        simp only [List.nil_append, Saver.swapAll] at hs
        obtain ⟨s1, h1, h2⟩ := Option.bind_eq_some_iff.1 hs
        injection h2 with h2; subst h2
        exact ⟨s, rfl, h1⟩
      | cons x rs ih =>
        simp only [List.cons_append, Saver.swapAll] at hs
        obtain ⟨s1, h1, h2⟩ := Option.bind_eq_some_iff.1 hs
        obtain ⟨s2, h3, h4⟩ := ih s1 h2
        exact ⟨s2, by simp only [Saver.swapAll]; rw [h1]; exact h3, h4⟩
    obtain ⟨s1, h1, h2⟩ := hsplit
    obtain ⟨c1, c2⟩ := ih (fun x hx => hrs x (by simp [hx])) s1 h1
    have hr := hrs r (by simp)
    have hcyc : cycles (h0 ++ rs.map .update) = ((cycles h0).1, rs) := by
      rw [cycles_updates _ _ (fun x hx => hrs x (by simp [hx])), hcur]; simp
    obtain ⟨a1, -⟩ := swap_acct env hv d _ s1 c1 r hr s' h2
    refine ⟨by rw [swapAndQueue_cache env _ r s' h2, c1, ← cacheAfter_update]; simp, ?_⟩
    rw [a1, c2]
    unfold closingDelta
    have href : reference (h0 ++ rs.map .update) r = if lastFor (ck r) rs = none then lastFor (ck r) (cycles h0).1 else none := by
      unfold reference; rw [hcyc]
    rw [href, UInt64.add_assoc]
    congr 1
    by_cases hl : lastFor (ck r) rs = none
    · rw [if_pos hl]
      have hother : ∀ k, k ≠ ck r → lostStat d (cycles h0).1 (rs ++ [r]) k = lostStat d (cycles h0).1 rs k := by
        intro k hk
        unfold lostStat
        rw [firstFor_snoc, if_neg (fun e => hk e.symm)]
        cases firstFor k rs <;> rfl
      cases hp : lastFor (ck r) (cycles h0).1 with
      | none =>
        have hnot : ck r ∉ cks (lasts (cycles h0).1) := by
          rw [lasts_cks]
          intro hm
          obtain ⟨x, hx, e⟩ := List.mem_map.1 hm
          exact lastFor_none.1 hp x hx e
        rw [sumKeys_congr (lostStat d (cycles h0).1 rs) _ _ (fun k hk => hother k (fun e => hnot (e ▸ hk)))]
        simp
      | some p =>
        have hin : ck r ∈ cks (lasts (cycles h0).1) := by
          rw [lasts_cks]
          obtain ⟨hm, hk⟩ := lastFor_mem hp
          exact List.mem_map.2 ⟨p, hm, hk⟩
        refine (sumKeys_change _ _ (ck r) _ _ (lasts_nodup _) hin (fun k _ hk => hother k hk) ?_).symm
        unfold lostStat
        rw [firstFor_snoc, firstFor_none.2 hl, if_pos rfl]
        simp only [Option.none_or]
        have hls : lastStat d (cycles h0).1 (ck r) = stat d p := by unfold lastStat; rw [hp]
        rw [hls]
        cases hr' : hasDiagInfo r with
        | true => simp
        | false =>
          cases hp' : hasDiagInfo p with
          | true => simp
          | false => simp [stat_noInfo d hp']
    · rw [if_neg hl]
      rw [sumKeys_congr (lostStat d (cycles h0).1 rs) (lostStat d (cycles h0).1 (rs ++ [r]))]
      · simp
      · intro k hk
        unfold lostStat
        rw [firstFor_snoc]
        by_cases hkr : ck r = k
        · subst hkr
          cases hf : firstFor (ck r) rs with
          | none => exact absurd (firstFor_none.1 hf) hl
          | some n => rfl
        · rw [if_neg hkr]
          cases firstFor k rs <;> rfl

/-- What one poll adds to the closed and closing totals. -/
theorem poll_adds (env : Env) (hv : ViewOK env) (d : Dir) (h0 : List Call) (hcur : (cycles h0).2 = []) (l l' : LoopState)
    (hc : l.svr.cache = cacheAfter h0) (b : MessageBlock) (hb : l.block env b = some l') :
    dget d l'.closed + dget d l'.svr.closingTotals = dget d l.closed + dget d l.svr.closingTotals
      + UInt64.ofNat (ended d (cycles h0).1 (reports env.exclude b)) := by
  obtain ⟨s, l1, s4, s6, r4, r6, e1, e2, rfl, -, -⟩ := block_decompose env l b l' hb
  have hcomp : ∀ r ∈ reports env.exclude b, complete r = true := fun r hr => reports_complete hr
  obtain ⟨c1, c2⟩ := closing_polls env hv d h0 hcur l.svr hc (reports env.exclude b) hcomp s e1
  obtain ⟨a1, -⟩ := expireAll_acct env hv d _ _ (finish_keys env { l with svr := s }) _ _ e2
  obtain ⟨-, -, -, f4, f5, -, -⟩ := report_effect l1 b.v4Time s4 s6 r4 r6
  rw [f4, f5]
  have a1 : dget d l1.closed + dget d l1.svr.closingTotals = dget d l.closed + dget d s.closingTotals
    + sumKeys (resStat d s.cache.endCycle.2) (env.order s.tick s.cache.endCycle.2.keys) := a1
  rw [a1, c2]
  generalize hP : (cycles h0).1 = P at *
  generalize hR : reports env.exclude b = R at *
  have hcyc : cycles (h0 ++ R.map .update) = (P, R) := by
    rw [cycles_updates _ _ hcomp, hcur, hP]; simp
  have hks : sumKeys (resStat d s.cache.endCycle.2) (env.order s.tick s.cache.endCycle.2.keys)
      = sumKeys (lastStat d P) ((cks (lasts P)).filter (fun k => decide (lastFor k R = none))) := by
    have hperm : (env.order s.tick s.cache.endCycle.2.keys).Perm ((cks (lasts P)).filter (fun k => decide (lastFor k R = none))) := by
      refine (env.order_perm _ _).trans ?_
      rw [c1, List.perm_ext_iff_of_nodup (C30_endCycle _).1 (List.Sublist.nodup List.filter_sublist (lasts_nodup _))]
      intro k
      rw [residual_mem, hcyc, List.mem_filter, lasts_cks, decide_eq_true_eq]
      simp only [and_congr_left_iff]
      intro _
      constructor
      · intro h
        obtain ⟨p, hp⟩ := Option.ne_none_iff_exists'.1 h
        obtain ⟨hm, hk⟩ := lastFor_mem hp
        exact List.mem_map.2 ⟨p, hm, hk⟩
      · intro h hn
        obtain ⟨x, hx, e⟩ := List.mem_map.1 h
        exact lastFor_none.1 hn x hx e
    rw [sumKeys_perm _ hperm]
    refine sumKeys_congr _ _ _ ?_
    intro k hk
    have hk' : k ∈ s.cache.endCycle.2.keys := by
      have := hperm.mem_iff.2 hk
      rwa [(env.order_perm _ _).mem_iff] at this
    obtain ⟨v, hv'⟩ := (GoMap.mem_keys_iff _ _).1 hk'
    rw [c1] at hv'
    have hg := (residual_get _ k v hv').1
    rw [hcyc] at hg
    unfold resStat lastStat
    rw [c1, hv', hg]
  rw [hks, sumKeys_filter]
  have hend : UInt64.ofNat (ended d P R) = sumKeys (fun k => lostStat d P R k + if decide (lastFor k R = none) then lastStat d P k else 0) (cks (lasts P)) := by
    unfold ended
    have hall : ∀ r ∈ lasts P, lastFor (ck r) P = some r := fun r hr => lasts_lastFor hr
    clear hks c2
    generalize lasts P = L at *
    induction L with
    | nil => rfl
    | cons r L ih =>
      rw [List.filter_cons]
      show _ = (lostStat d P R (ck r) + if decide (lastFor (ck r) R = none) = true then lastStat d P (ck r) else 0) + sumKeys _ (cks L)
      rw [← ih (fun x hx => hall x (by simp [hx]))]
      have hls : lastStat d P (ck r) = stat d r := by unfold lastStat; rw [hall r (by simp)]
      cases hf : firstFor (ck r) R with
      | none =>
        have hfin : final r R = true := by unfold final; rw [hf]
        rw [hfin]
        simp only [if_true, List.map_cons, List.sum_cons, UInt64.ofNat_add, stat_ofNat]
        unfold lostStat
        rw [hf, firstFor_none.1 hf, hls]
        simp
      | some n =>
        have hne : lastFor (ck r) R ≠ none := by rw [Ne, ← firstFor_none, hf]; simp
        have hfin : final r R = decide ((n.attributes.getD []).length ≤ 2) := by unfold final; rw [hf]
        rw [hfin]
        unfold lostStat
        rw [hf]
        simp only [hne, decide_false]
        have hd : hasDiagInfo n = !decide ((n.attributes.getD []).length ≤ 2) := by
          unfold hasDiagInfo ArchivalRecord.attrs
          by_cases hh : (n.attributes.getD []).length ≤ 2
          · simp only [INET_DIAG_INFO, hh, decide_true, Bool.not_true, decide_eq_false_iff_not]; omega
          · simp only [INET_DIAG_INFO, hh, decide_false, Bool.not_false, decide_eq_true_eq]; omega
        rw [hd]
        by_cases hh : (n.attributes.getD []).length ≤ 2
        · simp only [hh, decide_true, if_true, List.map_cons, List.sum_cons, UInt64.ofNat_add, stat_ofNat, hls]; simp
        · simp [hh]
  rw [hend, sumKeys_add]
  grind

theorem history_cycles (ex : Option ExcludeConfig) (bs : List MessageBlock) :
    cycles (history ex bs) = ((bs.map (reports ex)).getLast?.getD [], []) := by
  refine snoc_induction (P := fun bs => cycles (history ex bs) = ((bs.map (reports ex)).getLast?.getD [], [])) rfl ?_ bs
  intro bs b ih
  have : history ex (bs ++ [b]) = (history ex bs ++ (reports ex b).map .update) ++ [.endCycle] := by simp [history]
  rw [this, cycles_endCycle, cycles_updates _ _ (fun r hr => reports_complete hr), ih]
  simp

theorem endedTotal_snoc (d : Dir) (polls : List (List ArchivalRecord)) (next : List ArchivalRecord) :
    endedTotal d (polls ++ [next]) = endedTotal d polls + ended d (polls.getLast?.getD []) next := by
  induction polls with
  | nil => simp [endedTotal, ended, lasts]
  | cons p polls ih =>
    cases polls with
    | nil => simp [endedTotal]
    | cons q polls =>
      simp only [List.cons_append, endedTotal] at ih ⊢
      rw [ih]
      simp only [List.getLast?_cons_cons]
      omega

/-- The closed and closing totals are the counters that have become final. -/
theorem ended_run (env : Env) (hv : ViewOK env) (d : Dir) (bs : List MessageBlock) (l : LoopState) (h : runBlocks env bs = some l) :
    dget d l.closed + dget d l.svr.closingTotals = UInt64.ofNat (endedTotal d (bs.map (reports env.exclude))) := by
  refine blocks_induct env (fun bs l => dget d l.closed + dget d l.svr.closingTotals = UInt64.ofNat (endedTotal d (bs.map (reports env.exclude)))) ?_ ?_ bs l h
  · cases d <;> rfl
  · intro bs l b l' hl hi hb
    have hcyc := history_cycles env.exclude bs
    rw [poll_adds env hv d (history env.exclude bs) (by rw [hcyc]) l l' (run_cache env bs l hl) b hb, hi, List.map_append, List.map_cons, List.map_nil,
      endedTotal_snoc, UInt64.ofNat_add, hcyc]

/-- The total computed in a block. -/
theorem exported_run (env : Env) (hv : ViewOK env) (d : Dir) (bs : List MessageBlock) (b : MessageBlock) (l l' : LoopState) (h : runBlocks env bs = some l)
    (hb : l.block env b = some l') :
    dget d l'.closed + dget d l'.svr.closingTotals + sumStat d (reports env.exclude b)
      = UInt64.ofNat (exportedTotal d ((bs ++ [b]).map (reports env.exclude))) := by
  have hrun : runBlocks env (bs ++ [b]) = some l' := by
    unfold runBlocks at h ⊢
    rw [blocks_snoc, h]; exact hb
  rw [ended_run env hv d _ _ hrun, exportedTotal, UInt64.ofNat_add]
  congr 1
  simp only [List.map_append, List.map_cons, List.map_nil, List.getLast?_append, List.getLast?_singleton, Option.some_or, Option.getD_some]
  generalize reports env.exclude b = rs
  induction rs with
  | nil => rfl
  | cons r rs ih => simp only [sumStat, List.map_cons, List.sum_cons, UInt64.ofNat_add, stat_ofNat, ih]

end TcpInfo
