import Verif.Spec.Rates
import Verif.Props.Exported
import Verif.Props.Histogram
import Verif.Props.Clock
/-!
# C83, C105: all rates exported in a run
-/

namespace TcpInfo
open Spec

/-- The second of the last poll that began a new one. -/
def lastSecond (last : Int) : List MessageBlock → Int
  | [] => last
  | b :: bs => lastSecond (if last < b.v4Time / 1000000000 then b.v4Time / 1000000000 else last) bs

theorem lastSecond_snoc (bs : List MessageBlock) (b : MessageBlock) : ∀ last, lastSecond last (bs ++ [b])
    = if lastSecond last bs < b.v4Time / 1000000000 then b.v4Time / 1000000000 else lastSecond last bs := by
  induction bs with
  | nil => intro last; rfl
  | cons x bs ih => intro last; exact ih _

theorem secondsOf_snoc (bs : List MessageBlock) (b : MessageBlock) : ∀ last, secondsOf last (bs ++ [b])
    = secondsOf last bs ++ [decide (lastSecond last bs < b.v4Time / 1000000000)] := by
  induction bs with
  | nil =>
    intro last
    show (if last < b.v4Time / 1000000000 then [true] else [false]) = [decide (last < b.v4Time / 1000000000)]
    by_cases h : last < b.v4Time / 1000000000
    · rw [if_pos h, decide_eq_true h]
    · rw [if_neg h, decide_eq_false h]
  | cons x bs ih =>
    intro last
    simp only [List.cons_append, secondsOf, lastSecond]
    split
    · rw [ih]; rfl
    · rw [ih]; rfl

theorem secondsOf_length (bs : List MessageBlock) : ∀ last, (secondsOf last bs).length = bs.length := by
  induction bs with
  | nil => intro last; rfl
  | cons x bs ih => intro last; simp only [secondsOf]; split <;> simp [ih]

theorem totalsOf_snoc (d : Dir) (ps : List (List ArchivalRecord)) (p : List ArchivalRecord) :
    totalsOf d (ps ++ [p]) = totalsOf d ps ++ [exportedTotal d (ps ++ [p]) % 2^64] := by
  unfold totalsOf
  rw [List.length_append, List.length_singleton, List.range_succ, List.map_append, List.map_singleton]
  congr 1
  · refine List.map_congr_left (fun i hi => ?_)
    rw [List.take_append_of_le_length (by have := List.mem_range.1 hi; omega)]
  · rw [List.take_of_length_le (by simp)]

theorem totalsOf_length (d : Dir) (ps : List (List ArchivalRecord)) : (totalsOf d ps).length = ps.length := by simp [totalsOf]

theorem ratesFor_snoc (xs : List (Bool × Nat)) (new : Bool) (T : Nat) : ∀ O, ratesFor O (xs ++ [(new, T)]) = ratesFor O xs
    ++ (if new = true ∧ O + (ratesFor O xs).foldr (· + ·) 0 ≤ T ∧ T ≤ O + (ratesFor O xs).foldr (· + ·) 0 + 12500000000
        ∧ O + (ratesFor O xs).foldr (· + ·) 0 + 12500000000 < 2^64 then [T - (O + (ratesFor O xs).foldr (· + ·) 0)] else []) := by
  induction xs with
  | nil => intro O; rfl
  | cons x xs ih =>
    obtain ⟨n, U⟩ := x
    intro O
    by_cases hc : n = true ∧ O ≤ U ∧ U ≤ O + 12500000000 ∧ O + 12500000000 < 2^64
    · have e1 : ∀ l, ratesFor O ((n, U) :: l) = (U - O) :: ratesFor U l := fun l => by rw [ratesFor, if_pos hc]
      rw [List.cons_append, e1, e1, ih U]
      have e2 : O + ((U - O) :: ratesFor U xs).foldr (· + ·) 0 = U + (ratesFor U xs).foldr (· + ·) 0 := by
        rw [List.foldr_cons]; omega
      rw [e2, List.cons_append]
    · have e1 : ∀ l, ratesFor O ((n, U) :: l) = ratesFor O l := fun l => by rw [ratesFor, if_neg hc]
      rw [List.cons_append, e1, e1, ih O]

theorem blocks_rates (env : Env) (hv : ViewOK env) (d : Dir) (bs : List MessageBlock) (l : LoopState) (h : runBlocks env bs = some l) :
    l.lastReportTime = lastSecond (-62135596800) bs ∧ observations d l.svr.trace = exportedRates d env.exclude bs := by
  refine blocks_induct env (fun bs l => l.lastReportTime = lastSecond (-62135596800) bs ∧ observations d l.svr.trace = exportedRates d env.exclude bs)
    ⟨rfl, by cases d <;> rfl⟩ ?_ bs l h
  rintro bs l b l' h ⟨i1, i2⟩ hb
  have hsum : (observations d l.svr.trace).foldr (· + ·) 0 = (dget d l.reported).toNat := (obs_inv env hv d _ l h).1
  obtain ⟨T, hT, o1, o2⟩ := block_obs env hv d _ l l' (run_cache env bs l h) b hb
  rw [exported_run env hv d bs b l l' h hb] at hT
  have hTn : T.toNat = exportedTotal d (bs.map (reports env.exclude) ++ [reports env.exclude b]) % 2^64 := by
    rw [hT, UInt64.toNat_ofNat', List.map_append, List.map_singleton]
  have hz : exportedRates d env.exclude (bs ++ [b]) = ratesFor 0 ((secondsOf (-62135596800) bs).zip (totalsOf d (bs.map (reports env.exclude)))
      ++ [(decide (lastSecond (-62135596800) bs < b.v4Time / 1000000000), T.toNat)]) := by
    unfold exportedRates
    rw [secondsOf_snoc, List.map_append, List.map_singleton, totalsOf_snoc, List.zip_append (by rw [secondsOf_length, totalsOf_length, List.length_map]), ← hTn]
    rfl
  rw [hz, ratesFor_snoc, lastSecond_snoc, ← i1]
  rw [show ratesFor 0 ((secondsOf (-62135596800) bs).zip (totalsOf d (bs.map (reports env.exclude)))) = observations d l.svr.trace from i2.symm, hsum,
    Nat.zero_add]
  by_cases hn : unixSeconds b.v4Time > l.lastReportTime
  · have hn' : l.lastReportTime < b.v4Time / 1000000000 := hn
    obtain ⟨x1, x2, x3⟩ := o2 hn
    rw [if_pos hn']
    refine ⟨x1, ?_⟩
    simp only [hn', decide_true, true_and]
    cases hk : skipReport T (dget d l.reported) with
    | true => rw [(x2 hk).1, if_neg (by rw [← skip_iff, hk]; simp), List.append_nil]
    | false =>
      have hc := (skip_iff _ _).1 hk
      rw [(x3 hk).1, if_pos hc, UInt64.toNat_sub_of_le _ _ (UInt64.le_iff_toNat_le.2 hc.1)]
  · have hn' : ¬ l.lastReportTime < b.v4Time / 1000000000 := hn
    rw [if_neg hn']
    refine ⟨(o1 hn).1, ?_⟩
    rw [(o1 hn).2.1, if_neg (by simp [hn']), List.append_nil]

/-- C83 (with C45 and C47), for whole runs. All rates that are exported in a run, whatever the kernel reports and the clock shows: they are those of
`exportedRates`. -/
theorem C83_run (ev : Bool) (env : Env) (hv : ViewOK env) (d : Dir) (bs : List MessageBlock) (s : Saver) (h : runSaver env bs = some s) :
    rates d (saverMetrics ev env bs) = exportedRates d env.exclude bs := by
  obtain ⟨l, h1, h2⟩ := close_obs env d bs s h
  rw [C83_rates ev env bs s h d, h2, (blocks_rates env hv d bs l h1).2]

-- a total that falls back (flicker), polls within a second, and a total that is too large at once
example : exportedRates .sent none flickerBlocks = [5, 0, 6, 0] ∧ exportedRates .sent none statBlocks = [12, 4] ∧ exportedRates .sent none bigBlocks = []
    ∧ secondsOf (-62135596800) statBlocks = [true, true, false] ∧ (secondsOf (-62135596800) bigBlocks).contains true = true := by decide +kernel

/-! ## C105: the rates -/

theorem reports_untimed (ex : Option ExcludeConfig) (b : MessageBlock) :
    reports ex (untimedBlock b) = (reports ex b).map (fun r => { r with timestamp := zeroTime }) := by
  have key : ∀ t (ms : List (Option NetlinkMessage)),
      ms.filterMap (reportOf ex zeroTime) = (ms.filterMap (reportOf ex t)).map (fun r => { r with timestamp := zeroTime }) := by
    intro t ms
    rw [List.map_filterMap]
    congr 1
    funext m
    cases m with
    | none => rfl
    | some m =>
      simp only [reportOf]
      cases makeArchivalRecord m ex with
      | ok r => cases r <;> rfl
      | err e => rfl
      | panic => rfl
  unfold reports
  rw [List.map_append, ← key b.v4Time, ← key b.v6Time]
  rfl

section
variable (u : ArchivalRecord → ArchivalRecord) (hu : ∀ r, ck (u r) = ck r ∧ (u r).attributes = r.attributes)
include hu

theorem lasts_map (rs : List ArchivalRecord) : lasts (rs.map u) = (lasts rs).map u := by
  induction rs with
  | nil => rfl
  | cons r rs ih =>
    rw [List.map_cons, lasts, lasts, List.any_map]
    rw [show (rs.any ((fun x => decide (ck x = ck (u r))) ∘ u)) = rs.any (fun x => decide (ck x = ck r)) by
      congr 1; funext x; show decide (ck (u x) = ck (u r)) = _; rw [(hu x).1, (hu r).1]]
    split
    · exact ih
    · rw [ih, List.map_cons]

theorem counter_map (d : Dir) (r : ArchivalRecord) : counter d (u r) = counter d r := by
  have : attrVal (u r) 2 = attrVal r 2 := by unfold attrVal; rw [(hu r).2]
  cases d <;> simp only [counter, this]

theorem final_map (r : ArchivalRecord) (next : List ArchivalRecord) : final (u r) (next.map u) = final r next := by
  have h : firstFor (ck (u r)) (next.map u) = (firstFor (ck r) next).map u := by
    unfold firstFor
    rw [List.find?_map]
    congr 1
    congr 1
    funext x
    show decide (ck (u x) = ck (u r)) = _
    rw [(hu x).1, (hu r).1]
  unfold final
  rw [h]
  cases firstFor (ck r) next with
  | none => rfl
  | some n => simp only [Option.map_some, (hu n).2]

theorem ended_map (d : Dir) (rs next : List ArchivalRecord) : ended d (rs.map u) (next.map u) = ended d rs next := by
  unfold ended
  rw [lasts_map u hu, List.filter_map, List.map_map]
  congr 1
  rw [show ((fun r => final r (next.map u)) ∘ u) = fun r => final r next from funext (fun r => final_map u hu r next)]
  exact List.map_congr_left (fun r _ => by show (counter d (u r)).getD 0 = _; rw [counter_map u hu])

theorem endedTotal_map (d : Dir) (ps : List (List ArchivalRecord)) : endedTotal d (ps.map (·.map u)) = endedTotal d ps := by
  induction ps with
  | nil => rfl
  | cons p ps ih =>
    cases ps with
    | nil => rfl
    | cons q ps =>
      simp only [List.map_cons, endedTotal] at ih ⊢
      rw [ended_map u hu, ih]

theorem exportedTotal_map (d : Dir) (ps : List (List ArchivalRecord)) : exportedTotal d (ps.map (·.map u)) = exportedTotal d ps := by
  unfold exportedTotal
  rw [endedTotal_map u hu, List.getLast?_map]
  congr 1
  cases ps.getLast? with
  | none => rfl
  | some p =>
    simp only [Option.map_some, Option.getD_some, List.map_map]
    congr 1
    exact List.map_congr_left (fun r _ => by show (counter d (u r)).getD 0 = _; rw [counter_map u hu])

theorem totalsOf_map (d : Dir) (ps : List (List ArchivalRecord)) : totalsOf d (ps.map (·.map u)) = totalsOf d ps := by
  unfold totalsOf
  rw [List.length_map]
  refine List.map_congr_left (fun i _ => ?_)
  rw [← List.map_take, exportedTotal_map u hu]
end

/-- C105 (partial: for polls that both clocks let begin a new second, or neither; see `C105_violated`). Two runs as in `C105_recorded_partial`, and the wall clocks,
whatever they show, agree on which polls begin a new second, later than all before. Then the same rates are exported in both. -/
theorem C105_rates_partial (env : Env) (hv : ViewUntimed env) (hv' : ViewOK env) (wall : Int → Int) (date : Int → String) (bs bs' : List MessageBlock)
    (hb : bs.map untimedBlock = bs'.map untimedBlock) (hs : secondsOf (-62135596800) bs = secondsOf (-62135596800) bs') (d : Dir) :
    (runSaver env bs).map (fun s => observations d s.trace) = (runSaver (env.withWall wall date) bs').map (fun s => observations d s.trace) := by
  have hx : exportedRates d env.exclude bs = exportedRates d env.exclude bs' := by
    have ht : ∀ bs : List MessageBlock, totalsOf d (bs.map (reports env.exclude)) = totalsOf d ((bs.map untimedBlock).map (reports env.exclude)) := by
      intro bs
      rw [← totalsOf_map (fun r => { r with timestamp := zeroTime }) (fun r => ⟨rfl, rfl⟩), List.map_map, List.map_map]
      congr 1
      exact List.map_congr_left (fun b _ => (reports_untimed env.exclude b).symm)
    unfold exportedRates
    rw [ht bs, ht bs', hb, hs]
  have h0 := C105_recorded_partial env hv wall date bs bs' hb
  cases h1 : runSaver env bs with
  | none =>
    rw [h1] at h0
    cases h2 : runSaver (env.withWall wall date) bs' with
    | none => rfl
    | some s' => rw [h2] at h0; simp at h0
  | some s =>
    rw [h1] at h0
    cases h2 : runSaver (env.withWall wall date) bs' with
    | none => rw [h2] at h0; simp at h0
    | some s' =>
      obtain ⟨l, a1, a2⟩ := close_obs env d bs s h1
      obtain ⟨l', b1, b2⟩ := close_obs (env.withWall wall date) d bs' s' h2
      have hv2 : ViewOK (env.withWall wall date) := hv'
      simp only [Option.map_some, Option.some.injEq]
      rw [a2, b2, (blocks_rates env hv' d bs l a1).2, (blocks_rates _ hv2 d bs' l' b1).2]
      exact hx

-- the clock is set forward by an hour and 0.7 s after the second poll; the polls begin the same seconds
def setForwardBlocks : List MessageBlock :=
  (List.range 5).map (fun (i : Nat) => exBlock (1600000000000000000 + 1000000000 * (i : Int) + (if i < 2 then 0 else 3600700000000)) [exMsg 1 i.toUInt8 i.toUInt8])
example : steadyBlocks.map untimedBlock = setForwardBlocks.map untimedBlock ∧ steadyBlocks ≠ setForwardBlocks
    ∧ secondsOf (-62135596800) steadyBlocks = secondsOf (-62135596800) setForwardBlocks
    ∧ (runSaver minutesEnv setForwardBlocks).map (fun s => observations .sent s.trace) = some [0, 1, 1, 1, 1] := by decide +kernel
-- and in `C105_violated` they do not
example : secondsOf (-62135596800) setBackBlocks = [true, false, false, false, false] := by decide +kernel
example : ViewUntimed minutesEnv ∧ ViewOK minutesEnv := ⟨fun _ _ => rfl, fun _ _ => ⟨rfl, rfl, ⟨rfl, rfl, rfl⟩, rfl⟩⟩

end TcpInfo
