import Verif.Lemmas.SaverRun
import Verif.Spec.Stats
/-!
# The accounting part of the saver loop
-/

namespace TcpInfo
open Spec

/-- Component of the statistics. -/
def dget (d : Dir) (t : TcpStats) : UInt64 := match d with | .sent => t.sent | .received => t.received
/-- Statistic of a record. -/
def stat (d : Dir) (r : ArchivalRecord) : UInt64 := match d with | .sent => (getStats r).1 | .received => (getStats r).2

theorem attrVal_two (r : ArchivalRecord) (v : Bytes) (h : attrVal r 2 = some v) : ∃ s, r.attrs[2]? = some (some s) ∧ s.val = v := by
  unfold attrVal at h
  rw [List.getD_eq_getElem?_getD] at h
  have e : (r.attributes.getD []) = r.attrs := by unfold ArchivalRecord.attrs; cases r.attributes <;> rfl
  rw [e] at h
  cases hh : r.attrs[2]? with
  | none => rw [hh] at h; simp at h
  | some o =>
    cases o with
    | none => rw [hh] at h; simp at h
    | some s => rw [hh] at h; exact ⟨s, rfl, by simpa using h⟩

theorem counter_isSome (d : Dir) (r : ArchivalRecord) : (counter d r).isSome = true ↔ ∃ v, attrVal r 2 = some v ∧ 208 ≤ v.length := by
  unfold counter
  cases h : attrVal r 2 with
  | none => simp
  | some v =>
    by_cases hl : 208 ≤ v.length
    · cases d <;> simp [hl, Dir.field, fieldOf_bytes_sent, fieldOf_bytes_received]
    · simp [hl]

theorem counter_isSome' (d d' : Dir) (r : ArchivalRecord) : (counter d r).isSome = (counter d' r).isSome := by
  rw [Bool.eq_iff_iff, counter_isSome, counter_isSome]

theorem stat_counter (d : Dir) (r : ArchivalRecord) : (stat d r).toNat = (counter d r).getD 0 := by
  by_cases h : ∃ v, attrVal r 2 = some v ∧ 208 ≤ v.length
  · obtain ⟨v, hv, hl⟩ := h
    obtain ⟨s, hs, rfl⟩ := attrVal_two r v hv
    obtain ⟨h1, h2⟩ := C19_stats r s hs hl
    unfold counter
    rw [hv]
    simp only [if_pos hl]
    cases d with
    | sent => simp only [Dir.field, ← h1]; rfl
    | received => simp only [Dir.field, ← h2]; rfl
  · have hn : counter d r = none := by
      have := (not_congr (counter_isSome d r)).2 h
      simpa using this
    have hz : getStats r = (0, 0) := by
      apply C19_stats_zero
      intro s hs
      have e : (r.attributes.getD []) = r.attrs := by unfold ArchivalRecord.attrs; cases r.attributes <;> rfl
      have : attrVal r 2 = some s.val := by
        unfold attrVal; rw [List.getD_eq_getElem?_getD, e, hs]; rfl
      apply Classical.byContradiction
      intro hl
      exact h ⟨_, this, by omega⟩
    rw [hn]
    cases d <;> simp [stat, hz]

theorem stat_none {d : Dir} {r : ArchivalRecord} (h : (counter d r).isSome = false) : stat d r = 0 := by
  rw [← UInt64.toNat_inj, stat_counter]
  cases hc : counter d r with
  | none => rfl
  | some n => rw [hc] at h; simp at h

theorem stat_noInfo (d : Dir) {r : ArchivalRecord} (h : hasDiagInfo r = false) : stat d r = 0 := by
  have : getStats r = (0, 0) := by
    rw [getStats_def]
    unfold hasDiagInfo at h
    rw [if_pos (by simpa using h)]
  cases d <;> simp [stat, this]

theorem counter_hasInfo {d : Dir} {r : ArchivalRecord} (h : (counter d r).isSome = true) : hasDiagInfo r = true := by
  obtain ⟨v, hv, -⟩ := (counter_isSome d r).1 h
  obtain ⟨s, hs, -⟩ := attrVal_two r v hv
  unfold hasDiagInfo
  simp only [INET_DIAG_INFO, decide_eq_true_eq]
  apply Classical.byContradiction
  intro hl
  rw [List.getElem?_eq_none (by omega)] at hs; simp at hs

/-! ## Sums -/

/-- Sum of a statistic over records. -/
def sumStat (d : Dir) : List ArchivalRecord → UInt64
  | [] => 0
  | r :: rs => stat d r + sumStat d rs

theorem sumStat_append (d : Dir) (l l' : List ArchivalRecord) : sumStat d (l ++ l') = sumStat d l + sumStat d l' := by
  induction l with
  | nil => simp [sumStat]
  | cons r l ih => simp only [List.cons_append, sumStat, ih, UInt64.add_assoc]

theorem sumStat_sent (l : List ArchivalRecord) : sumSent l = sumStat .sent l := by
  induction l with
  | nil => rfl
  | cons r l ih =>
    rw [show r :: l = [r] ++ l from rfl, sumSent_append, ih, sumStat_append]
    simp [sumSent, sumStat, stat]

theorem sumStat_received (l : List ArchivalRecord) : sumReceived l = sumStat .received l := by
  induction l with
  | nil => rfl
  | cons r l ih =>
    rw [show r :: l = [r] ++ l from rfl, sumReceived_append, ih, sumStat_append]
    simp [sumReceived, sumStat, stat]

/-- Keys of records. -/
abbrev cks (l : List ArchivalRecord) : List UInt64 := l.map (fun r => ck r)

theorem sumStat_remove (d : Dir) (l : List ArchivalRecord) (hn : (cks l).Nodup) (p : ArchivalRecord) (hp : p ∈ l) :
    sumStat d l = stat d p + sumStat d (l.filter (fun x => decide (ck x ≠ ck p))) := by
  induction l with
  | nil => simp at hp
  | cons r l ih =>
    have hn' := List.nodup_cons.1 hn
    by_cases h : p = r
    · subst h
      have : l.filter (fun x => decide (ck x ≠ ck p)) = l := by
        rw [List.filter_eq_self]
        intro x hx
        rw [decide_eq_true_iff]
        intro e
        exact hn'.1 (List.mem_map.2 ⟨x, hx, e⟩)
      rw [List.filter_cons, if_neg (by simp), this]
      rfl
    · have hp' : p ∈ l := by simpa [h] using hp
      have hne : ck r ≠ ck p := fun e => hn'.1 (List.mem_map.2 ⟨p, hp', e.symm⟩)
      rw [List.filter_cons, if_pos (by simpa using hne)]
      simp only [sumStat]
      rw [ih hn'.2 hp', ← UInt64.add_assoc, UInt64.add_comm (stat d r), UInt64.add_assoc]

/-- Sum of a function over keys. -/
def sumKeys (f : UInt64 → UInt64) : List UInt64 → UInt64
  | [] => 0
  | k :: ks => f k + sumKeys f ks

theorem sumKeys_perm (f : UInt64 → UInt64) {a b : List UInt64} (h : a.Perm b) : sumKeys f a = sumKeys f b := by
  induction h with
  | nil => rfl
  | cons x _ ih => simp only [sumKeys, ih]
  | swap x y l => simp only [sumKeys]; rw [← UInt64.add_assoc, UInt64.add_comm (f y), UInt64.add_assoc]
  | trans _ _ ih1 ih2 => rw [ih1, ih2]

theorem sumKeys_cks (d : Dir) (f : UInt64 → UInt64) (l : List ArchivalRecord) (h : ∀ r ∈ l, f (ck r) = stat d r) : sumKeys f (cks l) = sumStat d l := by
  induction l with
  | nil => rfl
  | cons r l ih =>
    show f (ck r) + sumKeys f (cks l) = _
    rw [ih (fun r' hr' => h r' (by simp [hr'])), h r (by simp)]
    rfl

theorem lastFor_unique {l : List ArchivalRecord} (hn : (cks l).Nodup) {p : ArchivalRecord} (hp : p ∈ l) : lastFor (ck p) l = some p := by
  unfold lastFor
  have : l.filter (fun r => decide (cookie (r.rawIDM.getD []) = ck p)) = [p] := by
    induction l with
    | nil => simp at hp
    | cons r l ih =>
      have hn' := List.nodup_cons.1 hn
      by_cases h : p = r
      · subst h
        rw [List.filter_cons, if_pos (by simp)]
        congr 1
        rw [List.filter_eq_nil_iff]
        intro x hx
        rw [decide_eq_true_iff]
        intro e
        exact hn'.1 (List.mem_map.2 ⟨x, hx, e⟩)
      · have hp' : p ∈ l := by simpa [h] using hp
        rw [List.filter_cons, if_neg, ih hn'.2 hp']
        rw [decide_eq_true_iff]
        intro e
        exact hn'.1 (List.mem_map.2 ⟨p, hp', e.symm⟩)
  rw [this]; rfl

theorem lastFor_none {k : UInt64} {l : List ArchivalRecord} : lastFor k l = none ↔ ∀ r ∈ l, ck r ≠ k := by
  unfold lastFor
  rw [List.getLast?_eq_none_iff, List.filter_eq_nil_iff]
  constructor
  · intro h r hr e; exact h r hr (by simpa using e)
  · intro h r hr e; exact h r hr (by simpa using e)

/-! ## The specified total -/

/-- The last counter of connection `k`. -/
def lastCounter (d : Dir) (k : UInt64) (l : List ArchivalRecord) : Nat :=
  match (l.filter (fun x => decide (ck x = k) && (counter d x).isSome)).getLast? with
  | none => 0
  | some p => (counter d p).getD 0

theorem lastTotal_snoc_none (d : Dir) (l : List ArchivalRecord) (r : ArchivalRecord) (h : (counter d r).isSome = false) :
    lastTotal d (l ++ [r]) = lastTotal d l := by
  have h0 : (counter d r).getD 0 = 0 := by cases hc : counter d r with | none => rfl | some n => rw [hc] at h; simp at h
  induction l with
  | nil => simp [lastTotal, h0]
  | cons x l ih =>
    simp only [List.cons_append, lastTotal, ih, List.any_append, List.any_cons, List.any_nil, h, Bool.and_false, Bool.or_false]

theorem lastTotal_snoc (d : Dir) (l : List ArchivalRecord) (r : ArchivalRecord) (h : (counter d r).isSome = true) :
    lastTotal d (l ++ [r]) + lastCounter d (ck r) l = lastTotal d l + (counter d r).getD 0 := by
  induction l with
  | nil => simp [lastTotal, lastCounter]
  | cons x l ih =>
    simp only [List.cons_append, lastTotal, List.any_append, List.any_cons, List.any_nil, h, Bool.and_true, Bool.or_false]
    unfold lastCounter at ih ⊢
    rw [List.filter_cons]
    by_cases hk : ck x = ck r
    · have hk' : decide (ck r = ck x) = true := by simp [hk]
      simp only [hk', Bool.or_true, if_true]
      by_cases hc : (counter d x).isSome = true
      · rw [if_pos (by simp [hk, hc])]
        cases hl : (l.filter (fun x => decide (ck x = ck r) && (counter d x).isSome)) with
        | nil =>
          have : l.any (fun y => decide (ck y = ck x) && (counter d y).isSome) = false := by
            rw [List.any_eq_false]
            intro y hy
            have := List.filter_eq_nil_iff.1 hl y hy
            rw [hk]; exact this
          rw [this]
          rw [hl] at ih
          simp only [List.getLast?_nil] at ih
          simp only [List.getLast?_singleton, Bool.false_eq_true, if_false]
          omega
        | cons y ys =>
          have : l.any (fun y => decide (ck y = ck x) && (counter d y).isSome) = true := by
            rw [List.any_eq_true]
            have hy : y ∈ l.filter (fun x => decide (ck x = ck r) && (counter d x).isSome) := by rw [hl]; simp
            obtain ⟨h1, h2⟩ := List.mem_filter.1 hy
            exact ⟨y, h1, by rw [hk]; exact h2⟩
          rw [this]
          rw [hl] at ih
          rw [List.getLast?_cons_cons]
          simp only [if_true]
          omega
      · rw [if_neg (by simp [hc])]
        have hx : (counter d x).getD 0 = 0 := by cases hh : counter d x with | none => rfl | some n => rw [hh] at hc; simp at hc
        rw [hx]
        simp only [ite_self]
        omega
    · have hk' : decide (ck r = ck x) = false := by simp [Ne.symm hk]
      simp only [hk', Bool.or_false]
      rw [if_neg (show ¬ ((decide (ck x = ck r) && (counter d x).isSome) = true) by simp [hk])]
      omega

/-- The total as the code computes it. -/
def total64 (d : Dir) (l : List ArchivalRecord) : UInt64 := UInt64.ofNat (lastTotal d l)

theorem total64_snoc_none (d : Dir) (l : List ArchivalRecord) (r : ArchivalRecord) (h : (counter d r).isSome = false) :
    total64 d (l ++ [r]) = total64 d l := by unfold total64; rw [lastTotal_snoc_none d l r h]

theorem stat_ofNat (d : Dir) (r : ArchivalRecord) : UInt64.ofNat ((counter d r).getD 0) = stat d r := by
  rw [← stat_counter]; simp

theorem total64_snoc_first (d : Dir) (l : List ArchivalRecord) (r : ArchivalRecord) (h : (counter d r).isSome = true)
    (hn : ∀ x ∈ l, ck x = ck r → (counter d x).isSome = false) : total64 d (l ++ [r]) = total64 d l + stat d r := by
  have := lastTotal_snoc d l r h
  have h0 : lastCounter d (ck r) l = 0 := by
    unfold lastCounter
    have : l.filter (fun x => decide (ck x = ck r) && (counter d x).isSome) = [] := by
      rw [List.filter_eq_nil_iff]
      intro x hx e
      simp only [Bool.and_eq_true, decide_eq_true_eq] at e
      rw [hn x hx e.1] at e; simp at e
    rw [this]; rfl
  rw [h0] at this
  unfold total64
  rw [show lastTotal d (l ++ [r]) = lastTotal d l + (counter d r).getD 0 by omega, UInt64.ofNat_add, stat_ofNat]

theorem total64_snoc_next (d : Dir) (l1 l2 : List ArchivalRecord) (p r : ArchivalRecord) (h : (counter d r).isSome = true) (hp : (counter d p).isSome = true)
    (hk : ck p = ck r) (hn : ∀ x ∈ l2, ck x ≠ ck r) : total64 d (l1 ++ p :: l2 ++ [r]) + stat d p = total64 d (l1 ++ p :: l2) + stat d r := by
  have := lastTotal_snoc d (l1 ++ p :: l2) r h
  have h0 : lastCounter d (ck r) (l1 ++ p :: l2) = (counter d p).getD 0 := by
    unfold lastCounter
    have e : l2.filter (fun x => decide (ck x = ck r) && (counter d x).isSome) = [] := by
      rw [List.filter_eq_nil_iff]
      intro x hx e
      simp only [Bool.and_eq_true, decide_eq_true_eq] at e
      exact hn x hx e.1
    rw [List.filter_append, List.filter_cons, if_pos (by simp [hk, hp]), e]
    simp
  rw [h0] at this
  unfold total64
  rw [← stat_ofNat, ← stat_ofNat, ← UInt64.ofNat_add, ← UInt64.ofNat_add, this]

/-! ## Effect of the steps -/

/-- What one action adds to the observations. -/
def obsOf (d : Dir) (a : Stamped) : Option Nat :=
  match d, a.act with
  | .sent, .observeSent n => some n.toNat
  | .received, .observeReceived n => some n.toNat
  | _, _ => none

theorem observations_snoc (d : Dir) (tr : List Stamped) (a : Stamped) : observations d (tr ++ [a]) = observations d tr ++ (obsOf d a).toList := by
  unfold observations
  rw [List.filterMap_append]
  show _ ++ List.filterMap (obsOf d) [a] = _
  cases h : obsOf d a <;> simp [h]

theorem queue_obs (env : Env) (d : Dir) (s : Saver) (msg : ArchivalRecord) (s' : Saver) (e : Option GoErr) (h : s.queue env msg = some (s', e)) :
    observations d s'.trace = observations d s.trace := by
  have hg : ∀ k idm ts, observations d (s.getConn env k idm ts).1.trace = observations d s.trace := by
    intro k idm ts
    unfold Saver.getConn
    split
    · rfl
    · cases d <;> simp [Saver.emit, Saver.readClock, observations_snoc, obsOf]
  have hc : ∀ (s : Saver) k c, observations d (s.closeExpired env k c).1.trace = observations d s.trace := by
    intro s k c
    simp only [Saver.closeExpired]
    split
    · cases d <;> simp [Saver.emit, Saver.readClock, observations_snoc, obsOf]
    · rfl
  have hr : ∀ (s : Saver) c, observations d (s.rotate env c).1.trace = observations d s.trace := by
    intro s c
    have hd : (s.rotateDir env c).1.trace = s.trace := by unfold Saver.rotateDir; split <;> rfl
    simp only [Saver.rotate]
    split
    · simp only [hd]
    · cases d <;> simp [Saver.emit, observations_snoc, obsOf, hd]
  unfold Saver.queue at h
  split at h
  · simp at h
  · simp at h
  · rename_i idm hp
    simp only at h
    split at h
    · injection h with h; injection h with h1 h2; subst h1; rfl
    · split at h
      · injection h with h; injection h with h1 h2; subst h1; rfl
      · have key : observations d (if ((s.getConn env (cookieOf idm) idm msg.timestamp).1.closeExpired env (cookieOf idm) (s.getConn env (cookieOf idm) idm msg.timestamp).2).2.writer = none
            then ((s.getConn env (cookieOf idm) idm msg.timestamp).1.closeExpired env (cookieOf idm) (s.getConn env (cookieOf idm) idm msg.timestamp).2).1.rotate env
              ((s.getConn env (cookieOf idm) idm msg.timestamp).1.closeExpired env (cookieOf idm) (s.getConn env (cookieOf idm) idm msg.timestamp).2).2
            else (((s.getConn env (cookieOf idm) idm msg.timestamp).1.closeExpired env (cookieOf idm) (s.getConn env (cookieOf idm) idm msg.timestamp).2).1,
              ((s.getConn env (cookieOf idm) idm msg.timestamp).1.closeExpired env (cookieOf idm) (s.getConn env (cookieOf idm) idm msg.timestamp).2).2, none)).1.trace
            = observations d s.trace := by
          split
          · rw [hr, hc, hg]
          · rw [hc, hg]
        split at h
        · injection h with h; injection h with h1 h2; subst h1; exact key
        · injection h with h; injection h with h1 h2; subst h1
          simp only [Saver.emit, observations_snoc, key]
          cases d <;> simp [obsOf]

/-- What a report adds to the closing totals. -/
def closingDelta (d : Dir) (h : List Call) (r : ArchivalRecord) : UInt64 :=
  match reference h r with
  | none => 0
  | some p => if hasDiagInfo r = false ∧ hasDiagInfo p = true then stat d p else 0

theorem swap_acct (env : Env) (hv : ViewOK env) (d : Dir) (h : List Call) (s : Saver) (hc : s.cache = cacheAfter h) (r : ArchivalRecord)
    (hr : complete r = true) (s' : Saver) (hs : s.swapAndQueue env r = some s') :
    dget d s'.closingTotals = dget d s.closingTotals + closingDelta d h r
    ∧ observations d s'.trace = observations d s.trace
    ∧ s'.stats.total = s.stats.total + 1 ∧ s'.stats.expired = s.stats.expired ∧ s'.stats.new + s'.stats.diff ≤ s.stats.new + s.stats.diff + 1 := by
  obtain ⟨idm, hidm, hck⟩ := cookieOf_parse hr
  have hcl : ∀ (s0 : Saver) k old, (s0.recordClosing k r old).stats = s0.stats ∧ (s0.recordClosing k r old).trace = s0.trace
      ∧ dget d (s0.recordClosing k r old).closingTotals = dget d s0.closingTotals + (if hasDiagInfo r = false ∧ hasDiagInfo old = true then stat d old else 0) := by
    intro s0 k old
    unfold Saver.recordClosing
    split
    · cases d <;> exact ⟨rfl, rfl, rfl⟩
    · refine ⟨rfl, rfl, by simp⟩
  have hq : ∀ s0 : Saver, (s0.queue env r).map (·.1) = some s' → s'.stats = s0.stats ∧ observations d s'.trace = observations d s0.trace
      ∧ s'.closingTotals = s0.closingTotals := by
    intro s0 he
    obtain ⟨⟨s1, e⟩, hq, rfl⟩ := Option.map_eq_some_iff.1 he
    have := queue_cache env _ r _ e hq
    exact ⟨this.2.1, queue_obs env d s0 r s1 e hq, this.2.2.2⟩
  unfold Saver.swapAndQueue at hs
  simp only at hs
  rw [hc, update_reference h r hr] at hs
  unfold closingDelta
  cases hp : reference h r with
  | none =>
    rw [hp] at hs
    simp only at hs
    obtain ⟨h1, h2, h3⟩ := hq _ hs
    refine ⟨by rw [h3]; simp, h2, by rw [h1], by rw [h1], ?_⟩
    rw [h1]; simp only; omega
  | some p =>
    rw [hp] at hs
    simp only [hidm] at hs
    have hv' := hv s.tick p
    obtain ⟨c1, c2, c3⟩ := hcl { s with cache := cacheAfter (h ++ [Call.update r]), tick := s.tick + 1, stats := { s.stats with total := s.stats.total + 1 } } (cookieOf idm) (env.view s.tick p)
    have hst : stat d (env.view s.tick p) = stat d p := by cases d <;> simp only [stat, getStats_view hv']
    rw [hasDiagInfo_view hv', hst] at c3
    have fin : ∀ s0 : Saver, s'.stats = s0.stats → observations d s'.trace = observations d s0.trace → s'.closingTotals = s0.closingTotals →
        s0.stats.total = s.stats.total + 1 → s0.stats.expired = s.stats.expired → s0.stats.new + s0.stats.diff ≤ s.stats.new + s.stats.diff + 1 →
        observations d s0.trace = observations d s.trace →
        dget d s0.closingTotals = dget d s.closingTotals + (if hasDiagInfo r = false ∧ hasDiagInfo p = true then stat d p else 0) →
        dget d s'.closingTotals = dget d s.closingTotals + (if hasDiagInfo r = false ∧ hasDiagInfo p = true then stat d p else 0)
        ∧ observations d s'.trace = observations d s.trace
        ∧ s'.stats.total = s.stats.total + 1 ∧ s'.stats.expired = s.stats.expired ∧ s'.stats.new + s'.stats.diff ≤ s.stats.new + s.stats.diff + 1 := by
      intro s0 a b c d1 e f g i
      exact ⟨by rw [c, i], by rw [b, g], by rw [a, d1], by rw [a, e], by rw [a]; exact f⟩
    split at hs
    · simp at hs
    · injection hs with hs
      exact fin _ (by rw [← hs]) (by rw [← hs]) (by rw [← hs]) (by rw [c1]) (by rw [c1]) (by rw [c1]; simp only; omega) (by rw [c2]) c3
    · split at hs
      · obtain ⟨q1, q2, q3⟩ := hq _ hs
        exact fin _ q1 q2 q3 (by simp only; rw [c1]) (by simp only; rw [c1]) (by simp only; rw [c1]; simp only; omega) (by simp only; rw [c2]) c3
      · injection hs with hs
        exact fin _ (by rw [← hs]) (by rw [← hs]) (by rw [← hs]) (by rw [c1]) (by rw [c1]) (by rw [c1]; simp only; omega) (by rw [c2]) c3

theorem endConn_obs (env : Env) (d : Dir) (s : Saver) (k : UInt64) (s' : Saver) (h : s.endConn env k = some s') :
    observations d s'.trace = observations d s.trace := by
  unfold Saver.endConn at h
  simp only at h
  split at h
  · simp at h
  · split at h
    · split at h
      · injection h with h; subst h
        simp only [Saver.emit, Saver.readClock, observations_snoc]
        cases d <;> simp [obsOf]
      · injection h with h; subst h
        simp only [Saver.emit, Saver.readClock, observations_snoc]
        cases d <;> simp [obsOf]
    · injection h with h; subst h
      simp only [Saver.emit, Saver.readClock, observations_snoc]
      cases d <;> simp [obsOf]

theorem finalStats_sum (d : Dir) (s : Saver) (k : UInt64) (ar : ArchivalRecord) :
    dget d (s.finalStats k ar).1.closingTotals + dget d (s.finalStats k ar).2 = dget d s.closingTotals + stat d ar := by
  unfold Saver.finalStats
  split
  · rename_i hi
    rw [stat_noInfo d hi]
    split
    · cases d <;> simp [dget]
    · cases d <;> simp [dget]
  · cases d <;> rfl

/-- Statistic of the record under a key. -/
def resStat (d : Dir) (res : GoMap ArchivalRecord) (k : UInt64) : UInt64 := match res.get k with | none => 0 | some r => stat d r

theorem expireAll_acct (env : Env) (hv : ViewOK env) (d : Dir) (res : GoMap ArchivalRecord) (ks : List UInt64) (hks : ∀ k ∈ ks, ∃ r, res.get k = some r)
    (l l' : LoopState) (h : LoopState.expireAll env res ks l = some l') :
    dget d l'.closed + dget d l'.svr.closingTotals = dget d l.closed + dget d l.svr.closingTotals + sumKeys (resStat d res) ks
    ∧ observations d l'.svr.trace = observations d l.svr.trace ∧ l'.reported = l.reported ∧ l'.lastReportTime = l.lastReportTime
    ∧ l'.svr.stats = { l.svr.stats with expired := l.svr.stats.expired + ks.length } := by
  induction ks generalizing l with
  | nil => simp only [LoopState.expireAll] at h; injection h with h; subst h; simp [sumKeys]
  | cons k ks ih =>
    simp only [LoopState.expireAll] at h
    obtain ⟨l1, h1, h2⟩ := Option.bind_eq_some_iff.1 h
    obtain ⟨a1, a2, a3, a4, a5⟩ := ih (fun k' hk' => hks k' (by simp [hk'])) l1 h2
    obtain ⟨ar, har⟩ := hks k (by simp)
    unfold LoopState.expire at h1
    rw [har] at h1
    simp only at h1
    split at h1
    · simp at h1
    · rename_i s1 hs
      injection h1 with h1; subst h1
      simp only at a1 a2 a3 a4 a5
      have hv' := hv l.svr.tick ar
      have hst : stat d (env.view l.svr.tick ar) = stat d ar := by cases d <;> simp only [stat, getStats_view hv']
      obtain ⟨e1, e2, e3, e4⟩ := endConn_cache env _ k s1 hs
      have eo := endConn_obs env d _ k s1 hs
      obtain ⟨f1, f2, f3, f4⟩ := finalStats_frame { l.svr with tick := l.svr.tick + 1 } k (env.view l.svr.tick ar)
      have fs := finalStats_sum d { l.svr with tick := l.svr.tick + 1 } k (env.view l.svr.tick ar)
      rw [hst] at fs
      refine ⟨?_, ?_, a3, a4, ?_⟩
      · rw [a1, e4]
        simp only [sumKeys, resStat, har]
        have hd : dget d (⟨l.closed.sent + ({ l.svr with tick := l.svr.tick + 1 }.finalStats k (env.view l.svr.tick ar)).2.sent,
            l.closed.received + ({ l.svr with tick := l.svr.tick + 1 }.finalStats k (env.view l.svr.tick ar)).2.received⟩ : TcpStats)
            = dget d l.closed + dget d ({ l.svr with tick := l.svr.tick + 1 }.finalStats k (env.view l.svr.tick ar)).2 := by cases d <;> rfl
        rw [hd]
        simp only at fs
        rw [UInt64.add_assoc (dget d l.closed), UInt64.add_comm (dget d (Saver.finalStats _ k (env.view l.svr.tick ar)).2), fs]
        simp only [UInt64.add_assoc]
      · rw [a2, eo, f2]
      · rw [a5, e2, f3]
        simp only [List.length_cons]
        congr 1; omega

end TcpInfo
