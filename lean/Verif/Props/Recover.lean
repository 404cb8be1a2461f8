import Verif.Spec.Recover
import Verif.Props.SaverRuns
import Verif.Props.Compare
import Verif.Lemmas.SaverAcct
import Verif.Spec.SaverExample
/-!
# C86: the archive tells the state of every connection at every poll
-/

namespace TcpInfo
open Spec

theorem agrees_trans {r p s : ArchivalRecord} (h1 : TellsSame r p) (h2 : TellsSame p s) : TellsSame r s := by
  rcases h1 with rfl | ⟨r1, p1, u1⟩
  · exact h2
  · rcases h2 with rfl | ⟨p2, s2, u2⟩
    · exact Or.inr ⟨r1, p1, u1⟩
    · obtain ⟨a1, a2, a3, a4⟩ := u1
      obtain ⟨b1, b2, b3, b4⟩ := u2
      obtain ⟨y, hy⟩ := Option.ne_none_iff_exists'.1 p1
      exact Or.inr ⟨r1, s2, a1.trans b1, fun x z hx hz f hf => (a2 x y hx hy f hf).trans (b2 y z hy hz f hf), a3.trans b3,
        fun t ht => (a4 t ht).trans (b4 t ht)⟩

theorem savedFor_update {h : List Call} {r : ArchivalRecord} {out : List ArchivalRecord} (hs : SavedFor (h ++ [.update r]) out) :
    (∃ o, out = o ++ [r] ∧ SavedFor h o ∧ Due h r) ∨ (SavedFor h out ∧ ¬ Due h r) := by
  generalize hx : h ++ [.update r] = x at hs
  cases hs with
  | nil => simp at hx
  | due s d =>
    have e := List.append_inj_right' hx rfl
    have e' := List.append_inj_left' hx rfl
    subst e'
    simp only [List.cons.injEq, and_true, Call.update.injEq] at e
    subst e
    exact Or.inl ⟨_, rfl, s, d⟩
  | same s d =>
    have e := List.append_inj_right' hx rfl
    have e' := List.append_inj_left' hx rfl
    subst e'
    simp only [List.cons.injEq, and_true, Call.update.injEq] at e
    subst e
    exact Or.inr ⟨s, d⟩
  | endCycle s => have := List.append_inj_right' hx rfl; simp at this

theorem savedFor_endCycle {h : List Call} {out : List ArchivalRecord} (hs : SavedFor (h ++ [.endCycle]) out) : SavedFor h out := by
  generalize hx : h ++ [Call.endCycle] = x at hs
  cases hs with
  | nil => simp at hx
  | due s d => have := List.append_inj_right' hx rfl; simp at this
  | same s d => have := List.append_inj_right' hx rfl; simp at this
  | endCycle s => have := List.append_inj_left' hx rfl; subst this; exact s

theorem lastFor_append (k : UInt64) (a b : List ArchivalRecord) : lastFor k (a ++ b) = (lastFor k b).or (lastFor k a) := by
  unfold lastFor
  rw [List.filter_append, List.getLast?_append]

/-- Within one cycle. -/
theorem recover_cycle (hp : List Call) (h0 : (cycles hp).2 = []) (K : ∀ o, SavedFor hp o → ∀ k p, lastFor k (cycles hp).1 = some p → ∃ s, lastFor k o = some s ∧ TellsSame p s)
    (rs : List ArchivalRecord) : (∀ r ∈ rs, complete r = true) → ∀ out, SavedFor (hp ++ rs.map .update) out →
      ∃ o1 o2, out = o1 ++ o2 ∧ SavedFor hp o1 ∧ (∀ x ∈ o2, x ∈ rs)
        ∧ ∀ k r, lastFor k rs = some r → lastFor k o2 = some r ∨ (lastFor k o2 = none ∧ ∃ s, lastFor k o1 = some s ∧ TellsSame r s) := by
  refine snoc_induction (P := fun rs => (∀ r ∈ rs, complete r = true) → ∀ out, SavedFor (hp ++ rs.map .update) out →
      ∃ o1 o2, out = o1 ++ o2 ∧ SavedFor hp o1 ∧ (∀ x ∈ o2, x ∈ rs)
        ∧ ∀ k r, lastFor k rs = some r → lastFor k o2 = some r ∨ (lastFor k o2 = none ∧ ∃ s, lastFor k o1 = some s ∧ TellsSame r s)) ?_ ?_ rs
  · intro _ out hs
    exact ⟨out, [], by simp, by simpa using hs, by simp, fun k r h => by simp [lastFor] at h⟩
  · intro rs r ih hc out hs
    have hc' : ∀ r ∈ rs, complete r = true := fun x hx => hc x (by simp [hx])
    rw [List.map_append, ← List.append_assoc] at hs
    have hcy : cycles (hp ++ rs.map .update) = ((cycles hp).1, rs) := by rw [cycles_updates hp rs hc', h0, List.nil_append]
    rcases savedFor_update hs with ⟨o, rfl, hs, -⟩ | ⟨hs, hd⟩
    · obtain ⟨o1, o2, rfl, e1, e2, e3⟩ := ih hc' o hs
      refine ⟨o1, o2 ++ [r], by simp, e1, ?_, ?_⟩
      · intro x hx
        rcases List.mem_append.1 hx with hx | hx
        · exact List.mem_append_left _ (e2 x hx)
        · exact List.mem_append_right _ hx
      · intro k r' h
        rw [lastFor_snoc] at h ⊢
        split at h
        · rename_i e; rw [if_pos e]; exact Or.inl h
        · rename_i e; rw [if_neg e]; exact e3 k r' h
    · obtain ⟨o1, o2, rfl, e1, e2, e3⟩ := ih hc' out hs
      refine ⟨o1, o2, rfl, e1, fun x hx => List.mem_append_left _ (e2 x hx), ?_⟩
      intro k r' h
      rw [lastFor_snoc] at h
      split at h
      · rename_i e
        injection h with h; subst h
        unfold Due reference at hd
        rw [hcy] at hd
        simp only at hd
        rw [e] at hd
        have hd := Classical.not_forall.1 hd
        obtain ⟨p, hd⟩ := hd
        have ⟨hp', hd⟩ := Classical.not_imp.1 hd
        split at hp'
        · rename_i hn
          have ⟨q1, hd⟩ := not_or.1 hd
          have ⟨q2, q3⟩ := not_or.1 hd
          have q3 := Classical.not_not.1 q3
          obtain ⟨s, hs1, hs2⟩ := K o1 e1 k p hp'
          refine Or.inr ⟨?_, s, hs1, agrees_trans (Or.inr ⟨q1, q2, q3⟩) hs2⟩
          rw [lastFor_none] at hn ⊢
          exact fun x hx => hn x (e2 x hx)
        · simp at hp'
      · exact e3 k r' h

/-- After any number of whole cycles. -/
theorem recover_blocks (ex : Option ExcludeConfig) (bs : List MessageBlock) :
    (cycles (history ex bs)).2 = [] ∧ ∀ o, SavedFor (history ex bs) o → ∀ k p, lastFor k (cycles (history ex bs)).1 = some p → ∃ s, lastFor k o = some s ∧ TellsSame p s := by
  refine snoc_induction (P := fun bs => (cycles (history ex bs)).2 = [] ∧ ∀ o, SavedFor (history ex bs) o → ∀ k p,
    lastFor k (cycles (history ex bs)).1 = some p → ∃ s, lastFor k o = some s ∧ TellsSame p s) ?_ ?_ bs
  · exact ⟨rfl, fun o _ k p h => by simp [history, cycles, lastFor] at h⟩
  · intro bs b ⟨h0, K⟩
    have e : history ex (bs ++ [b]) = (history ex bs ++ (reports ex b).map .update) ++ [.endCycle] := by
      simp [history]
    rw [e, cycles_endCycle]
    refine ⟨rfl, fun o hs k p hl => ?_⟩
    rw [cycles_updates _ _ (fun r hr => reports_complete hr), h0, List.nil_append] at hl
    obtain ⟨o1, o2, rfl, e1, e2, e3⟩ := recover_cycle _ h0 K (reports ex b) (fun r hr => reports_complete hr) o (savedFor_endCycle hs)
    rw [lastFor_append]
    rcases e3 k p hl with h | ⟨h, s, hs1, hs2⟩
    · exact ⟨p, by rw [h]; rfl, Or.inl rfl⟩
    · exact ⟨s, by rw [h]; simpa using hs1, hs2⟩

/-- What is saved later. -/
theorem savedFor_split (h1 h2 : List Call) : ∀ out, SavedFor (h1 ++ h2) out → ∃ o1 o2, out = o1 ++ o2 ∧ SavedFor h1 o1 ∧ ∀ x ∈ o2, Call.update x ∈ h2 := by
  refine snoc_induction (P := fun h2 => ∀ out, SavedFor (h1 ++ h2) out → ∃ o1 o2, out = o1 ++ o2 ∧ SavedFor h1 o1 ∧ ∀ x ∈ o2, Call.update x ∈ h2) ?_ ?_ h2
  · intro out hs; exact ⟨out, [], by simp, by simpa using hs, by simp⟩
  · intro h2 c ih out hs
    rw [← List.append_assoc] at hs
    cases c with
    | update r =>
      rcases savedFor_update hs with ⟨o, rfl, hs, -⟩ | ⟨hs, -⟩
      · obtain ⟨o1, o2, rfl, e1, e2⟩ := ih o hs
        refine ⟨o1, o2 ++ [r], by simp, e1, fun x hx => ?_⟩
        rcases List.mem_append.1 hx with hx | hx
        · exact List.mem_append_left _ (e2 x hx)
        · simp at hx; subst hx; simp
      · obtain ⟨o1, o2, rfl, e1, e2⟩ := ih out hs
        exact ⟨o1, o2, rfl, e1, fun x hx => List.mem_append_left _ (e2 x hx)⟩
    | endCycle =>
      obtain ⟨o1, o2, rfl, e1, e2⟩ := ih out (savedFor_endCycle hs)
      exact ⟨o1, o2, rfl, e1, fun x hx => List.mem_append_left _ (e2 x hx)⟩

theorem reportOf_time {ex : Option ExcludeConfig} {t : Int} {m : Option NetlinkMessage} {r : ArchivalRecord} (h : reportOf ex t m = some r) : r.timestamp = t := by
  unfold reportOf at h
  split at h
  · simp at h
  · split at h
    · injection h with h; rw [← h]
    · simp at h

theorem reports_time {ex : Option ExcludeConfig} {b : MessageBlock} {r : ArchivalRecord} (h : r ∈ reports ex b) : r.timestamp = b.v4Time ∨ r.timestamp = b.v6Time := by
  rcases List.mem_append.1 h with h | h
  · obtain ⟨m, -, h⟩ := List.mem_filterMap.1 h; exact Or.inl (reportOf_time h)
  · obtain ⟨m, -, h⟩ := List.mem_filterMap.1 h; exact Or.inr (reportOf_time h)

theorem later_reports {ex : Option ExcludeConfig} {b b' : MessageBlock} (h : Later b b') {r r' : ArchivalRecord} (hr : r ∈ reports ex b) (hr' : r' ∈ reports ex b') :
    r.timestamp < r'.timestamp := by
  obtain ⟨h1, h2, h3, h4⟩ := h
  rcases reports_time hr with e | e <;> rcases reports_time hr' with e' | e' <;> omega

theorem history_mem {ex : Option ExcludeConfig} {bs : List MessageBlock} {r : ArchivalRecord} (h : Call.update r ∈ history ex bs) : ∃ b ∈ bs, r ∈ reports ex b := by
  unfold history at h
  obtain ⟨b, hb, h⟩ := List.mem_flatMap.1 h
  refine ⟨b, hb, ?_⟩
  simpa using h

theorem latestAt_append (k : UInt64) (t : Int) (a b : List ArchivalRecord) : latestAt k t (a ++ b) = (latestAt k t b).or (latestAt k t a) := by
  unfold latestAt
  rw [List.filter_append, List.getLast?_append]

theorem latestAt_none {k : UInt64} {t : Int} {l : List ArchivalRecord} (h : ∀ x ∈ l, t < x.timestamp ∨ ck x ≠ k) : latestAt k t l = none := by
  unfold latestAt
  rw [List.getLast?_eq_none_iff, List.filter_eq_nil_iff]
  intro x hx e
  simp only [Bool.and_eq_true, decide_eq_true_eq] at e
  rcases h x hx with h | h
  · omega
  · exact h e.1

theorem latestAt_all {k : UInt64} {t : Int} {l : List ArchivalRecord} (h : ∀ x ∈ l, x.timestamp ≤ t) : latestAt k t l = lastFor k l := by
  unfold latestAt lastFor
  congr 1
  apply List.filter_congr
  intro x hx
  rw [decide_eq_true (h x hx), Bool.and_true]

theorem latestAt_last {k : UInt64} {l : List ArchivalRecord} {r : ArchivalRecord} (h : lastFor k l = some r) : latestAt k r.timestamp l = some r := by
  have e : l.filter (fun x => decide (ck x = k) && decide (x.timestamp ≤ r.timestamp))
      = (l.filter (fun x => decide (ck x = k))).filter (fun x => decide (x.timestamp ≤ r.timestamp)) := by
    rw [List.filter_filter]
    apply List.filter_congr
    intro x _
    exact Bool.and_comm _ _
  have h' : (l.filter (fun x => decide (ck x = k))).getLast? = some r := h
  obtain ⟨ys, hy⟩ := List.getLast?_eq_some_iff.1 h'
  unfold latestAt
  rw [e, hy, List.filter_append, List.getLast?_append]
  simp

/-- C86, in terms of what is saved. -/
theorem recover_latest (ex : Option ExcludeConfig) (pre : List MessageBlock) (b : MessageBlock) (post : List MessageBlock)
    (ht : (pre ++ b :: post).Pairwise Later) (out : List ArchivalRecord) (hs : SavedFor (history ex (pre ++ b :: post)) out)
    (k : UInt64) (r : ArchivalRecord) (hr : lastFor k (reports ex b) = some r) : ∃ x, latestAt k r.timestamp out = some x ∧ TellsSame r x := by
  have e : history ex (pre ++ b :: post) = (history ex pre ++ (reports ex b).map .update) ++ (.endCycle :: history ex post) := by
    simp [history]
  rw [e] at hs
  obtain ⟨o12, o3, rfl, hs12, h3⟩ := savedFor_split _ _ out hs
  obtain ⟨h0, K⟩ := recover_blocks ex pre
  obtain ⟨o1, o2, rfl, hs1, e2, e3⟩ := recover_cycle _ h0 K (reports ex b) (fun r hr => reports_complete hr) o12 hs12
  obtain ⟨o0, o1', e01, hs0, h1⟩ := savedFor_split [] (history ex pre) o1 (by simpa using hs1)
  have hr' : r ∈ reports ex b := (lastFor_mem hr).1
  rw [List.pairwise_append] at ht
  obtain ⟨-, ht2, ht1⟩ := ht
  rw [List.pairwise_cons] at ht2
  have n3 : latestAt k r.timestamp o3 = none := by
    apply latestAt_none
    intro x hx
    have hm := h3 x hx
    simp only [List.mem_cons, reduceCtorEq, false_or] at hm
    obtain ⟨b', hb', hx'⟩ := history_mem hm
    exact Or.inl (later_reports (ht2.1 b' hb') hr' hx')
  have n1 : ∀ x ∈ o1, x.timestamp ≤ r.timestamp := by
    intro x hx
    have h0 : o0 = [] := savedFor_unique hs0 .nil
    rw [e01, h0, List.nil_append] at hx
    obtain ⟨b', hb', hx'⟩ := history_mem (h1 x hx)
    exact Int.le_of_lt (later_reports (ht1 b' hb' b (List.mem_cons_self ..)) hx' hr')
  rw [latestAt_append, n3, Option.none_or, latestAt_append, latestAt_all n1]
  rcases e3 k r hr with h | ⟨h, s, h1, h2⟩
  · exact ⟨r, by rw [latestAt_last h]; rfl, Or.inl rfl⟩
  · refine ⟨s, ?_, h2⟩
    rw [latestAt_none (fun x hx => Or.inr (lastFor_none.1 h x hx)), Option.none_or, h1]

/-- C86 (partial: files can be created, no cookie is 0, every tcp_info reaches to `tcpi_busy_time`; the counters behind that are not among what agrees, see
`C86_violated`). After a run with a clock that advances from poll to poll: for every poll, and every connection reported in it, the last record that was
saved for the connection up to the time of the report agrees with the report. -/
theorem C86_latest_partial (env : Env) (hf : NoFaults env) (hv : ViewOK env) (pre : List MessageBlock) (b : MessageBlock) (post : List MessageBlock)
    (hI : ∀ c ∈ pre ++ b :: post, AllInfoOK env.exclude c) (hz : ∀ c ∈ pre ++ b :: post, ∀ r ∈ reports env.exclude c, ck r ≠ 0)
    (ht : (pre ++ b :: post).Pairwise Later) (s : Saver) (h : runSaver env (pre ++ b :: post) = some s)
    (k : UInt64) (r : ArchivalRecord) (hr : lastFor k (reports env.exclude b) = some r) :
    ∃ x, latestAt k r.timestamp (written s.trace) = some x ∧ TellsSame r x :=
  recover_latest env.exclude pre b post ht _ (C32_saved env hf hv _ hI hz s h) k r hr

/-- C86 (partial, as above), for the counters: bytes acknowledged and received, segments in and out, retransmissions, ... at the time of any poll can be read
off the archive. -/
theorem C86_counters_partial (env : Env) (hf : NoFaults env) (hv : ViewOK env) (pre : List MessageBlock) (b : MessageBlock) (post : List MessageBlock)
    (hI : ∀ c ∈ pre ++ b :: post, AllInfoOK env.exclude c) (hz : ∀ c ∈ pre ++ b :: post, ∀ r ∈ reports env.exclude c, ck r ≠ 0)
    (ht : (pre ++ b :: post).Pairwise Later) (s : Saver) (h : runSaver env (pre ++ b :: post) = some s)
    (k : UInt64) (r : ArchivalRecord) (hr : lastFor k (reports env.exclude b) = some r) (v : Bytes) (hvl : attrVal r 2 = some v) :
    ∃ x w, latestAt k r.timestamp (written s.trace) = some x ∧ attrVal x 2 = some w ∧ stateByte x = stateByte r
      ∧ ∀ c ∈ earlyCounters, fieldOf tcp_info c w = fieldOf tcp_info c v := by
  obtain ⟨x, h1, h2⟩ := C86_latest_partial env hf hv pre b post hI hz ht s h k r hr
  rcases h2 with rfl | ⟨-, hx, hu⟩
  · exact ⟨r, v, h1, hvl, rfl, fun _ _ => rfl⟩
  · obtain ⟨w, hw⟩ := Option.ne_none_iff_exists'.1 hx
    refine ⟨x, w, h1, hw, hu.1.symm, ?_⟩
    have hmem : ∀ c ∈ earlyCounters, (earlyFields ++ middleFields).any (fun f => f.1 == c) = true := by decide +kernel
    intro c hc
    have := hmem c hc
    rw [List.any_eq_true] at this
    obtain ⟨f, hfm, he⟩ := this
    have he : f.1 = c := by simpa using he
    rw [← he]
    exact (hu.2.1 v w hvl hw f (List.mem_append.1 hfm)).symm

/-- Three polls: the round-trip time changes at the second, the bytes sent at the second and the third. -/
def exDrift : List MessageBlock :=
  [exBlock 1600000000000000000 [exMsg 1 0 1], exBlock 1600000001000000000 [exMsg 1 7 2], exBlock 1600000002000000000 [exMsg 1 7 9]]

-- the hypotheses hold, the last poll saves nothing, and the second record stands for it
example : NoFaults exEnv ∧ (∀ b ∈ exDrift, AllInfoOK none b ∧ ∀ r ∈ reports none b, ck r ≠ 0) ∧ exDrift.Pairwise Later :=
  ⟨⟨fun _ => rfl, by decide⟩, by unfold AllInfoOK; decide +kernel, by decide +kernel⟩
example : ((runSaver exEnv exDrift).map (fun s => ((written s.trace).map (·.timestamp), (latestAt 1 1600000002000000000 (written s.trace)).map (·.timestamp))))
    = some ([1600000000000000000, 1600000001000000000], some 1600000001000000000) := by decide +kernel

/-- The bytes sent according to a record. -/
def sentOf (r : ArchivalRecord) : Option Nat := (attrVal r 2).bind (fieldOf tcp_info "tcpi_bytes_sent")

/-- C86 violated: the bytes sent at the last poll (9) are not in the archive, in which the connection has sent 2 bytes at that time and for ever. -/
theorem C86_violated : ((runSaver exEnv exDrift).map (fun s => (written s.trace).map sentOf)) = some [some 1, some 2]
    ∧ exDrift.map (fun b => (reports none b).map sentOf) = [[some 1], [some 2], [some 9]] := by decide +kernel

end TcpInfo
