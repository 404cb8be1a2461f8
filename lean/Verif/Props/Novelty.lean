import Verif.Props.Independence
import Verif.Props.Recover
/-!
# C118: every record in the archive tells something new
-/

namespace TcpInfo
open Spec

/-- Both records have tcp_info and there is no significant change between them. -/
def SaysSame (r x : ArchivalRecord) : Prop := attrVal r 2 ≠ none ∧ attrVal x 2 ≠ none ∧ Unchanged r x

/-- The last of these polls reports connection `k`. -/
def JustSeen (ex : Option ExcludeConfig) (k : UInt64) (bs : List MessageBlock) : Prop := ∃ a, bs.getLast? = some a ∧ reportsOf ex k a ≠ []

theorem saysSame_symm {r x : ArchivalRecord} (h : SaysSame r x) : SaysSame x r :=
  ⟨h.2.1, h.1, h.2.2.1.symm, fun a b ha hb f hf => (h.2.2.2.1 b a hb ha f hf).symm, h.2.2.2.2.1.symm, fun t ht => (h.2.2.2.2.2 t ht).symm⟩

theorem saysSame_trans {r p x : ArchivalRecord} (h1 : SaysSame r p) (h2 : SaysSame p x) : SaysSame r x := by
  obtain ⟨r1, p1, a1, a2, a3, a4⟩ := h1
  obtain ⟨-, x1, b1, b2, b3, b4⟩ := h2
  obtain ⟨y, hy⟩ := Option.ne_none_iff_exists'.1 p1
  exact ⟨r1, x1, a1.trans b1, fun u z hu hz f hf => (a2 u y hu hy f hf).trans (b2 y z hy hz f hf), a3.trans b3, fun t ht => (a4 t ht).trans (b4 t ht)⟩

theorem due_iff (h : List Call) (r : ArchivalRecord) : Due h r ↔ ∀ p, reference h r = some p → ¬ SaysSame r p := by
  unfold Due SaysSame
  constructor
  · rintro hd p hp ⟨h1, h2, h3⟩
    rcases hd p hp with e | e | e
    · exact h1 e
    · exact h2 e
    · exact e h3
  · intro hd p hp
    by_cases h1 : attrVal r 2 = none
    · exact Or.inl h1
    · by_cases h2 : attrVal p 2 = none
      · exact Or.inr (Or.inl h2)
      · exact Or.inr (Or.inr (fun h3 => hd p hp ⟨h1, h2, h3⟩))

theorem history_snoc (ex : Option ExcludeConfig) (bs : List MessageBlock) (b : MessageBlock) :
    history ex (bs ++ [b]) = (history ex bs ++ (reports ex b).map .update) ++ [.endCycle] := by simp [history]

/-- What a poll leaves behind as the previous cycle. -/
theorem previous_iff (ex : Option ExcludeConfig) (k : UInt64) (bs : List MessageBlock) :
    lastFor k (cycles (history ex bs)).1 ≠ none ↔ JustSeen ex k bs := by
  rcases List.eq_nil_or_concat bs with rfl | ⟨pre, a, rfl⟩
  · simp [JustSeen, history, cycles, lastFor]
  · rw [List.concat_eq_append, history_snoc, cycles_endCycle, cycles_updates _ _ (fun r hr => reports_complete hr), (recover_blocks ex pre).1, List.nil_append]
    show (reportsOf ex k a).getLast? ≠ none ↔ _
    unfold JustSeen
    rw [List.getLast?_append]
    simp

/-- The history of `k` up to a poll. -/
theorem proj_snoc (ex : Option ExcludeConfig) (k : UInt64) (bs : List MessageBlock) (b : MessageBlock) (r : ArchivalRecord) (more : List ArchivalRecord)
    (hb : reportsOf ex k b = r :: more) :
    proj k (history ex (bs ++ [b])) = ((proj k (history ex bs) ++ [.update r]) ++ more.map .update) ++ [.endCycle] := by
  rw [proj_history, proj_history, List.map_append, List.flatMap_append]
  simp [hb]

/-- Further reports of the same connection in a cycle are saved. -/
theorem more_saved (k : UInt64) (h : List Call) (r : ArchivalRecord) (hk : ck r = k) (hc : complete r = true) (more : List ArchivalRecord) :
    (∀ x ∈ more, ck x = k ∧ complete x = true) → ∀ out, SavedFor ((h ++ [.update r]) ++ more.map .update) out →
      ∃ o, SavedFor (h ++ [.update r]) o ∧ out = o ++ more := by
  refine snoc_induction (P := fun more => (∀ x ∈ more, ck x = k ∧ complete x = true) → ∀ out, SavedFor ((h ++ [.update r]) ++ more.map .update) out →
      ∃ o, SavedFor (h ++ [.update r]) o ∧ out = o ++ more) ?_ ?_ more
  · intro _ out hs; exact ⟨out, by simpa using hs, by simp⟩
  · intro more x ih ha out hs
    rw [List.map_append, ← List.append_assoc] at hs
    have hm : ∀ y ∈ more, ck y = k ∧ complete y = true := fun y hy => ha y (List.mem_append_left _ hy)
    rcases savedFor_update hs with ⟨o, rfl, hs, -⟩ | ⟨-, hd⟩
    · obtain ⟨o', h1, rfl⟩ := ih hm o hs
      exact ⟨o', h1, by simp⟩
    · refine absurd (fun p hp => ?_) hd
      have e : reference ((h ++ [.update r]) ++ more.map .update) x = none := by
        show (if lastFor (ck x) (cycles _).2 = none then lastFor (ck x) (cycles _).1 else none) = none
        rw [cycles_updates _ _ (fun y hy => (hm y hy).2), cycles_update, (ha x (by simp)).1, if_pos hc, if_neg]
        rw [lastFor_none]
        intro hn
        exact hn r (by simp) hk
      rw [e] at hp; cases hp

/-- C118 (partial: the claim fails for connections reported several times by a poll, `C118_violated_twice`, and without tcp_info, `C118_violated_noinfo`; files
can be created, no cookie is 0). One more poll `b`, which reports connection `k` as `r` and perhaps again (`more`): if the poll before did not report `k`, or
if `r` does not say the same as the last record of `k` in the archive, then `r` is added to the archive, otherwise not; `more` is added in any case. So the
decision can be read off the archive, although the saver compares with the last report. -/
theorem C118_added_partial (env : Env) (hf : NoFaults env) (hv : ViewOK env) (bs : List MessageBlock) (b : MessageBlock)
    (hI : ∀ c ∈ bs ++ [b], AllInfoOK env.exclude c) (hz : ∀ c ∈ bs ++ [b], ∀ r ∈ reports env.exclude c, ck r ≠ 0)
    (s s' : Saver) (h : runSaver env bs = some s) (h' : runSaver env (bs ++ [b]) = some s')
    (k : UInt64) (r : ArchivalRecord) (more : List ArchivalRecord) (hb : reportsOf env.exclude k b = r :: more) :
    ((JustSeen env.exclude k bs ∧ ∃ x, lastFor k (written s.trace) = some x ∧ SaysSame r x) →
        (written s'.trace).filter (fun r => decide (ck r = k)) = (written s.trace).filter (fun r => decide (ck r = k)) ++ more)
    ∧ ((¬ JustSeen env.exclude k bs ∨ ∀ x, lastFor k (written s.trace) = some x → ¬ SaysSame r x) →
        (written s'.trace).filter (fun r => decide (ck r = k)) = (written s.trace).filter (fun r => decide (ck r = k)) ++ r :: more) := by
  have hI0 : ∀ c ∈ bs, AllInfoOK env.exclude c := fun c hc => hI c (List.mem_append_left _ hc)
  have hz0 : ∀ c ∈ bs, ∀ r ∈ reports env.exclude c, ck r ≠ 0 := fun c hc => hz c (List.mem_append_left _ hc)
  have hs0 := C32_saved env hf hv bs hI0 hz0 s h
  have p0 := proj_saved k hs0
  have p1 := proj_saved k (C32_saved env hf hv _ hI hz s' h')
  have own : ∀ x ∈ r :: more, ck x = k ∧ complete x = true := by
    intro x hx
    rw [← hb] at hx
    obtain ⟨m1, m2⟩ := List.mem_filter.1 hx
    exact ⟨by simpa using m2, reports_complete m1⟩
  obtain ⟨hk, hcr⟩ := own r (by simp)
  rw [proj_snoc env.exclude k bs b r more hb] at p1
  obtain ⟨out1, p2, eout⟩ := more_saved k _ r hk hcr more (fun x hx => own x (by simp [hx])) _ (savedFor_endCycle p1)
  obtain ⟨hc2, K⟩ := recover_blocks env.exclude bs
  have href : reference (history env.exclude bs) r = lastFor k (cycles (history env.exclude bs)).1 := by
    show (if lastFor (ck r) (cycles (history env.exclude bs)).2 = none then lastFor (ck r) (cycles (history env.exclude bs)).1 else none) = _
    rw [hc2, hk]; rfl
  have hdue : Due (proj k (history env.exclude bs)) r ↔ (¬ JustSeen env.exclude k bs ∨ ∀ x, lastFor k (written s.trace) = some x → ¬ SaysSame r x) := by
    have e := proj_due (history env.exclude bs) r
    rw [hk] at e
    rw [e, due_iff, href, ← previous_iff]
    cases hl : lastFor k (cycles (history env.exclude bs)).1 with
    | none => simp
    | some p =>
      obtain ⟨x, hx, hpx⟩ := K _ hs0 k p hl
      rw [hx]
      have : SaysSame r p ↔ SaysSame r x := by
        rcases hpx with rfl | hpx
        · exact Iff.rfl
        · exact ⟨fun q => saysSame_trans q hpx, fun q => saysSame_trans q (saysSame_symm hpx)⟩
      simp [this]
  rcases savedFor_update p2 with ⟨o, ho, hso, hd⟩ | ⟨hso, hd⟩
  · have eo := savedFor_unique hso p0
    subst eo
    refine ⟨fun ⟨hj, x, hx, hsx⟩ => ?_, fun _ => by rw [eout, ho]; simp⟩
    rcases hdue.1 hd with hn | hn
    · exact absurd hj hn
    · exact absurd hsx (hn x hx)
  · refine ⟨fun _ => by rw [eout, savedFor_unique hso p0], fun hn => absurd (hdue.2 hn) hd⟩

/-- C118 (partial, as above). A poll that does not report `k` adds no record of it. -/
theorem C118_absent_partial (env : Env) (hf : NoFaults env) (hv : ViewOK env) (bs : List MessageBlock) (b : MessageBlock)
    (hI : ∀ c ∈ bs ++ [b], AllInfoOK env.exclude c) (hz : ∀ c ∈ bs ++ [b], ∀ r ∈ reports env.exclude c, ck r ≠ 0)
    (s s' : Saver) (h : runSaver env bs = some s) (h' : runSaver env (bs ++ [b]) = some s')
    (k : UInt64) (never : reportsOf env.exclude k b = []) :
    (written s'.trace).filter (fun r => decide (ck r = k)) = (written s.trace).filter (fun r => decide (ck r = k)) := by
  have p0 := proj_saved k (C32_saved env hf hv bs (fun c hc => hI c (List.mem_append_left _ hc)) (fun c hc => hz c (List.mem_append_left _ hc)) s h)
  have p1 := proj_saved k (C32_saved env hf hv _ hI hz s' h')
  have e : proj k (history env.exclude (bs ++ [b])) = proj k (history env.exclude bs) ++ [.endCycle] := by
    rw [proj_history, proj_history, List.map_append, List.flatMap_append]
    simp [never]
  rw [e] at p1
  exact savedFor_unique (savedFor_endCycle p1) p0

theorem idle_saved (k : UInt64) (r0 : ArchivalRecord) (hk0 : ck r0 = k) (hc0 : complete r0 = true) (rs : List ArchivalRecord) :
    (∀ r ∈ rs, ck r = k ∧ complete r = true ∧ SaysSame r r0) → attrVal r0 2 ≠ none →
      (∃ p, (cycles ((r0 :: rs).flatMap (fun r => [Call.update r, .endCycle]))) = ([p], []) ∧ ck p = k ∧ SaysSame p r0)
      ∧ SavedFor ((r0 :: rs).flatMap (fun r => [Call.update r, .endCycle])) [r0] := by
  refine snoc_induction (P := fun rs => (∀ r ∈ rs, ck r = k ∧ complete r = true ∧ SaysSame r r0) → attrVal r0 2 ≠ none →
      (∃ p, (cycles ((r0 :: rs).flatMap (fun r => [Call.update r, .endCycle]))) = ([p], []) ∧ ck p = k ∧ SaysSame p r0)
      ∧ SavedFor ((r0 :: rs).flatMap (fun r => [Call.update r, .endCycle])) [r0]) ?_ ?_ rs
  · intro _ hi
    refine ⟨⟨r0, ?_, hk0, hi, hi, rfl, fun a b ha hb f _ => ?_, rfl, fun _ _ => rfl⟩, ?_⟩
    · simp [cycles, hc0]
    · rw [ha] at hb; cases hb; rfl
    · exact .endCycle (.due (h := []) (out := []) .nil (fun p hp => by simp [reference, cycles, lastFor] at hp))
  · intro rs r ih ha hi
    obtain ⟨⟨p, hc, hpk, hps⟩, hs⟩ := ih (fun x hx => ha x (List.mem_append_left _ hx)) hi
    obtain ⟨hrk, hrc, hrs⟩ := ha r (by simp)
    have e : (r0 :: (rs ++ [r])).flatMap (fun r => [Call.update r, .endCycle])
        = ((r0 :: rs).flatMap (fun r => [Call.update r, .endCycle]) ++ [.update r]) ++ [.endCycle] := by
      rw [← List.cons_append, List.flatMap_append]; simp
    rw [e]
    refine ⟨⟨r, ?_, hrk, hrs⟩, ?_⟩
    · rw [cycles_endCycle, cycles_update, hc]; simp [hrc]
    · refine .endCycle (.same hs ?_)
      rw [due_iff]
      intro hd
      refine hd p ?_ (saysSame_trans hrs (saysSame_symm hps))
      show (if lastFor (ck r) (cycles _).2 = none then lastFor (ck r) (cycles _).1 else none) = some p
      rw [hc, hrk]
      simp [lastFor, hpk]

/-- C118 (partial, as above). However long a connection that does nothing is observed, it is recorded once: if every poll from its first one on reports it
once, with tcp_info and without significant change, then its first report is its only record. -/
theorem C118_idle_partial (env : Env) (hf : NoFaults env) (hv : ViewOK env) (bs : List MessageBlock) (hI : ∀ c ∈ bs, AllInfoOK env.exclude c)
    (hz : ∀ c ∈ bs, ∀ r ∈ reports env.exclude c, ck r ≠ 0) (s : Saver) (h : runSaver env bs = some s) (k : UInt64) (r0 : ArchivalRecord)
    (rs : List ArchivalRecord) (once : bs.map (reportsOf env.exclude k) = (r0 :: rs).map (fun r => [r])) (hi : attrVal r0 2 ≠ none)
    (idle : ∀ r ∈ rs, SaysSame r r0) :
    (written s.trace).filter (fun r => decide (ck r = k)) = [r0] := by
  have p1 := proj_saved k (C32_saved env hf hv _ hI hz s h)
  rw [proj_history, once] at p1
  have e : ((r0 :: rs).map (fun r => [r])).flatMap (fun rs => rs.map Call.update ++ [.endCycle]) = (r0 :: rs).flatMap (fun r => [Call.update r, .endCycle]) := by
    rw [List.flatMap_map]; rfl
  rw [e] at p1
  have own : ∀ r ∈ r0 :: rs, ck r = k ∧ complete r = true := by
    intro r hr
    have : [r] ∈ bs.map (reportsOf env.exclude k) := by rw [once]; exact List.mem_map_of_mem hr
    obtain ⟨b, -, hb⟩ := List.mem_map.1 this
    have hm : r ∈ reportsOf env.exclude k b := by rw [hb]; exact List.mem_singleton.2 rfl
    obtain ⟨m1, m2⟩ := List.mem_filter.1 hm
    exact ⟨by simpa using m2, reports_complete m1⟩
  have h0 := own r0 (by simp)
  exact savedFor_unique p1 (idle_saved k r0 h0.1 h0.2 rs (fun r hr => ⟨(own r (by simp [hr])).1, (own r (by simp [hr])).2, idle r hr⟩) hi).2

-- non-vacuity: four polls without a significant change (`exMsg 1 0 1`), with another connection; then a change
example : ((runSaver exEnv [exBlock 1 [exMsg 1 0 1], exBlock 2 [exMsg 2 0 1, exMsg 1 0 1], exBlock 3 [exMsg 1 0 1], exBlock 4 [exMsg 1 0 1]]).map
        (fun s => (written s.trace).map ck)) = some [1, 2]
    ∧ ((runSaver exEnv [exBlock 1 [exMsg 1 0 1], exBlock 2 [exMsg 2 0 1, exMsg 1 0 1], exBlock 3 [exMsg 1 0 1], exBlock 4 [exMsg 1 0 1], exBlock 5 [exMsg 1 5 1]]).map
        (fun s => (written s.trace).map ck)) = some [1, 2, 1]
    ∧ [exBlock 1 [exMsg 1 0 1], exBlock 2 [exMsg 2 0 1, exMsg 1 0 1], exBlock 3 [exMsg 1 0 1], exBlock 4 [exMsg 1 0 1]].map (fun b => (reportsOf none 1 b).length)
      = [1, 1, 1, 1] := by
  decide +kernel

/-- C118 violated: a connection that a dump reports twice in the same way (which happens when the kernel's table changes during the dump) is recorded
twice. -/
theorem C118_violated_twice : ((runSaver exEnv [exBlock 1 [exMsg 1 0 1, exMsg 1 0 1]]).map (fun s => (written s.trace).map (fun r => (ck r, r.timestamp))))
    = some [(1, 1), (1, 1)] := by decide +kernel

/-- C118 violated: a connection without tcp_info is recorded again at every poll, although nothing changes. -/
theorem C118_violated_noinfo : ((runSaver exEnv [exBlock 1 [exMsgA 1 []], exBlock 2 [exMsgA 1 []], exBlock 3 [exMsgA 1 []]]).map
    (fun s => (written s.trace).map (fun r => (ck r, r.timestamp)))) = some [(1, 1), (1, 2), (1, 3)] := by decide +kernel

end TcpInfo
