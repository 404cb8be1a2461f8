import Verif.Lemmas.SaverRun
import Verif.Props.SaverFiles
/-!
# C32, C33, C37, C40, C44: what is saved, which events are sent
-/

namespace TcpInfo
open Spec

/-! ## C40 -/

/-- C40 (partial: every tcp_info reported reaches at least to `tcpi_busy_time`, as on kernels from 4.10 on). The whole run of the saver (final state, trace of
everything it does, or panic) does not depend on whether records in its cache have had their addresses overwritten by marshallers. -/
theorem C40_decisions_partial (env : Env) (hv : ViewOK env) (bs : List MessageBlock) (hb : ∀ b ∈ bs, AllInfoOK env.exclude b) :
    runSaver env bs = runSaver env.still bs := runSaver_view env hv bs hb

/-- A message whose last attribute is a tcp_info of only 104 bytes (as sent by kernels before 4.1). In the receive buffer it is followed by the 16 byte
netlink header and the header of the next message, of a connection from 10.1.2.7. -/
def shortMsg (cookie : UInt8) : Option NetlinkMessage :=
  (exMsgA cookie ([108, 0, 2, 0] ++ List.replicate 104 0)).map (fun m =>
    { m with spare := List.replicate 16 0 ++ [2, 1, 0, 0] ++ [31, 144, 0, 80] ++ ([10, 1, 2, 7] ++ List.replicate 12 0) ++ List.replicate 36 0 })

/-- What a cached record looks like after the source address of that next message has been anonymized to 10.1.2.0 (byte 27 behind the attribute). -/
def nextAnonymized (r : ArchivalRecord) : ArchivalRecord :=
  { r with attributes := r.attributes.map (fun l => l.map (fun o => o.map (fun a => { a with spare := a.spare.set 27 0 }))) }

/-- Environment where that has always happened. -/
def nextAnonymizedEnv : Env := { exEnv with view := fun _ r => nextAnonymized r }

theorem nextAnonymized_ok : ViewOK nextAnonymizedEnv := by
  intro n r
  refine ⟨rfl, rfl, ⟨rfl, rfl, rfl⟩, ?_⟩
  show ((nextAnonymized r).attributes.getD []).map _ = _
  unfold nextAnonymized
  cases r.attributes with
  | none => rfl
  | some l =>
    simp only [Option.map_some, Option.getD_some, List.map_map]
    congr 1
    funext o
    cases o <;> rfl

/-- Two polls of an unchanged connection. -/
def shortBlocks : List MessageBlock := [exBlock 1 [shortMsg 1], exBlock 2 [shortMsg 1]]

/-- C40 violated: `Compare` reads tcp_info fields beyond the end of a short attribute, so what marshallers do to the memory behind it
changes what is saved. -/
theorem C40_violated : ∃ env bs, ViewOK env
    ∧ (runSaver env bs).map (fun s => (written s.trace).length) ≠ (runSaver env.still bs).map (fun s => (written s.trace).length) :=
  ⟨nextAnonymizedEnv, shortBlocks, nextAnonymized_ok, by decide +kernel⟩

-- non-vacuity: an environment that really rewrites addresses, and a run with a comparison
example : (∀ b ∈ exBlocks, AllInfoOK none b) ∧ ((runSaver exEnv exBlocks).map (fun s => s.stats)) = some ⟨5, 2, 1, 1⟩ := by
  refine ⟨?_, by decide +kernel⟩
  show ∀ b ∈ exBlocks, ∀ r ∈ reports none b, InfoOK r
  decide +kernel

/-! ## C32 -/

theorem still_view (env : Env) : ∀ n r, env.still.view n r = r := fun _ _ => rfl

/-- C32. If files can be created, a marshaller exists and cookies are not 0, then exactly the due reports (see `Due`: new ones, and ones that
changed significantly) are queued for writing, in the order reported. -/
theorem C32_saved (env : Env) (hf : NoFaults env) (hv : ViewOK env) (bs : List MessageBlock) (hI : ∀ b ∈ bs, AllInfoOK env.exclude b)
    (hz : ∀ b ∈ bs, ∀ r ∈ reports env.exclude b, ck r ≠ 0) (s : Saver) (h : runSaver env bs = some s) :
    SavedFor (history env.exclude bs) (written s.trace) := by
  rw [runSaver_view env hv bs hI] at h
  obtain ⟨l, h1, h2⟩ := runSaver_split h
  have hm : env.still.marshallers ≠ 0 := Nat.ne_of_gt hf.marshallers
  rw [(runSaver_written hm h1 h2).1]
  refine (run_induct' env.still (still_view env) (fun h l => SavedFor h (written l.svr.trace)) (fun r => ck r ≠ 0) .nil ?_ ?_ bs hI hz l h1).2
  · intro h l r s' hr hq hk hi hp hs
    obtain ⟨s1, e1, -, -, -, -, -, -, -, -, e9, e10⟩ := swap_effect env.still (still_view env) h l.svr hi.cache r hr hq (fun p hp => hi.info p (Or.inl hp))
    have : s1 = s' := Option.some.inj (e1.symm.trans hs)
    subst this
    show SavedFor _ (written s1.trace)
    by_cases hd : Due h r
    · rw [((e10 hd).2.2 hf.create hk hf.marshallers).1]
      exact .due hp hd
    · rw [(e9 hd).2]
      exact .same hp hd
  · intro h l l1 t s4 s6 r4 r6 hi hp hfin _ _
    obtain ⟨l', e1, -, e3, -⟩ := finish_effect env.still hm (still_view env) h l hi.cache
    have : l' = l1 := Option.some.inj (e1.symm.trans hfin)
    subst this
    rw [(report_effect l' t s4 s6 r4 r6).2.2.2.2.2.1, e3]
    exact .endCycle hp

/-- C32. Whatever goes wrong with files, nothing but due reports is ever queued for writing. -/
theorem C32_only_due (env : Env) (hm : 1 ≤ env.marshallers) (hv : ViewOK env) (bs : List MessageBlock) (hI : ∀ b ∈ bs, AllInfoOK env.exclude b)
    (s : Saver) (h : runSaver env bs = some s) :
    ∃ out, SavedFor (history env.exclude bs) out ∧ (written s.trace).Sublist out := by
  rw [runSaver_view env hv bs hI] at h
  obtain ⟨l, h1, h2⟩ := runSaver_split h
  have hm' : env.still.marshallers ≠ 0 := Nat.ne_of_gt hm
  rw [(runSaver_written hm' h1 h2).1]
  refine (run_induct' env.still (still_view env) (fun h l => ∃ out, SavedFor h out ∧ (written l.svr.trace).Sublist out) (fun _ => True)
    ⟨[], .nil, List.Sublist.refl _⟩ ?_ ?_ bs hI (fun _ _ _ _ => trivial) l h1).2
  · rintro h l r s' hr hq hk hi ⟨out, hp, hsub⟩ hs
    obtain ⟨s1, e1, -, -, -, -, -, -, -, -, e9, e10⟩ := swap_effect env.still (still_view env) h l.svr hi.cache r hr hq (fun p hp => hi.info p (Or.inl hp))
    have : s1 = s' := Option.some.inj (e1.symm.trans hs)
    subst this
    show ∃ out, _ ∧ (written s1.trace).Sublist out
    by_cases hd : Due h r
    · refine ⟨out ++ [r], .due hp hd, ?_⟩
      rcases (e10 hd).1 with e | e
      · rw [e]; exact hsub.append (List.Sublist.refl _)
      · rw [e]; exact hsub.trans (List.sublist_append_left _ _)
    · rw [(e9 hd).2]
      exact ⟨out, .same hp hd, hsub⟩
  · rintro h l l1 t s4 s6 r4 r6 hi ⟨out, hp, hsub⟩ hfin _ _
    obtain ⟨l', e1, -, e3, -⟩ := finish_effect env.still hm' (still_view env) h l hi.cache
    have : l' = l1 := Option.some.inj (e1.symm.trans hfin)
    subst this
    rw [(report_effect l' t s4 s6 r4 r6).2.2.2.2.2.1, e3]
    exact ⟨out, .endCycle hp, hsub⟩

/-- The saved records are determined by the history. -/
theorem savedFor_unique {h : List Call} {a b : List ArchivalRecord} (ha : SavedFor h a) (hb : SavedFor h b) : a = b := by
  have key : ∀ {h a}, SavedFor h a → ∀ h' b, h' = h → SavedFor h' b → a = b := by
    intro h a ha
    induction ha with
    | nil =>
      intro h' b e hb
      cases hb <;> simp at e ⊢
    | due _ hd ih =>
      intro h' b e hb
      cases hb with
      | nil => simp at e
      | due hx hd' =>
        obtain ⟨e1, e2⟩ := List.append_inj' e rfl
        simp only [List.cons.injEq, Call.update.injEq, and_true] at e2
        rw [ih _ _ e1 hx, e2]
      | same hx hd' =>
        obtain ⟨e1, e2⟩ := List.append_inj' e rfl
        simp only [List.cons.injEq, Call.update.injEq, and_true] at e2
        subst e1; subst e2
        exact absurd hd hd'
      | endCycle hx => obtain ⟨e1, e2⟩ := List.append_inj' e rfl; simp at e2
    | same _ hd ih =>
      intro h' b e hb
      cases hb with
      | nil => simp at e
      | due hx hd' =>
        obtain ⟨e1, e2⟩ := List.append_inj' e rfl
        simp only [List.cons.injEq, Call.update.injEq, and_true] at e2
        subst e1; subst e2
        exact absurd hd' hd
      | same hx hd' => obtain ⟨e1, e2⟩ := List.append_inj' e rfl; exact ih _ _ e1 hx
      | endCycle hx => obtain ⟨e1, e2⟩ := List.append_inj' e rfl; simp at e2
    | endCycle _ ih =>
      intro h' b e hb
      cases hb with
      | nil => simp at e
      | due hx hd' => obtain ⟨e1, e2⟩ := List.append_inj' e rfl; simp at e2
      | same hx hd' => obtain ⟨e1, e2⟩ := List.append_inj' e rfl; simp at e2
      | endCycle hx => obtain ⟨e1, e2⟩ := List.append_inj' e rfl; exact ih _ _ e1 hx
  exact key ha h b rfl hb

/-- C32. Every history has exactly one list of records to be saved, so `C32_saved` pins down what is written. -/
theorem C32_unique (h : List Call) (a b : List ArchivalRecord) (ha : SavedFor h a) (hb : SavedFor h b) : a = b := savedFor_unique ha hb

-- non-vacuity: three polls, five reports, three of them due
example : NoFaults exEnv ∧ ViewOK exEnv ∧ (∀ b ∈ exBlocks, ∀ r ∈ reports none b, InfoOK r ∧ ck r ≠ 0)
    ∧ ((runSaver exEnv exBlocks).map (fun s => (written s.trace).length)) = some 3 :=
  ⟨⟨fun _ => rfl, by decide⟩, fun _ _ => ⟨rfl, rfl, ⟨rfl, rfl, rfl⟩, rfl⟩, by decide +kernel, by decide +kernel⟩

/-! ## C33 -/

/-- Invariant of runs without faults. -/
structure FlowInv (env : Env) (h : List Call) (l : LoopState) : Prop where
  present : ∀ k, l.svr.conns.get k ≠ none ↔ (lastFor k (cycles h).1 ≠ none ∨ lastFor k (cycles h).2 ≠ none)
  writer : ∀ k c, l.svr.conns.get k = some c → c.writer ≠ none
  flows : ∀ k, FlowsFor k h (flowEvents (env.uuid k) l.svr.trace)
  pairs : ∀ k, ∃ n, flowEvents (env.uuid k) l.svr.trace = Spec.pairs n ++ (if l.svr.conns.get k ≠ none then [true] else [])
  others : ∀ u, (∀ k, u ≠ env.uuid k) → flowEvents u l.svr.trace = []

theorem pairs_snoc (n : Nat) : pairs n ++ [true, false] = pairs (n + 1) := by
  induction n with
  | zero => rfl
  | succ n ih => simp only [pairs, List.cons_append, ih]

theorem flowInv_update {env : Env} (hf : NoFaults env) (hview : ∀ n r, env.view n r = r) {h : List Call} {l : LoopState} {r : ArchivalRecord} {s' : Saver}
    (hr : complete r = true) (hq : InfoOK r) (hk : ck r ≠ 0) (hi : RunInv h l) (hp : FlowInv env h l) (hs : l.svr.swapAndQueue env r = some s') :
    FlowInv env (h ++ [.update r]) { l with svr := s' } := by
  obtain ⟨s1, e1, -, -, -, -, -, -, -, e8, e9, e10⟩ := swap_effect env hview h l.svr hi.cache r hr hq (fun p hp => hi.info p (Or.inl hp))
  have : s1 = s' := Option.some.inj (e1.symm.trans hs)
  subst this
  have hcy : ∀ k, (lastFor k (cycles (h ++ [.update r])).1 ≠ none ∨ lastFor k (cycles (h ++ [.update r])).2 ≠ none) ↔
      (k = ck r ∨ lastFor k (cycles h).1 ≠ none ∨ lastFor k (cycles h).2 ≠ none) := by
    intro k
    rw [cycles_update, if_pos hr]
    simp only
    rw [lastFor_snoc]
    by_cases hkk : ck r = k
    · simp [hkk]
    · simp [hkk, Ne.symm hkk]
  by_cases hd : Due h r
  · obtain ⟨-, q2, q3⟩ := e10 hd
    obtain ⟨-, c, w, hc, hw⟩ := q3 hf.create hk hf.marshallers
    have hfl : ∀ k, flowEvents (env.uuid k) s1.trace = flowEvents (env.uuid k) l.svr.trace ++
        (if k = ck r ∧ l.svr.conns.get (ck r) = none then [true] else []) := by
      intro k
      rw [q2]
      congr 1
      by_cases hkk : k = ck r
      · subst hkk; simp [hk, hf.marshallers]
      · have : env.uuid k ≠ env.uuid (ck r) := fun e => hkk (env.uuid_inj _ _ e)
        simp [hkk, this]
    refine ⟨?_, ?_, ?_, ?_, ?_⟩
    · intro k
      rw [hcy k]
      show s1.conns.get k ≠ none ↔ _
      by_cases hkk : k = ck r
      · subst hkk; rw [hc]; simp
      · rw [e8 k hkk]; simp only [hkk, false_or]; exact hp.present k
    · intro k c' hc'
      by_cases hkk : k = ck r
      · subst hkk
        have : some c = some c' := hc.symm.trans hc'
        injection this with this; subst this
        rw [hw]; simp
      · have hc' : s1.conns.get k = some c' := hc'
        rw [e8 k hkk] at hc'
        exact hp.writer k c' hc'
    · intro k
      show FlowsFor k _ (flowEvents (env.uuid k) s1.trace)
      rw [hfl k]
      by_cases hkk : k = ck r
      · by_cases hn : l.svr.conns.get (ck r) = none
        · rw [if_pos ⟨hkk, hn⟩]
          have hnp : ¬ (lastFor k (cycles h).1 ≠ none ∨ lastFor k (cycles h).2 ≠ none) := by
            rw [← hp.present k, hkk, hn]; simp
          rw [not_or, Classical.not_not, Classical.not_not] at hnp
          exact .first (hp.flows k) hkk.symm hnp.1 hnp.2
        · rw [if_neg (fun x => hn x.2), List.append_nil]
          exact .again (hp.flows k) hkk.symm ((hp.present k).1 (by rw [hkk]; exact hn))
      · rw [if_neg (fun x => hkk x.1), List.append_nil]
        exact .other (hp.flows k) (Ne.symm hkk)
    · intro k
      obtain ⟨n, hn⟩ := hp.pairs k
      refine ⟨n, ?_⟩
      show flowEvents (env.uuid k) s1.trace = pairs n ++ (if s1.conns.get k ≠ none then [true] else [])
      rw [hfl k, hn]
      by_cases hkk : k = ck r
      · subst hkk
        rw [hc]
        by_cases hn' : l.svr.conns.get (ck r) = none
        · simp [hn']
        · simp [hn']
      · rw [e8 k hkk]; simp [hkk]
    · intro u hu
      show flowEvents u s1.trace = []
      rw [q2, hp.others u hu]; simp [hu (ck r)]
  · obtain ⟨q1, q2⟩ := e9 hd
    have href : lastFor (ck r) (cycles h).1 ≠ none := by
      intro hn
      apply hd
      intro p hpp
      unfold reference at hpp
      simp only at hpp
      split at hpp
      · rw [hn] at hpp; simp at hpp
      · simp at hpp
    refine ⟨?_, ?_, ?_, ?_, ?_⟩
    · intro k
      rw [hcy k]
      show s1.conns.get k ≠ none ↔ _
      rw [q1, hp.present k]
      constructor
      · exact Or.inr
      · rintro (rfl | hx)
        · exact Or.inl href
        · exact hx
    · intro k c hc; have hc : s1.conns.get k = some c := hc; rw [q1] at hc; exact hp.writer k c hc
    · intro k
      show FlowsFor k _ (flowEvents (env.uuid k) s1.trace)
      rw [q2]
      by_cases hkk : ck r = k
      · exact .again (hp.flows k) hkk (Or.inl (by rw [← hkk]; exact href))
      · exact .other (hp.flows k) hkk
    · intro k
      show ∃ n, flowEvents (env.uuid k) s1.trace = pairs n ++ (if s1.conns.get k ≠ none then [true] else [])
      rw [q1, q2]; exact hp.pairs k
    · intro u hu
      show flowEvents u s1.trace = []
      rw [q2]; exact hp.others u hu

theorem flowInv_endCycle {env : Env} (hf : NoFaults env) (hview : ∀ n r, env.view n r = r) {h : List Call} {l l1 : LoopState} (t : Int) (s4 s6 r4 r6 : UInt64)
    (hi : RunInv h l) (hp : FlowInv env h l) (hfin : l.finish env = some l1) : FlowInv env (h ++ [.endCycle]) (l1.report t s4 s6 r4 r6) := by
  have hm : env.marshallers ≠ 0 := Nat.ne_of_gt hf.marshallers
  obtain ⟨l', e1, e2, e3, e4, e4', e5, -⟩ := finish_effect env hm hview h l hi.cache
  have : l' = l1 := Option.some.inj (e1.symm.trans hfin)
  subst this
  obtain ⟨r1, -, -, -, -, -, r7⟩ := report_effect l' t s4 s6 r4 r6
  have hgone : ∀ k, (lastFor k (cycles h).1 ≠ none ∧ lastFor k (cycles h).2 = none) → l'.svr.conns.get k = none :=
    fun k hk => e5 k hk (fun c hc => hp.writer k c hc)
  have hpres : ∀ k, l'.svr.conns.get k ≠ none ↔ lastFor k (cycles h).2 ≠ none := by
    intro k
    by_cases hk : lastFor k (cycles h).1 ≠ none ∧ lastFor k (cycles h).2 = none
    · rw [hgone k hk]; simp [hk.2]
    · rw [e2 k hk, hp.present k]
      constructor
      · rintro (hx | hx)
        · intro hn; exact hk ⟨hx, hn⟩
        · exact hx
      · exact Or.inr
  refine ⟨?_, ?_, ?_, ?_, ?_⟩
  · intro k
    rw [r1, cycles_endCycle, hpres k]
    simp [lastFor]
  · intro k c hc
    rw [r1] at hc
    by_cases hk : lastFor k (cycles h).1 ≠ none ∧ lastFor k (cycles h).2 = none
    · rw [hgone k hk] at hc; simp at hc
    · rw [e2 k hk] at hc; exact hp.writer k c hc
  · intro k
    rw [r7, e4 k]
    by_cases hk : lastFor k (cycles h).1 ≠ none ∧ lastFor k (cycles h).2 = none
    · rw [if_pos hk]; exact .gone (hp.flows k) hk.1 hk.2
    · rw [if_neg hk, List.append_nil]
      refine .stays (hp.flows k) ?_
      by_cases h1 : lastFor k (cycles h).1 = none
      · exact Or.inl h1
      · exact Or.inr (fun h2 => hk ⟨h1, h2⟩)
  · intro k
    obtain ⟨n, hn⟩ := hp.pairs k
    rw [r7, r1, e4 k, hn]
    by_cases hk : lastFor k (cycles h).1 ≠ none ∧ lastFor k (cycles h).2 = none
    · have : l.svr.conns.get k ≠ none := (hp.present k).2 (Or.inl hk.1)
      rw [if_pos hk, hgone k hk, if_pos this]
      exact ⟨n + 1, by rw [List.append_assoc]; simpa using pairs_snoc n⟩
    · rw [if_neg hk, e2 k hk]; exact ⟨n, by simp⟩
  · intro u hu
    rw [r7, e4' u hu]; exact hp.others u hu

theorem flowInv_run (env : Env) (hf : NoFaults env) (hview : ∀ n r, env.view n r = r) (bs : List MessageBlock) (hI : ∀ b ∈ bs, AllInfoOK env.exclude b)
    (hz : ∀ b ∈ bs, ∀ r ∈ reports env.exclude b, ck r ≠ 0) (l : LoopState) (h : runBlocks env bs = some l) :
    FlowInv env (history env.exclude bs) l := by
  refine (run_induct' env hview (FlowInv env) (fun r => ck r ≠ 0) ?_ ?_ ?_ bs hI hz l h).2
  · exact ⟨fun k => by simp [newLoop, newSaver, GoMap.get, lastFor, cycles], fun k c hc => by simp [newLoop, newSaver, GoMap.get] at hc,
      fun k => .nil, fun k => ⟨0, by simp [newLoop, newSaver, GoMap.get, flowEvents, pairs]⟩, fun u _ => rfl⟩
  · intro h l r s' hr hq hk hi hp hs; exact flowInv_update hf hview hr hq hk hi hp hs
  · intro h l l1 t s4 s6 r4 r6 hi hp hfin _ _; exact flowInv_endCycle hf hview t s4 s6 r4 r6 hi hp hfin

/-- C33. (Files can be created, cookies are not 0.) At every point between blocks the events sent for cookie `k` are exactly those of `FlowsFor`: an
open event at the first report after absence, a close event at the end of the first cycle without a report. -/
theorem C33_events (env : Env) (hf : NoFaults env) (hv : ViewOK env) (bs : List MessageBlock) (hI : ∀ b ∈ bs, AllInfoOK env.exclude b)
    (hz : ∀ b ∈ bs, ∀ r ∈ reports env.exclude b, ck r ≠ 0) (l : LoopState) (h : runBlocks env bs = some l) (k : UInt64) :
    FlowsFor k (history env.exclude bs) (flowEvents (env.uuid k) l.svr.trace) := by
  rw [runBlocks_view env hv bs hI] at h
  exact (flowInv_run env.still ⟨hf.create, hf.marshallers⟩ (still_view env) bs hI hz l h).flows k

/-- C33. (Files can be created, cookies are not 0.) Over a complete run, the events of every UUID are open, close, open, close, ..., ending with
a close. -/
theorem C33_alternate (env : Env) (hf : NoFaults env) (hv : ViewOK env) (bs : List MessageBlock) (hI : ∀ b ∈ bs, AllInfoOK env.exclude b)
    (hz : ∀ b ∈ bs, ∀ r ∈ reports env.exclude b, ck r ≠ 0) (s : Saver) (h : runSaver env bs = some s) (u : String) :
    ∃ n, flowEvents u s.trace = pairs n := by
  rw [runSaver_view env hv bs hI] at h
  obtain ⟨l, h1, h2⟩ := runSaver_split h
  have hi := flowInv_run env.still ⟨hf.create, hf.marshallers⟩ (still_view env) bs hI hz l h1
  obtain ⟨-, w2, w3, -⟩ := runSaver_written (env := env.still) (Nat.ne_of_gt hf.marshallers) h1 h2
  by_cases hu : ∃ k, u = env.still.uuid k
  · obtain ⟨k, rfl⟩ := hu
    obtain ⟨n, hn⟩ := hi.pairs k
    rw [w2 k, hn]
    by_cases hc : l.svr.conns.get k ≠ none
    · rw [if_pos hc, if_pos hc]
      exact ⟨n + 1, by rw [List.append_assoc]; exact pairs_snoc n⟩
    · rw [if_neg hc, if_neg hc]; exact ⟨n, by simp⟩
  · refine ⟨0, ?_⟩
    rw [w3 u (fun k hk => hu ⟨k, hk⟩)]
    exact hi.others u (fun k hk => hu ⟨k, hk⟩)

-- non-vacuity: connection 1 is closed at shutdown, connection 2 when it is missing from the third poll
example : ((runSaver exEnv exBlocks).map (fun s => (flowEvents "1" s.trace, flowEvents "2" s.trace))) = some ([true, false], [true, false])
    ∧ ((runBlocks exEnv exBlocks).map (fun l => (flowEvents "1" l.svr.trace, flowEvents "2" l.svr.trace))) = some ([true], [true, false])
    ∧ ((runSaver exEnv gapBlocks).map (fun s => flowEvents "1" s.trace)) = some [true, false, true, false] := by
  decide +kernel

/-- Two opens in a row. -/
def twoOpens : List Bool → Bool
  | true :: true :: _ => true
  | _ :: l => twoOpens l
  | [] => false

theorem twoOpens_snoc_false (l : List Bool) : twoOpens (l ++ [false]) = twoOpens l := by
  induction l with
  | nil => rfl
  | cons a l ih =>
    cases a with
    | false => exact ih
    | true =>
      cases l with
      | nil => rfl
      | cons b l => cases b <;> simp only [List.cons_append, twoOpens] at ih ⊢; exact ih

theorem twoOpens_snoc_true (l : List Bool) (h : l.getLast? ≠ some true) : twoOpens (l ++ [true]) = twoOpens l := by
  induction l with
  | nil => rfl
  | cons a l ih =>
    cases l with
    | nil => cases a <;> simp [twoOpens] at h ⊢
    | cons b l =>
      have ih := ih (by simpa using h)
      cases a <;> cases b <;> simp only [List.cons_append, twoOpens] at ih ⊢ <;> exact ih

/-- Invariant of all runs: no two opens in a row, and the last event of a connection that is not in the map is not an open. -/
def OpenInv (env : Env) (s : Saver) : Prop :=
  ∀ k, twoOpens (flowEvents (env.uuid k) s.trace) = false ∧ (s.conns.get k = none → (flowEvents (env.uuid k) s.trace).getLast? ≠ some true)

theorem openInv_step (env : Env) (s t : Saver) (hst : Step env s t) (hi : OpenInv env s) : OpenInv env t := by
  have frame : ∀ t : Saver, (∀ u, flowEvents u t.trace = flowEvents u s.trace) → (∀ k, t.conns.get k = none → s.conns.get k = none) → OpenInv env t := by
    intro t h1 h2 k
    rw [h1]; exact ⟨(hi k).1, fun h => (hi k).2 (h2 k h)⟩
  have sets : ∀ k0 c0 c, s.conns.get k0 = some c0 → ∀ k, (s.conns.set k0 c).get k = none → s.conns.get k = none := by
    intro k0 c0 c h0 k h
    rw [GoMap.get_set] at h
    split at h
    · simp at h
    · exact h
  have del : ∀ k0 k (u : String) (x : Stamped), x.act = .flowDeleted (env.wall x.time) (env.uuid k0) →
      flowEvents (env.uuid k) (s.trace ++ [x]) = if k = k0 then flowEvents (env.uuid k) s.trace ++ [false] else flowEvents (env.uuid k) s.trace := by
    intro k0 k u x hx
    rw [flowEvents_snoc, flowEvent, hx]
    by_cases hk : k = k0
    · simp [hk]
    · have : env.uuid k0 ≠ env.uuid k := fun e => hk (env.uuid_inj _ _ e).symm
      simp [hk, this]
  cases hst with
  | other h1 h2 h3 h4 h5 => exact frame t (fun u => by rw [h3]) (fun k h => by rw [← h1]; exact h)
  | clock => exact frame _ (fun u => rfl) (fun k h => h)
  | observe a ha =>
    refine frame _ (fun u => ?_) (fun k h => h)
    rcases ha with ⟨n, rfl⟩ | ⟨n, rfl⟩ <;> simp [Saver.emit, flowEvents_snoc, flowEvent]
  | create k0 idm ts hn hk0 hk =>
    intro k
    show twoOpens (flowEvents (env.uuid k) (s.trace ++ [_])) = false ∧ _
    rw [flowEvents_snoc]
    by_cases hkk : k = k0
    · subst hkk
      simp only [flowEvent, if_pos, Option.toList]
      refine ⟨by rw [twoOpens_snoc_true _ ((hi k).2 hn)]; exact (hi k).1, ?_⟩
      intro h
      have h : (s.conns.set k (newConnection idm ts s.clock)).get k = none := h
      rw [GoMap.get_set_self] at h; simp at h
    · have hne : env.uuid k0 ≠ env.uuid k := fun e => hkk (env.uuid_inj _ _ e).symm
      have : flowEvents (env.uuid k) ({ s.emit (.flowCreated ts (env.uuid k0) idm.id.getSockID) with conns := s.conns.set k0 (newConnection idm ts s.clock) } : Saver).trace
          = flowEvents (env.uuid k) s.trace := by
        simp [Saver.emit, flowEvents_snoc, flowEvent, hne]
      simp only [flowEvent, if_neg hne, Option.toList, List.append_nil]
      refine ⟨(hi k).1, fun h => ?_⟩
      rw [this]
      refine (hi k).2 ?_
      have h : (s.conns.set k0 (newConnection idm ts s.clock)).get k = none := h
      rwa [GoMap.get_set_ne _ _ hkk] at h
  | closeExpired k0 c w hk hw hexp => exact frame _ (fun u => by simp [Saver.emit, flowEvents_snoc, flowEvent]) (sets k0 c _ hk)
  | touch k0 c hk => exact frame _ (fun u => rfl) (sets k0 c _ hk)
  | rotate k0 c dir hk hw hd0 hd1 => exact frame _ (fun u => by simp [Saver.emit, flowEvents_snoc, flowEvent]) (sets k0 c _ hk)
  | write k0 c w msg idm hk hw hp hck hexp => exact frame _ (fun u => by simp [Saver.emit, flowEvents_snoc, flowEvent]) (fun k h => h)
  | endClose k0 c w hk hw =>
    intro k
    have he : flowEvents (env.uuid k) ({ (s.emit (.flowDeleted (env.wall s.clock) (env.uuid k0))).emit (.send (queueOf env k0) ⟨none, some w⟩) with conns := s.conns.del k0 } : Saver).trace
        = if k = k0 then flowEvents (env.uuid k) s.trace ++ [false] else flowEvents (env.uuid k) s.trace := by
      rw [← del k0 k "" ⟨s.clock, .flowDeleted (env.wall s.clock) (env.uuid k0)⟩ rfl]
      show flowEvents (env.uuid k) ((s.trace ++ [_]) ++ [_]) = _
      rw [flowEvents_snoc]
      simp [flowEvent]
    rw [he]
    by_cases hkk : k = k0
    · rw [if_pos hkk]
      exact ⟨by rw [twoOpens_snoc_false]; exact (hi k).1, fun _ => by simp⟩
    · rw [if_neg hkk]
      refine ⟨(hi k).1, fun h => (hi k).2 ?_⟩
      have h : (s.conns.del k0).get k = none := h
      rwa [GoMap.get_del_ne _ hkk] at h
  | endGone k0 hg =>
    intro k
    show twoOpens (flowEvents (env.uuid k) (s.trace ++ [_])) = false ∧ (s.conns.get k = none → (flowEvents (env.uuid k) (s.trace ++ [_])).getLast? ≠ some true)
    rw [del k0 k "" ⟨s.clock, .flowDeleted (env.wall s.clock) (env.uuid k0)⟩ rfl]
    by_cases hkk : k = k0
    · rw [if_pos hkk]
      exact ⟨by rw [twoOpens_snoc_false]; exact (hi k).1, fun _ => by simp⟩
    · rw [if_neg hkk]; exact hi k

/-- C33 (partial). In every run whatsoever (any faults, any messages), between two open events of a connection there is a close event. -/
theorem C33_opens_partial (env : Env) (bs : List MessageBlock) (s : Saver) (h : runSaver env bs = some s) (k : UInt64) :
    twoOpens (flowEvents (env.uuid k) s.trace) = false := by
  obtain ⟨s1, rfl, hst, -⟩ := runSaver_closed h
  have hi : OpenInv env s1 := hst.inv (openInv_step env) (fun k => ⟨rfl, fun _ => by simp [newSaver, flowEvents]⟩)
  have : flowEvents (env.uuid k) (s1.emit .closeChans).trace = flowEvents (env.uuid k) s1.trace := by simp [Saver.emit, flowEvents_snoc, flowEvent]
  rw [this]; exact (hi k).1

example : twoOpens [true, false, true, true] = true ∧ twoOpens [true, false, true, false] = false := by decide

/-- C33 violated: if the file cannot be created, the close event of the connection is sent twice (when it disappears and at shutdown), and
no open event is sent when it comes back. -/
theorem C33_violated_create :
    ((runSaver (exEnvWith 1000000000 (List.range 100) 3) gapBlocks).map (fun s => flowEvents "1" s.trace)) = some [true, false, false]
    ∧ ((runSaver (exEnvWith 1000000000 (List.range 100) 3) [exBlock 1 [exMsg 1 0 1], exBlock 2 []]).map (fun s => flowEvents "1" s.trace)) = some [true, false, false] := by
  decide +kernel

/-- C33 violated: a connection with cookie 0 gets a close event but never an open event. -/
theorem C33_violated_zero : ((runSaver exEnv [exBlock 1 [exMsg 0 0 1], exBlock 2 []]).map (fun s => flowEvents "0" s.trace)) = some [false] := by
  decide +kernel

/-! ## C37: order -/

/-- Records put into file `w`, in order. -/
def fileRecords (w : Nat) (tr : List Stamped) : List ArchivalRecord := (fileEvents w tr).filterMap (fun e => match e with | .wrote _ r => some r | _ => none)

theorem fileRecords_sublist (w : Nat) (tr : List Stamped) : (fileRecords w tr).Sublist (written tr) := by
  unfold fileRecords fileEvents written
  rw [List.filterMap_filterMap]
  induction tr with
  | nil => exact .slnil
  | cons a tr ih =>
    obtain ⟨t, act⟩ := a
    rw [List.filterMap_cons, List.filterMap_cons]
    cases act with
    | send q task =>
      obtain ⟨m, wr⟩ := task
      cases m with
      | none => cases wr with
        | none => exact ih
        | some w' => by_cases hw : w' = w <;> simp only [fileEvent, hw, if_true, if_false, Option.bind_some, Option.bind_none] <;> exact ih
      | some r => cases wr with
        | none => simp only [fileEvent, Option.bind_none]; exact ih.cons _
        | some w' =>
          by_cases hw : w' = w
          · simp only [fileEvent, hw, if_true, Option.bind_some]; exact ih.cons₂ _
          · simp only [fileEvent, hw, if_false, Option.bind_none]; exact ih.cons _
    | openFile w' n hd => by_cases hw : w' = w <;> simp only [fileEvent, hw, if_true, if_false, Option.bind_some, Option.bind_none] <;> exact ih
    | _ => exact ih

theorem recordClosing_trace (s : Saver) (k : UInt64) (pm old : ArchivalRecord) : (s.recordClosing k pm old).trace = s.trace := (recordClosing_frame s k pm old).2.1

theorem swap_written (env : Env) (s : Saver) (r : ArchivalRecord) (hr : complete r = true) (s' : Saver) (h : s.swapAndQueue env r = some s') :
    written s'.trace = written s.trace ∨ written s'.trace = written s.trace ++ [r] := by
  obtain ⟨idm, hidm, -⟩ := cookieOf_parse hr
  have hq : ∀ s0 : Saver, s0.trace = s.trace → ((s0.queue env r).map (·.1) = some s') → written s'.trace = written s.trace ∨ written s'.trace = written s.trace ++ [r] := by
    intro s0 ht he
    obtain ⟨s1, e, e1, -, e3, -⟩ := queue_effect env s0 r idm hidm
    rw [e1] at he
    have : s1 = s' := by simpa using he
    subst this
    rw [e3, ht]
    split
    · exact Or.inr rfl
    · exact Or.inl (by simp)
  unfold Saver.swapAndQueue at h
  simp only at h
  split at h
  · simp at h
  · injection h with h; subst h; exact Or.inl rfl
  · exact hq _ (by rfl) h
  · split at h
    · simp at h
    · injection h with h; subst h; exact Or.inl rfl
    · split at h
      · simp at h
      · injection h with h; subst h; simp only [recordClosing_trace]; exact Or.inl trivial
      · split at h
        · exact hq _ (by simp only [recordClosing_trace]) h
        · injection h with h; subst h; simp only [recordClosing_trace]; exact Or.inl trivial

theorem endConn_written (env : Env) (s : Saver) (k : UInt64) (s' : Saver) (h : s.endConn env k = some s') : written s'.trace = written s.trace := by
  by_cases hm : env.marshallers = 0
  · unfold Saver.endConn at h; simp [hm] at h
  · obtain ⟨s1, e1, -, e3, -⟩ := endConn_effect env hm s k
    have : s1 = s' := Option.some.inj (e1.symm.trans h)
    subst this; exact e3

theorem expireAll_written (env : Env) (res : GoMap ArchivalRecord) (ks : List UInt64) (l l' : LoopState) (h : LoopState.expireAll env res ks l = some l') :
    written l'.svr.trace = written l.svr.trace := by
  induction ks generalizing l with
  | nil => simp only [LoopState.expireAll] at h; injection h with h; subst h; rfl
  | cons k ks ih =>
    simp only [LoopState.expireAll] at h
    obtain ⟨l1, h1, h2⟩ := Option.bind_eq_some_iff.1 h
    rw [ih l1 h2]
    unfold LoopState.expire at h1
    split at h1
    · injection h1 with h1; subst h1; rfl
    · simp only at h1
      split at h1
      · simp at h1
      · rename_i s1 hs
        injection h1 with h1; subst h1
        show written s1.trace = _
        rw [endConn_written env _ k s1 hs, (finalStats_frame _ _ _).2.1]

theorem endAll_written (env : Env) (ks : List UInt64) (s s' : Saver) (h : Saver.endAll env ks s = some s') : written s'.trace = written s.trace := by
  induction ks generalizing s with
  | nil => simp only [Saver.endAll] at h; injection h with h; subst h; rfl
  | cons k ks ih =>
    simp only [Saver.endAll] at h
    obtain ⟨s1, h1, h2⟩ := Option.bind_eq_some_iff.1 h
    rw [ih s1 h2, endConn_written env s k s1 h1]

/-- What is queued in a run is part of what is reported. -/
theorem run_written (env : Env) (bs : List MessageBlock) (l : LoopState) (h1 : runBlocks env bs = some l) :
    (written l.svr.trace).Sublist (bs.flatMap (reports env.exclude)) := by
  have key := run_induct env (fun h l => (written l.svr.trace).Sublist (h.filterMap (fun c => match c with | .update r => some r | .endCycle => none)))
    (fun _ => True) (List.Sublist.refl _) ?_ ?_ bs (fun _ _ _ _ => trivial) l h1
  · have : (history env.exclude bs).filterMap (fun c => match c with | .update r => some r | .endCycle => none) = bs.flatMap (reports env.exclude) := by
      unfold history
      rw [List.filterMap_flatMap]
      congr 1
      funext b
      rw [List.filterMap_append, List.filterMap_map]
      have : (reports env.exclude b).filterMap ((fun c => match c with | Call.update r => some r | Call.endCycle => none) ∘ Call.update) = reports env.exclude b := by
        induction reports env.exclude b with
        | nil => rfl
        | cons x xs ih => rw [List.filterMap_cons]; simp only [Function.comp] at ih ⊢; rw [ih]
      rw [this]; simp
    rw [← this]; exact key
  · intro h l r s' hr _ hp hs
    show (written s'.trace).Sublist _
    rw [List.filterMap_append]
    rcases swap_written env l.svr r hr s' hs with e | e
    · rw [e]; exact hp.trans (List.sublist_append_left _ _)
    · rw [e]; exact hp.append (List.Sublist.refl _)
  · intro h l l1 t s4 s6 r4 r6 hp hf _ _
    rw [(report_effect l1 t s4 s6 r4 r6).2.2.2.2.2.1, expireAll_written env _ _ _ _ hf, List.filterMap_append]
    exact hp.trans (List.sublist_append_left _ _)

theorem runSaver_written_reported (env : Env) (bs : List MessageBlock) (s : Saver) (h : runSaver env bs = some s) :
    (written s.trace).Sublist (bs.flatMap (reports env.exclude)) := by
  obtain ⟨l, s1, h1, h2, rfl, -⟩ := steps_runSaver env bs s h
  have e0 : written (s1.emit .closeChans).trace = written l.svr.trace := by
    have h3 := endAll_written env _ _ _ h2
    simp only at h3
    rw [← h3]
    simp [Saver.emit, written_snoc, writtenOf]
  rw [e0]
  exact run_written env bs l h1

/-- C37. In every run, the records put into a file are records reported by the kernel, each at most once per report, in the order of the reports. -/
theorem C37_order (env : Env) (bs : List MessageBlock) (s : Saver) (h : runSaver env bs = some s) (w : Nat) :
    (fileRecords w s.trace).Sublist (bs.flatMap (reports env.exclude)) :=
  (fileRecords_sublist w s.trace).trans (runSaver_written_reported env bs s h)

example : ((runSaver exEnv exBlocks).map (fun s => ((fileRecords 1 s.trace).map ck, (fileRecords 1 s.trace).map (·.timestamp))))
    = some ([2, 2], [1600000000000000000, 1600000001000000000]) := by decide +kernel

/-! ## C44 -/

/-- C44 (partial: at least one marshaller, no message on which building the record panics (C09), tcp_info absent or reaching to `tcpi_busy_time`).
The saver gets through every sequence of blocks, and the shutdown, without panicking, whatever happens to files and whatever the clock says; and the index
of every queue it uses is in range. -/
theorem C44_no_crash_partial (env : Env) (hm : 1 ≤ env.marshallers) (hm' : env.marshallers < 2 ^ 64) (hv : ViewOK env) (bs : List MessageBlock)
    (hn : ∀ b ∈ bs, ∀ m, some m ∈ b.v4Messages ++ b.v6Messages → makeArchivalRecord m env.exclude ≠ .panic)
    (hI : ∀ b ∈ bs, AllInfoOK env.exclude b) :
    ∃ s, runSaver env bs = some s ∧ ∀ a ∈ s.trace, ∀ q task, a.act = .send q task → q < env.marshallers := by
  suffices hs : ∃ s, runSaver env bs = some s by
    obtain ⟨s, hs⟩ := hs
    exact ⟨s, hs, fun a ha q task hact => (C43_tasks env bs s hs hm hm' a ha q task hact).2⟩
  rw [runSaver_view env hv bs hI]
  obtain ⟨l, hl⟩ := blocks_total env.still (Nat.ne_of_gt hm) (still_view env) bs hn hI [] newLoop runInv_new
  obtain ⟨s, e1, -⟩ := close_effect env.still (Nat.ne_of_gt hm) l.svr (run_wf hl)
  exact ⟨s, by unfold runSaver; rw [show runBlocks env.still bs = some l from hl]; exact e1⟩

example : ∀ b ∈ exBlocks, ∀ m ∈ b.v4Messages ++ b.v6Messages, (m.all (fun m => makeArchivalRecord m none ≠ .panic)) = true := by decide +kernel

/-- C44 violated: without marshallers the saver survives while connections exist, but crashes when the first one disappears. -/
theorem C44_violated : runSaver (exEnvWith 1000000000 [] 0) [exBlock 1 [exMsg 1 0 1]] ≠ none
    ∧ runSaver (exEnvWith 1000000000 [] 0) [exBlock 1 [exMsg 1 0 1], exBlock 2 []] = none := by
  decide +kernel

/-- C44 violated: with marshallers, a shortened tcp_info at the end of the receive buffer crashes the comparison. -/
theorem C44_violated_short : runSaver exEnv [exBlock 1 [exMsgA 1 ([108, 0, 2, 0] ++ List.replicate 104 0)], exBlock 2 [exMsgA 1 ([108, 0, 2, 0] ++ List.replicate 104 0)]] = none := by
  decide +kernel

end TcpInfo
