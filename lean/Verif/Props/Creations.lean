import Verif.Lemmas.Creations
import Verif.Lemmas.Process
import Verif.Props.Novelty
import Verif.Props.Metrics
/-!
# C120: a file that cannot be created costs the records that were to go into it, and no others
-/

namespace TcpInfo
open Spec

theorem saved_append (a b : List (ArchivalRecord × Bool)) : saved (a ++ b) = saved a ++ saved b := by simp [saved]
theorem lost_append (a b : List (ArchivalRecord × Bool)) : lost (a ++ b) = lost a ++ lost b := by simp [lost]

theorem swap_failures (env : Env) (hm : 1 ≤ env.marshallers) (hv : ViewOK env) (h : List Call) (l : LoopState) (hi : RunInv h l) (hf : FInv env l.svr)
    (r : ArchivalRecord) (hr : complete r = true) (hq : InfoOK r) (s' : Saver) (hs : l.svr.swapAndQueue env r = some s') :
    (¬ Due h r → swapCreates env l.svr r = [] ∧ written s'.trace = written l.svr.trace)
    ∧ (Due h r → ∃ ok : Bool, written s'.trace = written l.svr.trace ++ saved [(r, ok)]
        ∧ failures (swapCreates env l.svr r) = (lost [(r, ok)]).map ck ∧ (ok = true → ck r ≠ 0)) := by
  obtain ⟨d1, d2⟩ := swap_creates env hv h l.svr hi.cache r hr hq (fun p hp => hi.info p (Or.inl hp)) s' hs
  refine ⟨fun hn => ⟨(d1 hn).1, by rw [(d1 hn).2]⟩, fun hd => ?_⟩
  obtain ⟨s0, e, t1, t2, t3, hqu, hcr⟩ := d2 hd
  obtain ⟨idm, hidm, hck⟩ := cookieOf_parse hr
  have hf0 : FInv env s0 := by
    refine ⟨t2 ▸ hf.wf, t2 ▸ hf.cookie, ?_, ?_, ?_⟩
    · rw [t2, t3]; exact hf.bound
    · rw [t3]; intro w hw
      exact fileState_frame (hf.files w hw) (by rw [t1]) (fun k => Or.inl (by rw [t2]))
    · rw [t3, t1]; exact hf.fresh
  obtain ⟨q1, q2, -⟩ := queue_creates env s0 r idm hidm s' e hqu hf0
  obtain ⟨s1, e1, w1, -, w3, -⟩ := queue_effect env s0 r idm hidm
  rw [hqu] at w1
  injection w1 with w1; injection w1 with w1 w2; subst w1 w2
  refine ⟨decide (e = none), ?_, ?_, ?_⟩
  · rw [w3, t1]
    by_cases he : e = none <;> simp [he, saved]
  · rw [hcr, q1 hm]
    have hck' : cookieOf idm = ck r := hck
    by_cases he : e = none
    · simp [he, lost]
    · by_cases hz : ck r = 0
      · simp [he, lost, hck', hz]
      · simp [he, lost, hck', hz]
  · intro he
    have := q2 (by simpa using he)
    rwa [show cookieOf idm = ck r from hck] at this

/-- What holds during a run. -/
theorem finv_swap {env : Env} {s s' : Saver} {r : ArchivalRecord} (hf : FInv env s) (h : s.swapAndQueue env r = some s') : FInv env s' :=
  (steps_swapAndQueue env s r s' h).inv (finv_step env) hf

theorem steps_finish (env : Env) (l l1 : LoopState) (h : l.finish env = some l1) : Steps env l.svr l1.svr := by
  unfold LoopState.finish at h
  refine Steps.trans ?_ (steps_expireAll env _ _ _ _ h)
  exact .single (.other rfl rfl rfl rfl (by simp))

theorem runInv_swap {env : Env} (hv : ViewOK env) {h : List Call} {l : LoopState} (hi : RunInv h l) {r : ArchivalRecord}
    (hr : complete r = true) (hq : InfoOK r) {s' : Saver} (hs : l.svr.swapAndQueue env r = some s') (hc : CacheOK l.svr) :
    RunInv (h ++ [.update r]) { l with svr := s' } := by
  rw [swapAndQueue_view env hv l.svr r hq hc] at hs
  exact runInv_update (still_view env) hi hr hq hs

theorem cacheOK_finish {env : Env} {l l1 : LoopState} (hc : CacheOK l.svr) (h : l.finish env = some l1) (t : Int) (s4 s6 r4 r6 : UInt64) :
    CacheOK (l1.report t s4 s6 r4 r6).svr := by
  unfold CacheOK
  rw [report_cache, finish_cache env l l1 h]
  exact ⟨fun k r hk => by simp [Cache.endCycle, GoMap.get] at hk, hc.1⟩

/-- The general form. -/
theorem phase (env : Env) (hm : 1 ≤ env.marshallers) (hv : ViewOK env) (bs : List MessageBlock) (hI : ∀ b ∈ bs, AllInfoOK env.exclude b)
    (h : List Call) (l0 l : LoopState) (L : List Creation) (hi : RunInv h l0) (hc : CacheOK l0.svr) (hf : FInv env l0.svr) (due : List ArchivalRecord)
    (hd : SavedFor h due) (hb : LoopState.blocks env bs l0 = some l) :
    RunInv (h ++ history env.exclude bs) l ∧ CacheOK l.svr ∧ FInv env l.svr ∧ ∃ ds, SavedFor (h ++ history env.exclude bs) (due ++ ds.map (·.1))
      ∧ written l.svr.trace = written l0.svr.trace ++ saved ds ∧ failures (L ++ blocksCreates env bs l0) = failures L ++ (lost ds).map ck
      ∧ ∀ d ∈ ds, d.2 = true → ck d.1 ≠ 0 := by
  refine blocks_creates env (fun h l L' => RunInv h l ∧ CacheOK l.svr ∧ FInv env l.svr ∧ ∃ ds, SavedFor h (due ++ ds.map (·.1))
      ∧ written l.svr.trace = written l0.svr.trace ++ saved ds ∧ failures L' = failures L ++ (lost ds).map ck ∧ ∀ d ∈ ds, d.2 = true → ck d.1 ≠ 0)
    InfoOK ?_ ?_ bs hI h l0 l L ⟨hi, hc, hf, [], by simpa using hd, by simp [saved], by simp [lost], by simp⟩ hb
  · rintro h l L' r s' hr hq ⟨hi, hc, hf, ds, e1, e2, e3, e4⟩ hs
    refine ⟨runInv_swap hv hi hr hq hs hc, cacheOK_swap env l.svr r hq hc s' hs, finv_swap hf hs, ?_⟩
    obtain ⟨d1, d2⟩ := swap_failures env hm hv h l hi hf r hr hq s' hs
    by_cases hdue : Due h r
    · obtain ⟨ok, w1, w2, w3⟩ := d2 hdue
      refine ⟨ds ++ [(r, ok)], ?_, ?_, ?_, ?_⟩
      · rw [List.map_append, ← List.append_assoc]; exact .due e1 hdue
      · show written s'.trace = _
        rw [w1, e2, saved_append, List.append_assoc]
      · rw [failures_append, e3, w2, lost_append, List.map_append, List.append_assoc]
      · intro d hd
        rcases List.mem_append.1 hd with h' | h'
        · exact e4 d h'
        · rw [List.mem_singleton.1 h']; exact w3
    · refine ⟨ds, .same e1 hdue, ?_, ?_, e4⟩
      · show written s'.trace = _
        rw [(d1 hdue).2, e2]
      · rw [(d1 hdue).1, List.append_nil, e3]
  · rintro h l L' l1 t s4 s6 r4 r6 ⟨hi, hc, hf, ds, e1, e2, e3, e4⟩ hfin
    refine ⟨runInv_endCycle hi hfin t s4 s6 r4 r6, cacheOK_finish hc hfin t s4 s6 r4 r6,
      ((steps_finish env l l1 hfin).trans (steps_report env l1 t s4 s6 r4 r6)).inv (finv_step env) hf, ds, .endCycle e1, ?_, e3, e4⟩
    rw [(report_effect l1 t s4 s6 r4 r6).2.2.2.2.2.1, expireAll_written env _ _ _ _ hfin, ← e2]

theorem blocks_split (env : Env) (a b : List MessageBlock) (l : LoopState) :
    LoopState.blocks env (a ++ b) l = (LoopState.blocks env a l).bind (LoopState.blocks env b) := by
  induction a generalizing l with
  | nil => rfl
  | cons x a ih =>
    simp only [List.cons_append, LoopState.blocks]
    cases l.block env x with
    | none => rfl
    | some l1 => exact ih l1

/-- C120 (partial: the claim fails for idle connections, see `C120_idle` and `C120_violated`). At whichever moments files cannot be created: of the due
reports (new or significantly changed ones, see C32) of the polls `bs'` that follow `bs`, exactly those marked as saved get into the files, in their order.
The others are as many as attempts to create a file failed meanwhile, and of the same connections in the same order (leaving aside cookie 0, which is never
recorded). -/
theorem C120_exact_partial (env : Env) (hm : 1 ≤ env.marshallers) (hv : ViewOK env) (bs bs' : List MessageBlock) (hI : ∀ b ∈ bs ++ bs', AllInfoOK env.exclude b)
    (s s' : Saver) (h : runSaver env bs = some s) (h' : runSaver env (bs ++ bs') = some s') :
    ∃ due ds, SavedFor (history env.exclude bs) due ∧ SavedFor (history env.exclude (bs ++ bs')) (due ++ ds.map (·.1))
      ∧ written s'.trace = written s.trace ++ saved ds
      ∧ failures (creations env (bs ++ bs')) = failures (creations env bs) ++ (lost ds).map ck
      ∧ ∀ d ∈ ds, d.2 = true → ck d.1 ≠ 0 := by
  obtain ⟨l, a1, a2⟩ := runSaver_split h
  obtain ⟨l', b1, b2⟩ := runSaver_split h'
  have hm' : env.marshallers ≠ 0 := Nat.ne_of_gt hm
  rw [(runSaver_written hm' a1 a2).1, (runSaver_written hm' b1 b2).1]
  unfold runBlocks at a1 b1
  obtain ⟨i1, i2, i3, ds0, j1, -⟩ := phase env hm hv bs (fun b hb => hI b (List.mem_append_left _ hb)) [] newLoop l [] runInv_new
    ⟨fun k r h => by simp [newLoop, newSaver, newCache, GoMap.get] at h, fun k r h => by simp [newLoop, newSaver, newCache, GoMap.get] at h⟩ (finv_new env) [] .nil a1
  rw [blocks_split, a1] at b1
  obtain ⟨-, -, -, ds, k1, k2, k3, k4⟩ := phase env hm hv bs' (fun b hb => hI b (List.mem_append_right _ hb)) _ l l' (creations env bs) i1 i2 i3 _ j1 b1
  refine ⟨_, ds, by simpa using j1, ?_, k2, ?_, k4⟩
  · have : history env.exclude (bs ++ bs') = [] ++ history env.exclude bs ++ history env.exclude bs' := by simp [history]
    rw [this]; exact k1
  · rw [← k3, creations, blocksCreates_append env bs bs' newLoop l a1]; rfl


-- the hypotheses, where the first creation fails (`2` is the moment of it): of the due reports of connections 1, 2 and 2 the first is lost
example : ViewOK (exEnvWith 1000000000 [2] 3) ∧ (∀ b ∈ exBlocks, AllInfoOK none b)
    ∧ (runSaver (exEnvWith 1000000000 [2] 3) exBlocks).map (fun s => (written s.trace).map ck) = some [2, 2]
    ∧ (runSaver exEnv exBlocks).map (fun s => (written s.trace).map ck) = some [1, 2, 2]
    ∧ creations (exEnvWith 1000000000 [2] 3) exBlocks = [⟨1, 1, false⟩, ⟨2, 2, true⟩] := by
  refine ⟨fun _ _ => ⟨rfl, rfl, ⟨rfl, rfl, rfl⟩, rfl⟩, ?_, ?_⟩
  · show ∀ b ∈ exBlocks, ∀ r ∈ reports none b, InfoOK r
    decide +kernel
  · decide +kernel

theorem saved_all (ds : List (ArchivalRecord × Bool)) (hz : ∀ d ∈ ds, ck d.1 ≠ 0) (hl : lost ds = []) : saved ds = ds.map (·.1) := by
  have : ∀ d ∈ ds, d.2 = true := by
    intro d hd
    unfold lost at hl
    rw [List.map_eq_nil_iff, List.filter_eq_nil_iff] at hl
    have := hl d hd
    simpa [hz d hd] using this
  unfold saved
  rw [List.filter_eq_self.2 this]

theorem savedFor_mem {h : List Call} {out : List ArchivalRecord} (hs : SavedFor h out) : ∀ r ∈ out, .update r ∈ h := by
  induction hs with
  | nil => simp
  | due _ _ ih =>
    intro r hr
    rcases List.mem_append.1 hr with h' | h'
    · exact List.mem_append_left _ (ih r h')
    · rw [List.mem_singleton.1 h']; simp
  | same _ _ ih => intro r hr; exact List.mem_append_left _ (ih r hr)
  | endCycle _ ih => intro r hr; exact List.mem_append_left _ (ih r hr)

theorem runSaver_nil (env : Env) : ∃ s, runSaver env [] = some s := by
  have : env.order newLoop.svr.tick newLoop.svr.conns.keys = [] := by
    have := env.order_perm newLoop.svr.tick newLoop.svr.conns.keys
    exact List.perm_nil.1 this
  unfold runSaver runBlocks
  simp only [LoopState.blocks, Option.bind_some, Saver.close, this, Saver.endAll, Option.map_some]
  exact ⟨_, rfl⟩

/-- C120 (partial, as above). A disk that works again: if after `bs` no attempt to create a file fails (whatever failed before), then all due reports of the
polls after `bs` are saved. -/
theorem C120_resumes_partial (env : Env) (hm : 1 ≤ env.marshallers) (hv : ViewOK env) (bs bs' : List MessageBlock)
    (hI : ∀ b ∈ bs ++ bs', AllInfoOK env.exclude b) (hz : ∀ b ∈ bs ++ bs', ∀ r ∈ reports env.exclude b, ck r ≠ 0)
    (s s' : Saver) (h : runSaver env bs = some s) (h' : runSaver env (bs ++ bs') = some s')
    (works : failures (creations env (bs ++ bs')) = failures (creations env bs)) :
    ∃ due more, SavedFor (history env.exclude bs) due ∧ SavedFor (history env.exclude (bs ++ bs')) (due ++ more)
      ∧ written s'.trace = written s.trace ++ more := by
  obtain ⟨due, ds, e1, e2, e3, e4, -⟩ := C120_exact_partial env hm hv bs bs' hI s s' h h'
  refine ⟨due, ds.map (·.1), e1, e2, ?_⟩
  rw [e3, saved_all ds]
  · intro d hd
    obtain ⟨b, hb, hr⟩ := List.mem_flatMap.1 (mem_history (savedFor_mem e2 d.1 (List.mem_append_right _ (List.mem_map_of_mem hd))))
    exact hz b hb _ hr
  · rw [works] at e4
    have : (lost ds).map ck = [] := List.append_cancel_left (e4.symm.trans (List.append_nil _).symm)
    simpa using this

-- the hypotheses, where the first creation fails and no other
example : failures (creations (exEnvWith 1000000000 [2] 3) (exBlocks.take 1 ++ exBlocks.drop 1)) = failures (creations (exEnvWith 1000000000 [2] 3) (exBlocks.take 1))
    ∧ failures (creations (exEnvWith 1000000000 [2] 3) (exBlocks.take 1)) = [1]
    ∧ ((runSaver (exEnvWith 1000000000 [2] 3) (exBlocks.take 1)).map (fun s => (written s.trace).map ck)) = some [2] := by decide +kernel

/-- C120 (partial, as above). The number of records lost is the number of failed attempts. -/
theorem C120_number_partial (env : Env) (hm : 1 ≤ env.marshallers) (hv : ViewOK env) (bs : List MessageBlock) (hI : ∀ b ∈ bs, AllInfoOK env.exclude b)
    (hz : ∀ b ∈ bs, ∀ r ∈ reports env.exclude b, ck r ≠ 0) (s : Saver) (h : runSaver env bs = some s) :
    ∃ due, SavedFor (history env.exclude bs) due ∧ (written s.trace).length + (failures (creations env bs)).length = due.length := by
  obtain ⟨s0, h0⟩ := runSaver_nil env
  obtain ⟨due, ds, e1, e2, e3, e4, -⟩ := C120_exact_partial env hm hv [] bs (by simpa using hI) s0 s h0 (by simpa using h)
  have hd : due = [] := savedFor_unique e1 .nil
  have hw : written s0.trace = [] := by
    obtain ⟨l, a1, a2⟩ := runSaver_split h0
    rw [(runSaver_written (Nat.ne_of_gt hm) a1 a2).1]
    have : l = newLoop := by injection a1 with a1; exact a1.symm
    rw [this]; rfl
  subst hd
  rw [List.nil_append] at e2 e4
  rw [hw, List.nil_append] at e3
  have hf0 : failures (creations env []) = [] := rfl
  rw [hf0, List.nil_append] at e4
  refine ⟨_, e2, ?_⟩
  rw [e3, e4]
  have hzd : ∀ d ∈ ds, ck d.1 ≠ 0 := by
    intro d hd
    obtain ⟨b, hb, hr⟩ := List.mem_flatMap.1 (mem_history (savedFor_mem e2 d.1 (List.mem_map_of_mem hd)))
    exact hz b hb _ hr
  clear e1 e2 e3 e4
  induction ds with
  | nil => rfl
  | cons d ds ih =>
    have := ih (fun x hx => hzd x (List.mem_cons_of_mem _ hx))
    have hd := hzd d (by simp)
    obtain ⟨r, ok⟩ := d
    simp only [List.length_map, saved, lost] at this ⊢
    cases ok
    · simp [hd] at this ⊢; omega
    · simp [hd] at this ⊢; omega

/-- The attempts of one report, without assumptions about the records. -/
theorem swap_creates_any (env : Env) (s : Saver) (r : ArchivalRecord) (s' : Saver) (hs : s.swapAndQueue env r = some s') :
    swapCreates env s r = [] ∨ ∃ s0 e idm, parseIDM r.raw = .ok idm ∧ s0.trace = s.trace ∧ s0.conns = s.conns ∧ s0.nextWriter = s.nextWriter
      ∧ s0.queue env r = some (s', e) ∧ swapCreates env s r = queueCreates env s0 r := by
  have hcl : ∀ (s0 : Saver) k old, (s0.recordClosing k r old).trace = s0.trace ∧ (s0.recordClosing k r old).conns = s0.conns
      ∧ (s0.recordClosing k r old).nextWriter = s0.nextWriter := by
    intro s0 k old; unfold Saver.recordClosing; split <;> exact ⟨rfl, rfl, rfl⟩
  have hq : ∀ s0 : Saver, s0.trace = s.trace → s0.conns = s.conns → s0.nextWriter = s.nextWriter → (s0.queue env r).map (·.1) = some s' →
      swapCreates env s r = queueCreates env s0 r → swapCreates env s r = [] ∨ ∃ s0 e idm, parseIDM r.raw = .ok idm ∧ s0.trace = s.trace ∧ s0.conns = s.conns
        ∧ s0.nextWriter = s.nextWriter ∧ s0.queue env r = some (s', e) ∧ swapCreates env s r = queueCreates env s0 r := by
    intro s0 t1 t2 t3 h1 h2
    obtain ⟨⟨s1, e⟩, h3, h4⟩ := Option.map_eq_some_iff.1 h1
    simp only at h4; subst h4
    cases hp : parseIDM r.raw with
    | ok idm => exact Or.inr ⟨s0, e, idm, rfl, t1, t2, t3, h3, h2⟩
    | err x => unfold Saver.queue at h3; rw [hp] at h3; simp at h3
    | panic => unfold Saver.queue at h3; rw [hp] at h3; simp at h3
  unfold Saver.swapAndQueue at hs
  simp only at hs
  cases hu : s.cache.update r with
  | mk c res =>
    rw [hu] at hs
    cases res with
    | panic => simp at hs
    | err x => left; unfold swapCreates; simp only [hu]
    | ok o =>
      cases o with
      | none =>
        simp only at hs
        exact hq _ (by rfl) (by rfl) (by rfl) hs (by unfold swapCreates; simp only [hu])
      | some old =>
        simp only at hs
        cases hp : parseIDM r.raw with
        | err x => left; unfold swapCreates; simp only [hu, hp]
        | panic => left; unfold swapCreates; simp only [hu, hp]
        | ok idm =>
          rw [hp] at hs
          simp only at hs
          cases hcm : compareRecords r (some (env.view s.tick old)) with
          | err x => left; unfold swapCreates; simp only [hu, hp, hcm]
          | panic => left; unfold swapCreates; simp only [hu, hp, hcm]
          | ok ch =>
            rw [hcm] at hs
            simp only at hs
            by_cases hcc : ch ≠ .noMajorChange
            · rw [if_pos hcc] at hs
              rw [← hp]
              refine hq _ ?_ ?_ ?_ hs (by unfold swapCreates; simp only [hu, hp, hcm]; rw [if_pos hcc])
              · simp only [(hcl _ _ _).1]
              · simp only [(hcl _ _ _).2.1]
              · simp only [(hcl _ _ _).2.2]
            · left; unfold swapCreates; simp only [hu, hp, hcm]; rw [if_neg hcc]

/-- C120. A connection that has an open file is not affected: an attempt to create a file, whatever its outcome, is made only when all files of the connection
are closed. If it succeeds, the file is opened at once. -/
theorem C120_closed (env : Env) (bs : List MessageBlock) (s : Saver) (h : runSaver env bs = some s) (c : Creation) (hc : c ∈ creations env bs) :
    c.position ≤ s.trace.length ∧ AllClosed (env.uuid c.cookie) (s.trace.take c.position)
    ∧ (c.ok = true → ∃ a, s.trace[c.position]? = some a ∧ OpensFile (env.uuid c.cookie) a) := by
  have grow : ∀ {tr tr' : List Stamped}, tr <+: tr' → ∀ c : Creation,
      (c.position ≤ tr.length ∧ AllClosed (env.uuid c.cookie) (tr.take c.position)
        ∧ (c.ok = true → ∃ a, tr[c.position]? = some a ∧ OpensFile (env.uuid c.cookie) a)) →
      (c.position ≤ tr'.length ∧ AllClosed (env.uuid c.cookie) (tr'.take c.position)
        ∧ (c.ok = true → ∃ a, tr'[c.position]? = some a ∧ OpensFile (env.uuid c.cookie) a)) := by
    rintro tr tr' ⟨x, rfl⟩ c ⟨h1, h2, h3⟩
    refine ⟨by simp; omega, by rw [List.take_append_of_le_length h1]; exact h2, fun ho => ?_⟩
    obtain ⟨a, h4, h5⟩ := h3 ho
    refine ⟨a, ?_, h5⟩
    have hlt : c.position < tr.length := (List.getElem?_eq_some_iff.1 h4).1
    rw [List.getElem?_append_left hlt]; exact h4
  obtain ⟨l, a1, a2⟩ := runSaver_split h
  refine grow (close_prefix a2).1 c ?_
  refine (blocks_creates env (fun _ l L => FInv env l.svr ∧ ∀ c ∈ L, c.position ≤ l.svr.trace.length ∧ AllClosed (env.uuid c.cookie) (l.svr.trace.take c.position)
    ∧ (c.ok = true → ∃ a, l.svr.trace[c.position]? = some a ∧ OpensFile (env.uuid c.cookie) a)) (fun _ => True) ?_ ?_ bs (fun _ _ _ _ => trivial) [] newLoop l []
    ⟨finv_new env, by simp⟩ a1).2 c (by simpa [creations] using hc)
  · rintro h l L r s' hr - ⟨hf, hl⟩ hs
    refine ⟨finv_swap hf hs, fun c hc => ?_⟩
    rcases List.mem_append.1 hc with hc | hc
    · exact grow (steps_prefix (steps_swapAndQueue env _ _ _ hs)) c (hl c hc)
    · rcases swap_creates_any env l.svr r s' hs with e | ⟨s0, e, idm, hidm, t1, t2, t3, hqu, hcr⟩
      · rw [e] at hc; simp at hc
      · have hf0 : FInv env s0 := by
          refine ⟨t2 ▸ hf.wf, t2 ▸ hf.cookie, ?_, ?_, ?_⟩
          · rw [t2, t3]; exact hf.bound
          · rw [t3]; intro w hw
            exact fileState_frame (hf.files w hw) (by rw [t1]) (fun k => Or.inl (by rw [t2]))
          · rw [t3, t1]; exact hf.fresh
        rw [hcr] at hc
        exact (queue_creates env s0 r idm hidm s' e hqu hf0).2.2 c hc
  · rintro h l L l1 t s4 s6 r4 r6 ⟨hf, hl⟩ hfin
    have st := (steps_finish env l l1 hfin).trans (steps_report env l1 t s4 s6 r4 r6)
    exact ⟨st.inv (finv_step env) hf, fun c hc => grow (steps_prefix st) c (hl c hc)⟩

/-- C120, what the claim fails for. A connection that does nothing (every poll from its first one on reports it once, with tcp_info and without significant
change) is never recorded if the one attempt to create a file for it fails, however long it lives and however well the disk works afterwards. -/
theorem C120_idle (env : Env) (hm : 1 ≤ env.marshallers) (hv : ViewOK env) (bs : List MessageBlock) (hI : ∀ b ∈ bs, AllInfoOK env.exclude b)
    (s : Saver) (h : runSaver env bs = some s) (k : UInt64) (r0 : ArchivalRecord) (rs : List ArchivalRecord)
    (once : bs.map (reportsOf env.exclude k) = (r0 :: rs).map (fun r => [r])) (hi : attrVal r0 2 ≠ none) (idle : ∀ r ∈ rs, SaysSame r r0)
    (failed : k ∈ failures (creations env bs)) :
    ∀ r ∈ written s.trace, ck r ≠ k := by
  obtain ⟨s0, h0⟩ := runSaver_nil env
  obtain ⟨due, ds, e1, e2, e3, e4, -⟩ := C120_exact_partial env hm hv [] bs (by simpa using hI) s0 s h0 (by simpa using h)
  have hd : due = [] := savedFor_unique e1 .nil
  have hw : written s0.trace = [] := by
    obtain ⟨l, a1, a2⟩ := runSaver_split h0
    rw [(runSaver_written (Nat.ne_of_gt hm) a1 a2).1]
    have : l = newLoop := by injection a1 with a1; exact a1.symm
    rw [this]; rfl
  subst hd
  rw [List.nil_append] at e2 e4
  rw [hw, List.nil_append] at e3
  have hf0 : failures (creations env []) = [] := rfl
  rw [hf0, List.nil_append] at e4
  rw [e4] at failed
  have p1 := proj_saved k e2
  rw [List.nil_append, proj_history, once] at p1
  have e : ((r0 :: rs).map (fun r => [r])).flatMap (fun rs => rs.map Call.update ++ [.endCycle]) = (r0 :: rs).flatMap (fun r => [Call.update r, .endCycle]) := by
    rw [List.flatMap_map]; rfl
  rw [e] at p1
  have own : ∀ r ∈ r0 :: rs, ck r = k ∧ complete r = true := by
    intro r hr
    have : [r] ∈ bs.map (reportsOf env.exclude k) := by rw [once]; exact List.mem_map_of_mem hr
    obtain ⟨b, -, hb⟩ := List.mem_map.1 this
    have hm : r ∈ reportsOf env.exclude k b := by rw [hb]; exact List.mem_singleton.2 rfl
    obtain ⟨m1, m2⟩ := List.mem_filter.1 hm
    exact ⟨by simpa using m2, reports_complete m1⟩
  have hr0 := own r0 (by simp)
  have one := savedFor_unique p1 (idle_saved k r0 hr0.1 hr0.2 rs (fun r hr => ⟨(own r (by simp [hr])).1, (own r (by simp [hr])).2, idle r hr⟩) hi).2
  rw [List.filter_map] at one
  obtain ⟨d, hd1, -⟩ := List.map_eq_singleton_iff.1 one
  have only : ∀ x ∈ ds, ck x.1 = k → x = d := by
    intro x hx hk
    have : x ∈ ds.filter ((fun r => decide (ck r = k)) ∘ (·.1)) := List.mem_filter.2 ⟨hx, by simpa using hk⟩
    rw [hd1] at this
    exact List.mem_singleton.1 this
  obtain ⟨r1, hr1, hk1⟩ := List.mem_map.1 failed
  obtain ⟨d1, hd2, rfl⟩ := List.mem_map.1 hr1
  obtain ⟨hd3, hd4⟩ := List.mem_filter.1 hd2
  have x1 := only d1 hd3 hk1
  subst x1
  intro r hr hk
  rw [e3] at hr
  obtain ⟨d2, hd5, rfl⟩ := List.mem_map.1 hr
  obtain ⟨hd6, hd7⟩ := List.mem_filter.1 hd5
  have x2 := only d2 hd6 hk
  subst x2
  simp [hd7] at hd4

/-- C120 violated: connection 1 is reported by four polls, without change. The first attempt to create its file fails; all files of the later polls can be
created (and are, for connection 2), but connection 1 is not recorded. -/
theorem C120_violated :
    (runSaver (exEnvWith 1000000000 [2] 3) [exBlock 1 [exMsg 1 0 1], exBlock 2 [exMsg 1 0 1, exMsg 2 0 1], exBlock 3 [exMsg 1 0 1], exBlock 4 [exMsg 1 0 1]]).map
      (fun s => (written s.trace).map ck) = some [2]
    ∧ creations (exEnvWith 1000000000 [2] 3) [exBlock 1 [exMsg 1 0 1], exBlock 2 [exMsg 1 0 1, exMsg 2 0 1], exBlock 3 [exMsg 1 0 1], exBlock 4 [exMsg 1 0 1]]
      = [⟨1, 1, false⟩, ⟨4, 2, true⟩] := by decide +kernel

-- the hypotheses of `C120_idle` in this run
example : (([exBlock 1 [exMsg 1 0 1], exBlock 2 [exMsg 1 0 1, exMsg 2 0 1], exBlock 3 [exMsg 1 0 1], exBlock 4 [exMsg 1 0 1]]).map
      (fun b => (reportsOf none 1 b).map (fun r => (attrVal r 2).isSome))) = [[true], [true], [true], [true]]
    ∧ (1 : UInt64) ∈ failures (creations (exEnvWith 1000000000 [2] 3)
        [exBlock 1 [exMsg 1 0 1], exBlock 2 [exMsg 1 0 1, exMsg 2 0 1], exBlock 3 [exMsg 1 0 1], exBlock 4 [exMsg 1 0 1]]) := by decide +kernel

-- `C120_closed` with rotations (400 s per reading of the clock): later files of the connection are created after the one before is closed
example : creations (exEnvWith 400000000000 [] 3) [exBlock 1 [exMsg 1 0 1], exBlock 2 [exMsg 1 5 1], exBlock 3 [exMsg 1 9 1]]
    = [⟨1, 1, true⟩, ⟨6, 1, true⟩, ⟨9, 1, true⟩] := by decide +kernel

/-! ## No other files -/

theorem queue_newFile (ev : Bool) (env : Env) (s : Saver) (r : ArchivalRecord) :
    (queueMetrics ev env s r).count .newFile = (queueCreates env s r).countP (·.ok) := by
  unfold queueMetrics queueCreates
  cases parseIDM r.raw with
  | panic => rfl
  | err x => rfl
  | ok idm =>
    simp only
    by_cases hk : cookieOf idm = 0
    · simp only [if_pos hk]; rfl
    · by_cases hm : env.marshallers < 1
      · simp only [if_neg hk, if_pos hm]; rfl
      · simp only [if_neg hk, if_neg hm]
        have hg : ∀ o, (getConnMetrics ev o).count .newFile = 0 := by
          intro o; cases o <;> cases ev <;> rfl
        rw [List.count_append, hg, Nat.zero_add]
        generalize (s.getConn env (cookieOf idm) idm r.timestamp).1.closeExpired env (cookieOf idm) (s.getConn env (cookieOf idm) idm r.timestamp).2 = sc
        by_cases hw : sc.2.writer = none
        · simp only [if_pos hw]
          unfold rotateMetrics rotateCreates
          cases env.createOK (sc.1.rotateDir env sc.2).1.tick <;> rfl
        · simp only [if_neg hw]; rfl

theorem swap_newFile (ev : Bool) (env : Env) (s : Saver) (r : ArchivalRecord) :
    (swapMetrics ev env s r).count .newFile = (swapCreates env s r).countP (·.ok) := by
  have hq : ∀ s, (Metric.snapshot :: queueMetrics ev env s r).count .newFile = (queueCreates env s r).countP (·.ok) := by
    intro s; rw [List.count_cons, queue_newFile]; rfl
  unfold swapMetrics swapCreates
  simp only
  generalize s.cache.update r = u
  obtain ⟨c, res⟩ := u
  cases res with
  | panic => rfl
  | err x => rfl
  | ok o =>
    cases o with
    | none => exact hq _
    | some old =>
      simp only
      cases parseIDM r.raw with
      | panic => rfl
      | err x => rfl
      | ok idm =>
        simp only
        cases compareRecords r (some (env.view s.tick old)) with
        | panic => rfl
        | err x => rfl
        | ok ch =>
          simp only
          split
          · exact hq _
          · rfl

theorem handle_newFile (ev : Bool) (env : Env) (t : Int) (msgs : List (Option NetlinkMessage)) (s : Saver) :
    (handleMetrics ev env t msgs s).count .newFile = (handleCreates env t msgs s).countP (·.ok) := by
  induction msgs generalizing s with
  | nil => rfl
  | cons m msgs ih =>
    cases m with
    | none => exact ih s
    | some msg =>
      unfold handleMetrics handleCreates
      cases makeArchivalRecord msg env.exclude with
      | panic => rfl
      | err x => exact ih s
      | ok o =>
        cases o with
        | none => exact ih s
        | some ar =>
          simp only
          cases s.swapAndQueue env { ar with timestamp := t } with
          | none => exact swap_newFile ev env s _
          | some s1 => simp only [List.count_append, List.countP_append, swap_newFile, ih]

theorem block_newFile (ev : Bool) (env : Env) (l : LoopState) (b : MessageBlock) :
    (blockMetrics ev env l b).count .newFile = (blockCreates env l b).countP (·.ok) := by
  unfold blockMetrics blockCreates
  rw [List.count_append, List.countP_append, handle_newFile]
  congr 1
  cases l.svr.handleType env b.v4Time b.v4Messages 0 0 with
  | none => rfl
  | some p =>
    obtain ⟨s, s4, r4⟩ := p
    simp only
    rw [List.count_append, handle_newFile]
    have hd : ∀ (x y : UInt64) (p q : String) (f : UInt64 → Metric), (∀ n, f n ≠ .newFile) → (directionMetrics x y p q f).count .newFile = 0 := by
      intro x y p q f hf
      rw [List.count_eq_zero]
      unfold directionMetrics
      split
      · split <;> simp
      · simp [Ne.symm (hf _)]
    cases s.handleType env b.v6Time b.v6Messages 0 0 with
    | none => rfl
    | some p =>
      obtain ⟨s6', s6, r6⟩ := p
      simp only
      rw [endConns_metrics]
      generalize LoopState.expireAll env _ _ _ = o
      rw [List.append_nil, List.count_append]
      have hc : (endCycleMetrics s6'.cache).count .newFile = 0 := by simp [endCycleMetrics]
      rw [hc]
      cases o with
      | none => rfl
      | some l =>
        simp only [reportMetrics]
        split
        · rw [List.count_append, hd _ _ _ _ _ (by simp), hd _ _ _ _ _ (by simp)]; simp
        · rfl

/-- C120. These are all attempts: every file created is the outcome of one of them, and they are counted by tcpinfo_new_file_total (see C82). -/
theorem C120_files (ev : Bool) (env : Env) (bs : List MessageBlock) (s : Saver) (h : runSaver env bs = some s) :
    (creations env bs).countP (·.ok) = filesCreated s.trace ∧ (creations env bs).countP (·.ok) = (saverMetrics ev env bs).count .newFile := by
  have key : ∀ (bs : List MessageBlock) (l : LoopState), (blocksMetrics ev env bs l).count .newFile = (blocksCreates env bs l).countP (·.ok) := by
    intro bs
    induction bs with
    | nil => intro l; rfl
    | cons b bs ih =>
      intro l
      unfold blocksMetrics blocksCreates
      rw [List.count_append, List.countP_append, block_newFile]
      congr 1
      cases l.block env b with
      | none => rfl
      | some l' => exact ih l'
  obtain ⟨l, -, h2, -⟩ := saver_metrics ev env bs s h
  have e : (creations env bs).countP (·.ok) = (saverMetrics ev env bs).count .newFile := by rw [h2, key]; rfl
  exact ⟨e.trans (C82_files ev env bs s h), e⟩

end TcpInfo
