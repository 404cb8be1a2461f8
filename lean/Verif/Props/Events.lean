import Verif.Props.Subscriber
import Verif.Lemmas.SaverExact
import Verif.Lemmas.SaverCrash
import Verif.Props.SaverInput
import Verif.Props.SaverState
import Verif.Spec.Events
/-!
# C33, C66: the events, also when files cannot be created
-/

namespace TcpInfo
open Spec
open EventSocket (expected mustRun marshalEvent)

/-- The records of connection `k` that were handed to a file. -/
def savedOf (k : UInt64) (tr : List Stamped) : List ArchivalRecord := (written tr).filter (fun r => decide (ck r = k))

theorem eventsInv_run (env : Env) (hm : 1 ≤ env.marshallers) (hview : ∀ n r, env.view n r = r) (bs : List MessageBlock)
    (hI : ∀ b ∈ bs, AllInfoOK env.exclude b) (l : LoopState) (h : runBlocks env bs = some l) (k : UInt64) :
    EventsFor k (history env.exclude bs) (savedOf k l.svr.trace) (notes (env.uuid k) l.svr.trace) (l.svr.knows k) (l.svr.filed k) := by
  refine (run_induct' env hview (fun h l => EventsFor k h (savedOf k l.svr.trace) (notes (env.uuid k) l.svr.trace) (l.svr.knows k) (l.svr.filed k))
    (fun _ => True) ?_ ?_ ?_ bs hI (fun _ _ _ _ => trivial) l h).2
  · exact .nil
  · rintro h l r s' hr hq - hi hn hs
    show EventsFor k _ (savedOf k s'.trace) (notes (env.uuid k) s'.trace) (s'.knows k) (s'.filed k)
    obtain ⟨idm, hidm, hck⟩ := cookieOf_parse hr
    have hext := swap_ext env l.svr s' r idm hidm hs
    have hinfo := fun p hp => hi.info p (Or.inl hp)
    obtain ⟨s1, e1, -, -, -, -, -, -, -, e8, -, e10⟩ := swap_effect env hview h l.svr hi.cache r hr hq hinfo
    have : s1 = s' := Option.some.inj (e1.symm.trans hs)
    subst this
    obtain ⟨c1, c2⟩ := swap_conn env hview h l.svr s1 hi.cache r hr hq hinfo hs hm
    have hsame : s1.conns = l.svr.conns → s1.trace = l.svr.trace → (ck r ≠ k ∨ k = 0 ∨ ¬ Due h r) →
        EventsFor k (h ++ [.update r]) (savedOf k s1.trace) (notes (env.uuid k) s1.trace) (s1.knows k) (s1.filed k) := by
      intro a b c
      simp only [Saver.knows, Saver.filed] at hn ⊢
      rw [a, b]
      exact .other hn c
    by_cases hd : Due h r
    · by_cases h0 : ck r = 0
      · obtain ⟨a, b⟩ := c1 (Or.inr h0)
        refine hsame a b ?_
        by_cases hkk : ck r = k
        · exact Or.inr (Or.inl (hkk ▸ h0))
        · exact Or.inl hkk
      · obtain ⟨k1, k2⟩ := c2 hd h0
        by_cases hkk : ck r = k
        · subst hkk
          have hfl := (e10 hd).2.1 (env.uuid (ck r))
          have hsaid : ∃ said, notes (env.uuid (ck r)) s1.trace = notes (env.uuid (ck r)) l.svr.trace ++ said ∧ Said r (l.svr.knows (ck r)) said := by
            refine ⟨_, ext_notes hext _ _ hfl, ?_⟩
            unfold Saver.knows
            cases hc : l.svr.conns.get (ck r) with
            | none =>
              rw [if_pos ⟨rfl, rfl, h0, hm⟩]
              exact .opened _ (names_of hr hidm)
            | some c =>
              rw [if_neg (by simp)]
              exact .nothing
          obtain ⟨said, hs1, hs2⟩ := hsaid
          rw [hs1, k1]
          unfold savedOf at hn ⊢
          rw [k2]
          cases hfd : s1.filed (ck r) with
          | true =>
            rw [if_pos rfl, List.filter_append, show List.filter (fun r' => decide (ck r' = ck r)) [r] = [r] by simp]
            exact .saved hn rfl h0 hd hs2
          | false =>
            rw [if_neg (by simp), List.append_nil]
            exact .lost hn rfl h0 hd hs2
        · have hne : env.uuid k ≠ env.uuid (ck r) := fun e => hkk (env.uuid_inj _ _ e).symm
          have hfl := (e10 hd).2.1 (env.uuid k)
          rw [if_neg (fun x => hne x.1)] at hfl
          rw [ext_notes hext _ _ hfl, List.map_nil, List.append_nil]
          have e8' := e8 k (Ne.symm hkk)
          have hsv : savedOf k s1.trace = savedOf k l.svr.trace := by
            unfold savedOf
            rw [k2, List.filter_append]
            split <;> simp [hkk]
          simp only [Saver.knows, Saver.filed] at hn ⊢
          rw [e8', hsv]
          exact .other hn (Or.inl hkk)
    · obtain ⟨a, b⟩ := c1 (Or.inl hd)
      exact hsame a b (Or.inr (Or.inr hd))
  · rintro h l l1 t s4 s6 r4 r6 hi hn hfin _ _
    obtain ⟨l', e1, -, e3, e4, -⟩ := finish_effect env (Nat.ne_of_gt hm) hview h l hi.cache
    have : l' = l1 := Option.some.inj (e1.symm.trans hfin)
    subst this
    obtain ⟨r1, -, -, -, -, r6', r7⟩ := report_effect l' t s4 s6 r4 r6
    have hext : Ext NoOpen l.svr (l'.report t s4 s6 r4 r6).svr := by
      refine Ext.trans ?_ (report_ext l' t s4 s6 r4 r6)
      unfold LoopState.finish at hfin
      exact expireAll_ext env _ _ { l with svr := { l.svr with cache := l.svr.cache.endCycle.1, tick := l.svr.tick + 1 } } _ hfin
    have hfl := e4 k
    rw [← r7] at hfl
    rw [noOpen_notes hext _ _ hfl (by split <;> simp)]
    have hsv : savedOf k (l'.report t s4 s6 r4 r6).svr.trace = savedOf k l.svr.trace := by
      unfold savedOf; rw [← e3, r6']
    obtain ⟨f1, f2⟩ := finish_conn env h l l' hi.cache hfin k
    rw [hsv]
    by_cases hk : lastFor k (cycles h).1 ≠ none ∧ lastFor k (cycles h).2 = none
    · rw [if_pos hk]
      have hkn : (l'.report t s4 s6 r4 r6).svr.knows k = (l.svr.knows k && !l.svr.filed k) ∧ (l'.report t s4 s6 r4 r6).svr.filed k = false := by
        unfold Saver.knows
        rw [show (l'.report t s4 s6 r4 r6).svr.filed k = l'.svr.filed k by unfold Saver.filed; rw [r1], r1]
        cases hfd : l.svr.filed k with
        | true => rw [show l'.svr.filed k = false by unfold Saver.filed; rw [(f2 hk).1 hfd]; rfl, (f2 hk).1 hfd]; simp
        | false =>
          have := (f2 hk).2 hfd
          rw [show l'.svr.filed k = l.svr.filed k by unfold Saver.filed; rw [this], this, hfd]; simp
      rw [hkn.1, hkn.2]
      exact .gone hn hk.1 hk.2
    · rw [if_neg hk, List.map_nil, List.append_nil]
      have hkn : (l'.report t s4 s6 r4 r6).svr.knows k = l.svr.knows k ∧ (l'.report t s4 s6 r4 r6).svr.filed k = l.svr.filed k := by
        unfold Saver.knows Saver.filed
        rw [r1, f1 hk]; exact ⟨rfl, rfl⟩
      rw [hkn.1, hkn.2]
      refine .stays hn ?_
      by_cases h1 : lastFor k (cycles h).1 = none
      · exact Or.inl h1
      · exact Or.inr (fun h2 => hk ⟨h1, h2⟩)

/-- C66. What a subscriber is told of connection `k` over a complete run, whether or not files can be created, and for the cookie 0, too: the events of
`EventsFor`, and at the end that it is closed, if it is still known. -/
theorem C66_exact (env : Env) (hm : 1 ≤ env.marshallers) (hv : ViewOK env) (bs : List MessageBlock) (hI : ∀ b ∈ bs, AllInfoOK env.exclude b)
    (s : Saver) (h : runSaver env bs = some s) (k : UInt64) :
    ∃ out known filed, EventsFor k (history env.exclude bs) (savedOf k s.trace) out known filed
      ∧ notesOf (env.uuid k) ((saverEvents s.trace).filterMap expected) = out ++ (if known then [.closed] else []) := by
  rw [notes_events]
  rw [runSaver_view env hv bs hI] at h
  obtain ⟨l, h1, h2⟩ := runSaver_split h
  have hn := eventsInv_run env.still hm (still_view env) bs hI l h1 k
  obtain ⟨w1, w2, -⟩ := runSaver_written (env := env.still) (Nat.ne_of_gt hm) h1 h2
  have hnn := noOpen_notes (close_ext env.still l.svr s h2) _ _ (w2 k) (by split <;> simp)
  refine ⟨notes (env.uuid k) l.svr.trace, l.svr.knows k, l.svr.filed k, ?_, ?_⟩
  · rw [show savedOf k s.trace = savedOf k l.svr.trace by unfold savedOf; rw [w1]]
    exact hn
  · refine hnn.trans ?_
    congr 1
    unfold Saver.knows
    cases l.svr.conns.get k <;> simp

/-- C66. From end to end, whether or not files can be created, and with the cookie 0, too: what the handler of a client, connected before the first event and
not cut off, has been told about each connection, at any time, under any schedule of the server, is an initial part of the events of `C66_exact`, and all of
them when the server has distributed everything; and the client never fails. -/
theorem C66_subscriber (env : Env) (hm : 1 ≤ env.marshallers) (hv : ViewOK env) (hu : ∀ k, (env.uuid k).length ≤ 1000)
    (hnow : ∀ t, ModernTime (env.wall t)) (bs : List MessageBlock) (hI : ∀ b ∈ bs, AllInfoOK env.exclude b)
    (ht : ∀ b ∈ bs, ModernTime b.v4Time ∧ ModernTime b.v6Time)
    (s : Saver) (h : runSaver env bs = some s) (zone : Int → Int) (hzone : ∀ t, (zone t).natAbs < 1440) (senv : EventSocket.Env)
    (hsm : senv.marshal = marshalEvent zone) (st : EventSocket.State) (hr : EventSocket.Reachable senv (saverEvents s.trace) st) (c : Nat)
    (hreg : st.regAt c = some 0) (hfail : st.failedAt c = none) (hp : ¬ st.pending c) (fin : GoErr) (hfin : fin = .eof ∨ fin = .connClosed) :
    (mustRun ⟨st.delivered c, fin⟩).2 = .returns
    ∧ ∀ k, ∃ out known filed, EventsFor k (history env.exclude bs) (savedOf k s.trace) out known filed
      ∧ notesOf (env.uuid k) (mustRun ⟨st.delivered c, fin⟩).1 <+: out ++ (if known then [.closed] else [])
      ∧ (st.distributed.length = (saverEvents s.trace).length →
          notesOf (env.uuid k) (mustRun ⟨st.delivered c, fin⟩).1 = out ++ (if known then [.closed] else [])) := by
  obtain ⟨h1, h2⟩ := told env hu hnow bs ht s h zone hzone senv hsm st hr c hreg hfail hp fin hfin
  refine ⟨h1, fun k => ?_⟩
  obtain ⟨out, known, filed, e1, e2⟩ := C66_exact env hm hv bs hI s h k
  exact ⟨out, known, filed, e1, by rw [← e2]; exact h2 (env.uuid k)⟩

-- non-vacuity: the first file cannot be created; connection 1 comes, goes and comes back, and client 5 is told: opened, closed, closed
def lostEvents : List EventSocket.FlowEvent := ((runSaver (exEnvWith 1000000000 [2] 3) gapBlocks).map (fun s => saverEvents s.trace)).getD []
def lostState : Option EventSocket.State := (EventSocket.init lostEvents).exec exClientEnv
  ([.accept 5, .serve, .produce, .produce, .produce] ++ ([.notify, .notify, .notify, .write 5, .notify] ++ [.notify, .notify, .notify, .write 5, .notify]
    ++ [.notify, .notify, .notify, .write 5, .notify]))
example : (lostState.map (fun s => (s.regAt 5, s.failedAt 5, decide (s.npc = .check), decide (s.distributed.length = 3 ∧ lostEvents.length = 3)))) =
    some (some 0, none, true, true) := by decide +kernel
example : (lostState.map (fun s => (notesOf "1" (mustRun ⟨s.delivered 5, .eof⟩).1).drop 1)) = some [.closed, .closed] := by decide +kernel

/-! ## What the saver remembers -/

/-- C65. After any blocks, whether or not files can be created, and for the cookie 0, too: the saver remembers a connection exactly if it is `known` by the
history of its reports and by which of them could be saved. -/
theorem C65_exact (env : Env) (hm : 1 ≤ env.marshallers) (hv : ViewOK env) (bs : List MessageBlock) (hI : ∀ b ∈ bs, AllInfoOK env.exclude b)
    (l : LoopState) (h : runBlocks env bs = some l) (k : UInt64) :
    ∃ out known filed, EventsFor k (history env.exclude bs) (savedOf k l.svr.trace) out known filed ∧ (k ∈ l.svr.conns.keys ↔ known = true) := by
  rw [runBlocks_view env hv bs hI] at h
  refine ⟨_, l.svr.knows k, _, eventsInv_run env.still hm (still_view env) bs hI l h k, ?_⟩
  rw [GoMap.mem_keys_iff]
  unfold Saver.knows
  cases l.svr.conns.get k <;> simp
-- non-vacuity: after the block without it, the connection is still remembered if its file could not be created, and otherwise not
example : ((runBlocks (exEnvWith 1000000000 [2] 3) (gapBlocks.take 2)).map (fun l => (l.svr.conns.keys, (savedOf 1 l.svr.trace).length))) = some ([1], 0)
    ∧ ((runBlocks (exEnvWith 1000000000 [] 3) (gapBlocks.take 2)).map (fun l => (l.svr.conns.keys, (savedOf 1 l.svr.trace).length))) = some ([], 1) := by
  decide +kernel

/-! ## Every open event is followed by a close event -/

/-- C33. In every run whatsoever (any faults, any messages), the last event about a connection is not that it is opened: together with `C33_opens_partial`,
every open event is followed by a close event before the next open event. -/
theorem C33_closed (env : Env) (bs : List MessageBlock) (s : Saver) (h : runSaver env bs = some s) (k : UInt64) :
    (flowEvents (env.uuid k) s.trace).getLast? ≠ some true := by
  obtain ⟨l, h1, h2⟩ := runSaver_split h
  have hi : OpenInv env l.svr := (steps_blocks env bs newLoop l h1).inv (openInv_step env) (fun k => ⟨rfl, fun _ => by simp [newLoop, newSaver, flowEvents]⟩)
  by_cases hm : env.marshallers = 0
  · have hc := no_conns env hm bs l h1
    have ho : env.order l.svr.tick l.svr.conns.keys = [] := by
      have := env.order_perm l.svr.tick l.svr.conns.keys
      rw [hc] at this ⊢
      exact this.eq_nil
    simp only [Saver.close, ho, Saver.endAll, Option.map_some] at h2
    injection h2 with h2; subst h2
    rw [show flowEvents (env.uuid k) (Saver.emit { l.svr with tick := l.svr.tick + 1 } .closeChans).trace = flowEvents (env.uuid k) l.svr.trace by
      simp [Saver.emit, flowEvents_snoc, flowEvent]]
    exact (hi k).2 (by rw [hc]; rfl)
  · obtain ⟨-, w2, -⟩ := runSaver_written hm h1 h2
    rw [w2 k]
    by_cases hc : l.svr.conns.get k = none
    · rw [if_neg (fun x => x hc), List.append_nil]; exact (hi k).2 hc
    · rw [if_pos hc]; simp

/-! ## Connections of which nothing could be saved -/

theorem vanished_snoc (k : UInt64) (h : List Call) (c : Call) :
    vanished k (h ++ [c]) = vanished k h + (if c = .endCycle ∧ lastFor k (cycles h).1 ≠ none ∧ lastFor k (cycles h).2 = none then 1 else 0) := by
  unfold vanished
  rw [List.length_append, List.length_singleton, List.range_succ, List.filter_append, List.length_append]
  congr 1
  · congr 1
    apply List.filter_congr
    intro i hi
    rw [List.mem_range] at hi
    rw [List.getElem?_append_left hi, List.take_append_of_le_length (by omega)]
  · have e1 : (h ++ [c])[h.length]? = some c := by simp
    have e2 : (h ++ [c]).take h.length = h := by simp
    simp only [List.filter_cons, List.filter_nil, e1, e2]
    by_cases hc : c = .endCycle ∧ lastFor k (cycles h).1 ≠ none ∧ lastFor k (cycles h).2 = none
    · simp [hc]
    · rw [if_neg hc, if_neg]; rfl
      simpa using hc

theorem events_unsaved {k : UInt64} (hk : k ≠ 0) {h : List Call} {saved : List ArchivalRecord} {out : List Note} {known filed : Bool}
    (he : EventsFor k h saved out known filed) (hs : saved = []) :
    filed = false
    ∧ (known = true → ∃ t id, out = .opened t (some id) :: List.replicate (vanished k h) .closed)
    ∧ (known = false → out = [] ∧ ∀ r, Call.update r ∈ h → ck r ≠ k) := by
  induction he with
  | nil => exact ⟨rfl, by simp, by simp⟩
  | saved => simp at hs
  | @lost h saved out known filed r said he hck _ hd hsaid ih =>
    obtain ⟨i1, i2, i3⟩ := ih hs
    refine ⟨rfl, fun _ => ?_, by simp⟩
    rw [vanished_snoc, if_neg (by simp), Nat.add_zero]
    cases hsaid with
    | nothing => rw [List.append_nil]; exact i2 rfl
    | opened id hid =>
      obtain ⟨j1, j2⟩ := i3 rfl
      subst j1
      have hv : vanished k h = 0 := by
        unfold vanished
        rw [List.length_eq_zero_iff, List.filter_eq_nil_iff]
        intro i hi
        simp only [decide_eq_true_eq, not_and]
        intro _ h1
        exfalso
        apply h1
        rw [lastFor_none]
        intro p hp
        exact j2 p (List.mem_of_mem_take (cycles_mem _ p (Or.inl hp)))
      exact ⟨_, id, by rw [hv]; rfl⟩
  | @other h saved out known filed r he hor ih =>
    obtain ⟨i1, i2, i3⟩ := ih hs
    refine ⟨i1, fun hkn => ?_, fun hkn => ⟨(i3 hkn).1, ?_⟩⟩
    · rw [vanished_snoc, if_neg (by simp), Nat.add_zero]; exact i2 hkn
    · intro r' hr'
      rw [List.mem_append] at hr'
      rcases hr' with hr' | hr'
      · exact (i3 hkn).2 r' hr'
      · simp only [List.mem_singleton, Call.update.injEq] at hr'
        subst hr'
        intro hck
        rcases hor with h1 | h1 | h1
        · exact h1 hck
        · exact hk h1
        · apply h1
          intro p hp
          obtain ⟨a, b⟩ := reference_mem hp
          exact absurd (b.trans hck) ((i3 hkn).2 p (cycles_mem _ p (Or.inl a)))
  | @gone h saved out known filed he h1 h2 ih =>
    obtain ⟨i1, i2, i3⟩ := ih hs
    have hkn : known = true := by
      cases known with
      | true => rfl
      | false =>
        exfalso
        apply h1
        rw [lastFor_none]
        intro p hp
        exact (i3 rfl).2 p (cycles_mem _ p (Or.inl hp))
    subst hkn i1
    refine ⟨rfl, fun _ => ?_, by simp⟩
    obtain ⟨t, id, e⟩ := i2 rfl
    refine ⟨t, id, ?_⟩
    rw [vanished_snoc, if_pos ⟨rfl, h1, h2⟩, e, List.cons_append, List.replicate_succ']
  | @stays h saved out known filed he hor ih =>
    obtain ⟨i1, i2, i3⟩ := ih hs
    refine ⟨i1, fun hkn => ?_, fun hkn => ⟨(i3 hkn).1, ?_⟩⟩
    · rw [vanished_snoc, if_neg (by rintro ⟨-, h1, h2⟩; rcases hor with h | h <;> contradiction), Nat.add_zero]; exact i2 hkn
    · intro r' hr'
      simp at hr'
      exact (i3 hkn).2 r' hr'

/-- C33 violated, in general: if a connection is reported, but no file can be created for it, then it is announced once, however often it comes and goes,
and is declared closed each time it disappears, and once more at the end. -/
theorem C33_violated_unsaved (env : Env) (hm : 1 ≤ env.marshallers) (hv : ViewOK env) (bs : List MessageBlock) (hI : ∀ b ∈ bs, AllInfoOK env.exclude b)
    (s : Saver) (h : runSaver env bs = some s) (k : UInt64) (hk : k ≠ 0) (hr : ∃ b ∈ bs, ∃ r ∈ reports env.exclude b, ck r = k)
    (hs : savedOf k s.trace = []) :
    ∃ t id, notesOf (env.uuid k) ((saverEvents s.trace).filterMap expected)
      = .opened t (some id) :: List.replicate (vanished k (history env.exclude bs) + 1) .closed := by
  obtain ⟨out, known, filed, e1, e2⟩ := C66_exact env hm hv bs hI s h k
  obtain ⟨-, i2, i3⟩ := events_unsaved hk e1 hs
  have hkn : known = true := by
    cases known with
    | true => rfl
    | false =>
      exfalso
      obtain ⟨b, hb, r, hr, hck⟩ := hr
      refine (i3 rfl).2 r ?_ hck
      unfold history
      rw [List.mem_flatMap]
      exact ⟨b, hb, by simp [hr]⟩
  subst hkn
  obtain ⟨t, id, e⟩ := i2 rfl
  refine ⟨t, id, ?_⟩
  rw [e2, e, if_pos rfl, List.cons_append, List.replicate_succ']
-- non-vacuity: connection 1 comes, goes and comes back, while no file can be created
example : ((runSaver (exEnvWith 1000000000 (List.range 100) 3) gapBlocks).map (fun s => decide (savedOf 1 s.trace = []))) = some true
    ∧ vanished 1 (history none gapBlocks) = 1 ∧ (gapBlocks.any (fun b => (reports none b).any (fun r => decide (ck r = 1)))) = true := by decide +kernel
example : ViewOK (exEnvWith 1000000000 (List.range 100) 3) ∧ (∀ b ∈ gapBlocks, AllInfoOK none b) :=
  ⟨fun _ _ => ⟨rfl, rfl, ⟨rfl, rfl, rfl⟩, rfl⟩, by unfold AllInfoOK; decide +kernel⟩
-- if only the first file fails, the connection is not announced when it comes back, although its second report is saved
example : ((runSaver (exEnvWith 1000000000 [2] 3) gapBlocks).map (fun s => ((savedOf 1 s.trace).length, flowEvents "1" s.trace)))
    = some (1, [true, false, false]) := by decide +kernel

/-! ## Which addresses the events name -/

theorem announced_run (env : Env) (bs : List MessageBlock) (s : Saver) (h : runSaver env bs = some s) :
    ∀ a ∈ s.trace, ∀ t u id, a.act = .flowCreated t u id →
      ∃ r idm, (∃ b ∈ bs, r ∈ reports env.exclude b) ∧ complete r = true ∧ t = r.timestamp ∧ u = env.uuid (ck r) ∧ parseIDM r.raw = .ok idm ∧ id = idm.id.getSockID := by
  obtain ⟨l, h1, h2⟩ := runSaver_split h
  have noOpen : ∀ (s s' : Saver), Ext NoOpen s s' → ∀ a ∈ s'.trace, ∀ t u id, a.act = .flowCreated t u id → a ∈ s.trace := by
    rintro s s' ⟨e, e1, e2⟩ a ha t u id hact
    rw [e1] at ha
    rcases List.mem_append.1 ha with ha | ha
    · exact ha
    · exact absurd hact (e2 a ha t u id)
  intro a ha t u id hact
  refine run_induct env (fun _ l => ∀ a ∈ l.svr.trace, ∀ t u id, a.act = .flowCreated t u id → ∃ r idm, (∃ b ∈ bs, r ∈ reports env.exclude b) ∧ complete r = true
      ∧ t = r.timestamp ∧ u = env.uuid (ck r) ∧ parseIDM r.raw = .ok idm ∧ id = idm.id.getSockID)
    (fun r => ∃ b ∈ bs, r ∈ reports env.exclude b) (by simp [newLoop, newSaver]) ?_ ?_ bs (fun b hb r hr => ⟨b, hb, hr⟩) l h1 a
    (noOpen _ _ (close_ext env l.svr s h2) a ha t u id hact) t u id hact
  · intro h l r s' hr hq hp hs a ha t u id hact
    obtain ⟨idm, hidm, -⟩ := cookieOf_parse hr
    obtain ⟨e, e1, e2⟩ := swap_ext env l.svr s' r idm hidm hs
    have ha' : a ∈ l.svr.trace ++ e := by rw [← e1]; exact ha
    rcases List.mem_append.1 ha' with ha' | ha'
    · exact hp a ha' t u id hact
    · obtain ⟨rfl, rfl⟩ := e2 a ha' t u id hact
      refine ⟨r, idm, hq, hr, rfl, ?_, hidm, rfl⟩
      by_cases hu : u = env.uuid (ck r)
      · exact hu
      · exfalso
        have := swap_flow env l.svr r hr s' hs u hu
        rw [e1, flowEvents, List.filterMap_append] at this
        have h3 : List.filterMap (flowEvent u) e = [] := List.append_right_eq_self.1 this
        rw [List.filterMap_eq_nil_iff] at h3
        have := h3 a ha'
        simp [flowEvent, hact] at this
  · intro h l l1 t s4 s6 r4 r6 hp hfin _ _ a ha t' u id hact
    refine hp a (noOpen l.svr _ ?_ a ha t' u id hact) t' u id hact
    refine Ext.trans ?_ (report_ext l1 t s4 s6 r4 r6)
    unfold LoopState.finish at hfin
    exact expireAll_ext env _ _ { l with svr := { l.svr with cache := l.svr.cache.endCycle.1, tick := l.svr.tick + 1 } } _ hfin

theorem mem_reports_not_excluded {ex : ExcludeConfig} {b : MessageBlock} {r : ArchivalRecord} (hr : r ∈ reports (some ex) b) :
    ∃ d : DiagMsg, r.rawIDM = some d.wire ∧ d.cookie = ck r ∧ ¬ Excluded (ex.srcPorts.getD []) ex.localConns (ex.dstIPs.getD []) d := by
  have key : ∀ t ms, r ∈ List.filterMap (reportOf (some ex) t) ms →
      ∃ d : DiagMsg, r.rawIDM = some d.wire ∧ d.cookie = ck r ∧ ¬ Excluded (ex.srcPorts.getD []) ex.localConns (ex.dstIPs.getD []) d := by
    intro t ms hm
    obtain ⟨m, -, hm⟩ := List.mem_filterMap.1 hm
    obtain ⟨-, -, -, d, -, -, hd, hk⟩ := reportOf_wire _ _ m r hm
    exact ⟨d, hd, hk, reported_not_excluded ex _ m r hm d hd⟩
  rcases List.mem_append.1 hr with hr | hr
  · exact key _ _ hr
  · exact key _ _ hr

/-- C49. Every open event is about a message that the config does not exclude: it has the UUID, ports, cookie and addresses of one. -/
theorem C49_events (env : Env) (ex : ExcludeConfig) (hex : env.exclude = some ex) (bs : List MessageBlock) (s : Saver) (h : runSaver env bs = some s)
    (t : Int) (u : String) (id : SockID) (hx : ∃ x ∈ s.trace, x.act = .flowCreated t u id) :
    ∃ d : DiagMsg, ¬ Excluded (ex.srcPorts.getD []) ex.localConns (ex.dstIPs.getD []) d ∧ u = env.uuid d.cookie
      ∧ id.sport = d.sport ∧ id.dport = d.dport ∧ id.cookieUint64 = d.cookie
      ∧ id.srcIP.toList = ipString (ipOf d.src.val) ∧ id.dstIP.toList = ipString (ipOf d.dst.val) := by
  obtain ⟨x, hx, hact⟩ := hx
  obtain ⟨r, idm, ⟨b, -, hb⟩, -, -, hu, hidm, hid⟩ := announced_run env bs s h x hx t u id hact
  rw [hex] at hb
  obtain ⟨d, hd, hk, hn⟩ := mem_reports_not_excluded hb
  have hraw : r.raw = d.wire ++ [] := by simp [ArchivalRecord.raw, hd]
  rw [hraw] at hidm
  obtain ⟨a1, a2, a3, a4, a5⟩ := C63_sockid d [] idm hidm
  subst hid
  exact ⟨d, hn, by rw [hu, hk], a3, a4, a5, a1, a2⟩

theorem text_not_local {b : Bytes} (hb : b.length = 16) (hn : ¬ LocalField b) {ip : Bytes} (hip : AddrText (ipString (ipOf b)) ip) : ¬ LocalV6 ip := by
  have hp := (parseIP_iff _ _).2 hip
  rcases ipOf_cases b hb with ⟨x, y, z, w, e, e'⟩ | ⟨⟨i, h1, h2, h3⟩, e'⟩
  · rw [e', parseIP_ipString _ (Or.inl rfl)] at hp
    injection hp with hp
    subst hp
    intro hl
    apply hn
    left
    subst e
    refine ⟨rfl, ?_⟩
    rcases hl with h | h | h | h | h
    · simp [to16, v4InV6Prefix] at h
    · simp [to16, v4InV6Prefix] at h
    · simp [to16, v4InV6Prefix, Spec.byte] at h
    · simp [to16, v4InV6Prefix, Spec.byte] at h
    · exact h.2
  · rw [e', parseIP_ipString _ (Or.inr hb), to16, if_neg (by omega)] at hp
    injection hp with hp
    subst hp
    intro hl
    refine hn (Or.inr ⟨?_, hl⟩)
    intro h0
    apply h3
    have : (b.drop 4)[i - 4]? = some 0 := by rw [h0, List.getElem?_replicate, if_pos (by omega)]
    rw [List.getElem?_drop, show 4 + (i - 4) = i by omega] at this
    simp [Spec.byte, this]

/-- C49. With `Local`, no event names a local address: no text in an event is one of a loopback, link-local, multicast or unspecified address, be it an IPv4
address (in dotted decimal), an IPv6 address or an IPv4 address mapped to IPv6. -/
theorem C49_local (env : Env) (ex : ExcludeConfig) (hex : env.exclude = some ex) (hl : ex.localConns = true) (bs : List MessageBlock) (s : Saver)
    (h : runSaver env bs = some s) (t : Int) (u : String) (id : SockID) (hx : ∃ x ∈ s.trace, x.act = .flowCreated t u id) :
    (∀ a b c d, LocalV4 a b c d → id.srcIP.toList ≠ dotted a b c d ∧ id.dstIP.toList ≠ dotted a b c d)
    ∧ ∀ ip, LocalV6 ip → ¬ AddrText id.srcIP.toList ip ∧ ¬ AddrText id.dstIP.toList ip := by
  obtain ⟨m, hn, -, -, -, -, hs, hd⟩ := C49_events env ex hex bs s h t u id hx
  have hns : ¬ LocalField m.src.val := fun x => hn (Or.inr (Or.inl ⟨hl, Or.inl x⟩))
  have hnd : ¬ LocalField m.dst.val := fun x => hn (Or.inr (Or.inl ⟨hl, Or.inr x⟩))
  have h6 : ∀ ip, LocalV6 ip → ¬ AddrText id.srcIP.toList ip ∧ ¬ AddrText id.dstIP.toList ip := by
    intro ip hip
    rw [hs, hd]
    exact ⟨fun x => text_not_local m.src.property hns x hip, fun x => text_not_local m.dst.property hnd x hip⟩
  refine ⟨?_, h6⟩
  intro a b c d hv
  have ht : AddrText (dotted a b c d) (v4InV6Prefix ++ [a, b, c, d]) := (parseIP_iff _ _).1 (parse_dotted a b c d)
  obtain ⟨j1, j2⟩ := h6 (v4InV6Prefix ++ [a, b, c, d]) (Or.inr (Or.inr (Or.inr (Or.inr ⟨rfl, hv⟩))))
  exact ⟨fun e => j1 (e ▸ ht), fun e => j2 (e ▸ ht)⟩
-- non-vacuity: with `Local`, of two connections, one to 2001:db8::2 and one to 127.0.0.1, the first one is announced and the second one is not
def localBlocks : List MessageBlock :=
  [exBlock 1 [some { exampleNl with data := ({ exampleMsg with cookie := 1 } : DiagMsg).wire },
    some { exampleNl with data := ({ exampleMsg with cookie := 2, dst := ⟨[127, 0, 0, 1] ++ List.replicate 12 0, rfl⟩ } : DiagMsg).wire }]]
def announcedTo (env : Env) : Option (List (String × String)) :=
  (runSaver env localBlocks).map (fun s => s.trace.filterMap (fun x => match x.act with | .flowCreated _ u id => some (u, id.dstIP) | _ => none))
example : announcedTo { exEnv with exclude := some { localConns := true, srcPorts := none, dstIPs := none } } = some [("1", "2001:db8::2")]
    ∧ announcedTo exEnv = some [("1", "2001:db8::2"), ("2", "127.0.0.1")] := by decide +kernel

end TcpInfo
