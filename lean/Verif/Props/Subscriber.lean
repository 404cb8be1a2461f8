import Verif.Props.SaverRuns
import Verif.Props.EventClient
import Verif.Lemmas.SaverNotes
import Verif.Lemmas.SaverAcct
import Verif.Lemmas.Ranges
/-!
# C66: from the kernel's reports to the handler of a subscriber
-/

namespace TcpInfo
open Spec
open EventSocket (FlowEvent Callback expected marshalEvent mustRun)

theorem names_of {r : ArchivalRecord} {idm : InetDiagMsg} (hr : complete r = true) (hp : parseIDM r.raw = .ok idm) : Names idm.id.getSockID r := by
  have hlen : 72 ≤ r.raw.length := by simpa [complete, ArchivalRecord.raw] using hr
  have hd : ∀ b : Bytes, b.length = 16 → Denotes (ipString (ipOf b)) b := by
    intro b hb
    rcases ipOf_cases b hb with ⟨x, y, z, w, e, -⟩ | ⟨hz, -⟩
    · exact Or.inl ⟨x, y, z, w, e, by rw [e]; exact C63_v4 x y z w⟩
    · exact Or.inr (C63_v6_partial b hb hz)
  obtain ⟨m, hm, -⟩ := C02_wire_parse (r.raw.take 72) (by simp; omega) _ (parseIDM_ok (by simp; omega))
  have hraw : r.raw = m.wire ++ r.raw.drop 72 := by rw [hm, List.take_append_drop]
  have hs := C63_sockid m (r.raw.drop 72) idm (by rw [← hraw]; exact hp)
  exact ⟨m, r.raw.drop 72, hraw, hs.2.2.1, hs.2.2.2.1, hs.2.2.2.2, by rw [hs.1]; exact hd _ m.src.property, by rw [hs.2.1]; exact hd _ m.dst.property⟩

theorem notesInv_run (env : Env) (hf : NoFaults env) (hview : ∀ n r, env.view n r = r) (bs : List MessageBlock) (hI : ∀ b ∈ bs, AllInfoOK env.exclude b)
    (hz : ∀ b ∈ bs, ∀ r ∈ reports env.exclude b, ck r ≠ 0) (l : LoopState) (h : runBlocks env bs = some l) (k : UInt64) :
    NotesFor k (history env.exclude bs) (notes (env.uuid k) l.svr.trace) := by
  have hm : env.marshallers ≠ 0 := Nat.ne_of_gt hf.marshallers
  refine (run_induct' env hview (fun h l => FlowInv env h l ∧ NotesFor k h (notes (env.uuid k) l.svr.trace)) (fun r => ck r ≠ 0) ?_ ?_ ?_ bs hI hz l h).2.2
  · refine ⟨⟨fun k => by simp [newLoop, newSaver, GoMap.get, lastFor, cycles], fun k c hc => by simp [newLoop, newSaver, GoMap.get] at hc,
      fun k => .nil, fun k => ⟨0, by simp [newLoop, newSaver, GoMap.get, flowEvents, pairs]⟩, fun u _ => rfl⟩, .nil⟩
  · rintro h l r s' hr hq hk hi ⟨hp, hn⟩ hs
    refine ⟨flowInv_update hf hview hr hq hk hi hp hs, ?_⟩
    show NotesFor k _ (notes (env.uuid k) s'.trace)
    obtain ⟨idm, hidm, hck⟩ := cookieOf_parse hr
    have hext := swap_ext env l.svr s' r idm hidm hs
    obtain ⟨s1, e1, -, -, -, -, -, -, -, e8, e9, e10⟩ := swap_effect env hview h l.svr hi.cache r hr hq (fun p hp => hi.info p (Or.inl hp))
    have : s1 = s' := Option.some.inj (e1.symm.trans hs)
    subst this
    by_cases hkk : ck r = k
    · by_cases hnew : l.svr.conns.get k = none
      · have hd : Due h r := by
          intro p hpp
          have hmem := reference_mem hpp
          have hpres : ¬ (lastFor k (cycles h).1 ≠ none ∨ lastFor k (cycles h).2 ≠ none) := by rw [← hp.present k, hnew]; simp
          rw [not_or, Classical.not_not, Classical.not_not] at hpres
          exfalso
          rw [lastFor_none] at hpres
          exact hpres.1 p hmem.1 (by rw [← hkk]; exact hmem.2)
        have hfl := (e10 hd).2.1 (env.uuid k)
        rw [if_pos ⟨by rw [hkk], by rw [hkk]; exact hnew, hk, hf.marshallers⟩] at hfl
        rw [ext_notes hext _ _ hfl]
        have hpres : ¬ (lastFor k (cycles h).1 ≠ none ∨ lastFor k (cycles h).2 ≠ none) := by rw [← hp.present k, hnew]; simp
        rw [not_or, Classical.not_not, Classical.not_not] at hpres
        exact .first hn hkk hpres.1 hpres.2 (names_of hr hidm)
      · have hfl : flowEvents (env.uuid k) s1.trace = flowEvents (env.uuid k) l.svr.trace ++ [] := by
          by_cases hd : Due h r
          · have hfl := (e10 hd).2.1 (env.uuid k)
            rw [if_neg (fun x => hnew (by rw [← hkk]; exact x.2.1))] at hfl
            exact hfl
          · rw [(e9 hd).2, List.append_nil]
        rw [ext_notes hext _ _ hfl, List.map_nil, List.append_nil]
        exact .again hn hkk ((hp.present k).1 hnew)
    · have hne : env.uuid k ≠ env.uuid (ck r) := fun e => hkk (env.uuid_inj _ _ e).symm
      have hfl : flowEvents (env.uuid k) s1.trace = flowEvents (env.uuid k) l.svr.trace ++ [] := by
        by_cases hd : Due h r
        · have hfl := (e10 hd).2.1 (env.uuid k)
          rw [if_neg (fun x => hne x.1)] at hfl
          exact hfl
        · rw [(e9 hd).2, List.append_nil]
      rw [ext_notes hext _ _ hfl, List.map_nil, List.append_nil]
      exact .other hn hkk
  · rintro h l l1 t s4 s6 r4 r6 hi ⟨hp, hn⟩ hfin _ _
    refine ⟨flowInv_endCycle hf hview t s4 s6 r4 r6 hi hp hfin, ?_⟩
    obtain ⟨l', e1, -, -, e4, -⟩ := finish_effect env hm hview h l hi.cache
    have : l' = l1 := Option.some.inj (e1.symm.trans hfin)
    subst this
    have hext : Ext NoOpen l.svr (l'.report t s4 s6 r4 r6).svr := by
      refine Ext.trans ?_ (report_ext l' t s4 s6 r4 r6)
      unfold LoopState.finish at hfin
      exact expireAll_ext env _ _ { l with svr := { l.svr with cache := l.svr.cache.endCycle.1, tick := l.svr.tick + 1 } } _ hfin
    have hfl := e4 k
    rw [← (report_effect l' t s4 s6 r4 r6).2.2.2.2.2.2] at hfl
    rw [noOpen_notes hext _ _ hfl (by split <;> simp)]
    by_cases hk : lastFor k (cycles h).1 ≠ none ∧ lastFor k (cycles h).2 = none
    · rw [if_pos hk]; exact .gone hn hk.1 hk.2
    · rw [if_neg hk, List.map_nil, List.append_nil]
      refine .stays hn ?_
      by_cases h1 : lastFor k (cycles h).1 = none
      · exact Or.inl h1
      · exact Or.inr (fun h2 => hk ⟨h1, h2⟩)

/-- What should be said about connection `k` over a complete run: the notes of its history, and that it is closed, if it was reported in the last block. -/
def NotesOfRun (k : UInt64) (h : List Call) (out : List Note) : Prop :=
  ∃ out', NotesFor k h out' ∧ out = out' ++ (if lastFor k (cycles h).1 ≠ none then [.closed] else [])

/-- C66 (partial: files can be created and no cookie is 0; otherwise see C33). The saver's events about connection `k`: it is announced at its first
report, with that report's time, ports, cookie and addresses, and closed after the first block without it, or at the end. -/
theorem C66_events_partial (env : Env) (hf : NoFaults env) (hv : ViewOK env) (bs : List MessageBlock) (hI : ∀ b ∈ bs, AllInfoOK env.exclude b)
    (hz : ∀ b ∈ bs, ∀ r ∈ reports env.exclude b, ck r ≠ 0) (s : Saver) (h : runSaver env bs = some s) (k : UInt64) :
    NotesOfRun k (history env.exclude bs) (notesOf (env.uuid k) ((saverEvents s.trace).filterMap expected)) := by
  rw [notes_events]
  rw [runSaver_view env hv bs hI] at h
  obtain ⟨l, h1, h2⟩ := runSaver_split h
  have hf' : NoFaults env.still := ⟨hf.create, hf.marshallers⟩
  have hn := notesInv_run env.still hf' (still_view env) bs hI hz l h1 k
  have hi := flowInv_run env.still hf' (still_view env) bs hI hz l h1
  obtain ⟨-, w2, -⟩ := runSaver_written (env := env.still) (Nat.ne_of_gt hf.marshallers) h1 h2
  refine ⟨_, hn, ?_⟩
  have hnn := noOpen_notes (close_ext env.still l.svr s h2) _ _ (w2 k) (by split <;> simp)
  refine hnn.trans ?_
  congr 1
  have hc2 : (cycles (history env.exclude bs)).2 = [] := by
    rcases List.eq_nil_or_concat bs with rfl | ⟨bs', b', rfl⟩
    · rfl
    · have e : history env.exclude (bs' ++ [b']) = (history env.exclude bs' ++ (reports env.exclude b').map .update) ++ [.endCycle] := by simp [history]
      rw [List.concat_eq_append, e, cycles_endCycle]
  have hpr := hi.present k
  rw [show env.still.exclude = env.exclude from rfl, hc2] at hpr
  have hl0 : lastFor k ([] : List ArchivalRecord) = none := rfl
  rw [hl0] at hpr
  simp only [ne_eq, not_true, or_false] at hpr
  by_cases hc : lastFor k (cycles (history env.exclude bs)).1 = none
  · have := Classical.not_not.1 (fun x => (hpr.1 x) hc)
    simp [this, hc]
  · have := hpr.2 hc
    simp [this, hc]

/-! ## The events are ones the client can decode -/

theorem opens_run (env : Env) (T : Int → Prop) (bs : List MessageBlock) (hT : ∀ b ∈ bs, T b.v4Time ∧ T b.v6Time) (s : Saver) (h : runSaver env bs = some s) :
    ∀ a ∈ s.trace, ∀ t u id, a.act = .flowCreated t u id → T t ∧ id.srcIP.length + id.dstIP.length ≤ 400 := by
  obtain ⟨l, h1, h2⟩ := runSaver_split h
  have ext : ∀ (P : Action → Prop) (s s' : Saver), Ext P s s' →
      (∀ a, P a → ∀ t u id, a = .flowCreated t u id → T t ∧ id.srcIP.length + id.dstIP.length ≤ 400) →
      (∀ a ∈ s.trace, ∀ t u id, a.act = .flowCreated t u id → T t ∧ id.srcIP.length + id.dstIP.length ≤ 400) →
      ∀ a ∈ s'.trace, ∀ t u id, a.act = .flowCreated t u id → T t ∧ id.srcIP.length + id.dstIP.length ≤ 400 := by
    rintro P s s' ⟨e, e1, e2⟩ hP hs a ha
    rw [e1] at ha
    rcases List.mem_append.1 ha with ha | ha
    · exact hs a ha
    · exact hP _ (e2 a ha)
  refine ext NoOpen l.svr s (close_ext env l.svr s h2) (fun a ha t u id e => absurd e (ha t u id)) ?_
  refine run_induct env (fun _ l => ∀ a ∈ l.svr.trace, ∀ t u id, a.act = .flowCreated t u id → T t ∧ id.srcIP.length + id.dstIP.length ≤ 400)
    (fun r => T r.timestamp) (by simp [newLoop, newSaver]) ?_ ?_ bs ?_ l h1
  · intro h l r s' hr hq hp hs
    obtain ⟨idm, hidm, -⟩ := cookieOf_parse hr
    refine ext _ l.svr s' (swap_ext env l.svr s' r idm hidm hs) ?_ hp
    intro a ha t u id e
    obtain ⟨rfl, rfl⟩ := ha t u id e
    exact ⟨hq, getSockID_length _⟩
  · intro h l l1 t s4 s6 r4 r6 hp hfin _ _
    refine ext NoOpen l.svr _ ?_ (fun a ha t u id e => absurd e (ha t u id)) hp
    refine Ext.trans ?_ (report_ext l1 t s4 s6 r4 r6)
    unfold LoopState.finish at hfin
    exact expireAll_ext env _ _ { l with svr := { l.svr with cache := l.svr.cache.endCycle.1, tick := l.svr.tick + 1 } } _ hfin
  · intro b hb r hr
    unfold reports at hr
    have key : ∀ t ms, r ∈ List.filterMap (reportOf env.exclude t) ms → r.timestamp = t := by
      intro t ms hm
      obtain ⟨m, -, hm⟩ := List.mem_filterMap.1 hm
      unfold reportOf at hm
      split at hm
      · simp at hm
      · split at hm
        · injection hm with hm; subst hm; rfl
        · simp at hm
    rcases List.mem_append.1 hr with hr | hr
    · rw [key _ _ hr]; exact (hT b hb).1
    · rw [key _ _ hr]; exact (hT b hb).2

/-- C66. A Close event carries what the wall clock showed when the saver sent it. -/
theorem C66_close_time (env : Env) (bs : List MessageBlock) (s : Saver) (h : runSaver env bs = some s) :
    ∀ a ∈ s.trace, ∀ t u, a.act = .flowDeleted t u → t = env.wall a.time := by
  obtain ⟨s1, rfl, hst, -⟩ := runSaver_closed h
  have hi : ∀ a ∈ s1.trace, ∀ t u, a.act = .flowDeleted t u → t = env.wall a.time := by
    refine hst.inv (P := fun s => ∀ a ∈ s.trace, ∀ t u, a.act = .flowDeleted t u → t = env.wall a.time) ?_ (by simp [newSaver])
    intro s s' hs ht
    have hem : ∀ a, (∀ t u, a = .flowDeleted t u → t = env.wall s.clock) → ∀ x ∈ s.trace ++ [(⟨s.clock, a⟩ : Stamped)], ∀ t u, x.act = .flowDeleted t u → t = env.wall x.time := by
      intro a ha x hx
      rcases List.mem_append.1 hx with hx | hx
      · exact ht x hx
      · have : x = ⟨s.clock, a⟩ := by simpa using hx
        subst this; exact ha
    cases hs with
    | other h1 h2 h3 h4 h5 => rw [h3]; exact ht
    | clock => exact ht
    | observe a ha => exact hem a (by rcases ha with ⟨n, rfl⟩ | ⟨n, rfl⟩ <;> simp)
    | create k idm ts => exact hem _ (by simp)
    | closeExpired k c w => exact hem _ (by simp)
    | touch k c => exact ht
    | rotate k c dir => exact hem _ (by simp)
    | write k c w msg idm => exact hem _ (by simp)
    | endClose k c w =>
      have h1 := hem (.flowDeleted (env.wall s.clock) (env.uuid k)) (by rintro t u ⟨⟩; rfl)
      intro x hx
      rcases List.mem_append.1 hx with hx | hx
      · exact h1 x hx
      · have : x = ⟨s.clock, .send (queueOf env k) ⟨none, some w⟩⟩ := by simpa [Saver.emit] using hx
        subst this; simp
    | endGone k => exact hem _ (by rintro t u ⟨⟩; rfl)
  intro a ha
  rcases List.mem_append.1 ha with ha | ha
  · exact hi a ha
  · have : a = ⟨s1.clock, .closeChans⟩ := by simpa using ha
    subst this; simp

theorem closes_run (env : Env) (T : Int → Prop) (hT : ∀ t, T (env.wall t)) (bs : List MessageBlock) (s : Saver) (h : runSaver env bs = some s) :
    ∀ a ∈ s.trace, ∀ t u, a.act = .flowDeleted t u → T t := fun a ha t u e => by
  rw [C66_close_time env bs s h a ha t u e]; exact hT _

/-- A run with two Close events, on a machine whose wall clock is an hour ahead of the clock that runs evenly. -/
example : ((runSaver { exEnv with wall := fun t => t + 3600000000000 } exBlocks).map
    (fun s => s.trace.filterMap (fun x => match x.act with | .flowDeleted t u => some (x.time, t, u) | _ => none))) =
  some [(1600000014000000000, 1600003614000000000, "2"), (1600000016000000000, 1600003616000000000, "1")] := by decide +kernel

/-- The UUIDs in the events are UUIDs of the environment. -/
theorem uuids_run (env : Env) (bs : List MessageBlock) (s : Saver) (h : runSaver env bs = some s) :
    ∀ a ∈ s.trace, ∀ t u, ((∃ id, a.act = .flowCreated t u id) ∨ a.act = .flowDeleted t u) → ∃ k, u = env.uuid k := by
  obtain ⟨s1, rfl, hst, -⟩ := runSaver_closed h
  have hi : ∀ a ∈ s1.trace, ∀ t u, ((∃ id, a.act = .flowCreated t u id) ∨ a.act = .flowDeleted t u) → ∃ k, u = env.uuid k := by
    refine hst.inv (P := fun s => ∀ a ∈ s.trace, ∀ t u, ((∃ id, a.act = .flowCreated t u id) ∨ a.act = .flowDeleted t u) → ∃ k, u = env.uuid k) ?_
      (by simp [newSaver])
    intro s s' hs ht
    have hem : ∀ (tr : List Stamped) (a : Stamped), (∀ a ∈ tr, ∀ t u, ((∃ id, a.act = .flowCreated t u id) ∨ a.act = .flowDeleted t u) → ∃ k, u = env.uuid k) →
        (∀ t u, ((∃ id, a.act = .flowCreated t u id) ∨ a.act = .flowDeleted t u) → ∃ k, u = env.uuid k) →
        ∀ x ∈ tr ++ [a], ∀ t u, ((∃ id, x.act = .flowCreated t u id) ∨ x.act = .flowDeleted t u) → ∃ k, u = env.uuid k := by
      intro tr a h1 h2 x hx
      rcases List.mem_append.1 hx with hx | hx
      · exact h1 x hx
      · have : x = a := by simpa using hx
        subst this; exact h2
    cases hs with
    | other h1 h2 h3 h4 h5 => rw [h3]; exact ht
    | clock => exact ht
    | observe a ha => exact hem _ _ ht (by rcases ha with ⟨n, rfl⟩ | ⟨n, rfl⟩ <;> simp)
    | create k idm ts => exact hem _ _ ht (by rintro t u (⟨id, e⟩ | e) <;> cases e; exact ⟨k, rfl⟩)
    | closeExpired k c w => exact hem _ _ ht (by simp)
    | touch k c => exact ht
    | rotate k c dir => exact hem _ _ ht (by simp)
    | write k c w msg idm => exact hem _ _ ht (by simp)
    | endClose k c w => exact hem _ _ (hem _ _ ht (by rintro t u (⟨id, e⟩ | e) <;> cases e; exact ⟨k, rfl⟩)) (by simp)
    | endGone k => exact hem _ _ ht (by rintro t u (⟨id, e⟩ | e) <;> cases e; exact ⟨k, rfl⟩)
  exact fun a ha => by
    rcases List.mem_append.1 ha with ha | ha
    · exact hi a ha
    · have : a = ⟨s1.clock, .closeChans⟩ := by simpa using ha
      subst this; simp

theorem events_good (env : Env) (hu : ∀ k, (env.uuid k).length ≤ 1000) (hnow : ∀ t, ModernTime (env.wall t)) (bs : List MessageBlock)
    (ht : ∀ b ∈ bs, ModernTime b.v4Time ∧ ModernTime b.v6Time) (s : Saver) (h : runSaver env bs = some s) :
    reasonable (saverEvents s.trace) ∧ ∀ e ∈ saverEvents s.trace, ModernTime e.timestamp := by
  have key : ∀ e ∈ saverEvents s.trace, (EventSocket.evOk e ∧ e.uuid.length + (e.id.map (fun id => id.srcIP.length + id.dstIP.length)).getD 0 ≤ 10000)
      ∧ ModernTime e.timestamp := by
    intro e he
    obtain ⟨a, ha, he⟩ := List.mem_filterMap.1 he
    have ho := opens_run env ModernTime bs ht s h a ha
    have hc := closes_run env ModernTime hnow bs s h a ha
    have huu := uuids_run env bs s h a ha
    unfold eventOf at he
    split at he
    · rename_i t u id hact
      injection he with he; subst he
      obtain ⟨k, hk⟩ := huu t u (Or.inl ⟨id, hact⟩)
      have := hu k
      have hl := ho t u id hact
      refine ⟨⟨⟨show minInt64 ≤ 0 by decide, show (0 : Int) ≤ maxInt64 by decide⟩, ?_⟩, hl.1⟩
      simp only [EventSocket.flowCreated, Option.map_some, Option.getD_some, hk]
      omega
    · rename_i t u hact
      injection he with he; subst he
      obtain ⟨k, hk⟩ := huu t u (Or.inr hact)
      have := hu k
      refine ⟨⟨⟨show minInt64 ≤ 1 by decide, show (1 : Int) ≤ maxInt64 by decide⟩, ?_⟩, hc t u hact⟩
      simp only [EventSocket.flowDeleted, Option.map_none, Option.getD_none, hk]
      omega
    · simp at he
  exact ⟨fun e he => (key e he).1, fun e he => (key e he).2⟩

theorem notesOf_append (u : String) (a b : List Callback) : notesOf u (a ++ b) = notesOf u a ++ notesOf u b := by
  unfold notesOf; rw [List.filterMap_append]

theorem told (env : Env) (hu : ∀ k, (env.uuid k).length ≤ 1000) (hnow : ∀ t, ModernTime (env.wall t)) (bs : List MessageBlock)
    (ht : ∀ b ∈ bs, ModernTime b.v4Time ∧ ModernTime b.v6Time)
    (s : Saver) (h : runSaver env bs = some s) (zone : Int → Int) (hzone : ∀ t, (zone t).natAbs < 1440) (senv : EventSocket.Env)
    (hm : senv.marshal = marshalEvent zone) (st : EventSocket.State) (hr : EventSocket.Reachable senv (saverEvents s.trace) st) (c : Nat)
    (hreg : st.regAt c = some 0) (hfail : st.failedAt c = none) (hp : ¬ st.pending c) (fin : GoErr) (hfin : fin = .eof ∨ fin = .connClosed) :
    (mustRun ⟨st.delivered c, fin⟩).2 = .returns
    ∧ ∀ u, notesOf u (mustRun ⟨st.delivered c, fin⟩).1 <+: notesOf u ((saverEvents s.trace).filterMap expected)
      ∧ (st.distributed.length = (saverEvents s.trace).length →
          notesOf u (mustRun ⟨st.delivered c, fin⟩).1 = notesOf u ((saverEvents s.trace).filterMap expected)) := by
  obtain ⟨hreas, hmod⟩ := events_good env hu hnow bs ht s h
  have hgood : ∀ es : List FlowEvent, (∀ e ∈ es, e ∈ saverEvents s.trace) → EventSocket.good senv es = es := by
    intro es hes
    unfold EventSocket.good
    rw [List.filter_eq_self]
    intro e he
    rw [hm]
    exact marshalEvent_modern hzone (hmod e (hes e he))
  have hem := C51_emitted senv _ st hr
  have hord := C51_order senv _ st hr
  rw [hgood st.emitted (fun e he => by rw [← hem]; exact List.mem_append_left _ he)] at hord
  have hpre : st.distributed <+: saverEvents s.trace := hord.trans ⟨st.todo, hem⟩
  rw [C54_end_to_end senv zone hzone hm _ hreas st hr c 0 hreg hfail hp fin hfin]
  refine ⟨rfl, ?_⟩
  intro u
  refine ⟨?_, ?_⟩
  · obtain ⟨rest, hrest⟩ := hpre
    rw [← hrest, List.drop_zero, List.filterMap_append, notesOf_append]
    exact List.prefix_append _ _
  · intro hlen
    rw [List.drop_zero, hpre.eq_of_length hlen]

/-- C66 (partial: files can be created and no cookie is 0, otherwise see `C66_subscriber` and C33; times in the years 0 to 9999). From end to end: what the
handler of a client, connected before the first event and not cut off, has been told about each connection `k`, at any time, under any schedule of the
server, is an initial part of `NotesOfRun`, and all of it when the server has distributed everything; and the client never fails. -/
theorem C66_subscriber_partial (env : Env) (hf : NoFaults env) (hv : ViewOK env) (hu : ∀ k, (env.uuid k).length ≤ 1000)
    (hnow : ∀ t, ModernTime (env.wall t)) (bs : List MessageBlock) (hI : ∀ b ∈ bs, AllInfoOK env.exclude b)
    (hz : ∀ b ∈ bs, ∀ r ∈ reports env.exclude b, ck r ≠ 0) (ht : ∀ b ∈ bs, ModernTime b.v4Time ∧ ModernTime b.v6Time)
    (s : Saver) (h : runSaver env bs = some s) (zone : Int → Int) (hzone : ∀ t, (zone t).natAbs < 1440) (senv : EventSocket.Env)
    (hm : senv.marshal = marshalEvent zone) (st : EventSocket.State) (hr : EventSocket.Reachable senv (saverEvents s.trace) st) (c : Nat)
    (hreg : st.regAt c = some 0) (hfail : st.failedAt c = none) (hp : ¬ st.pending c) (fin : GoErr) (hfin : fin = .eof ∨ fin = .connClosed) :
    (mustRun ⟨st.delivered c, fin⟩).2 = .returns
    ∧ ∀ k, ∃ out, NotesOfRun k (history env.exclude bs) out ∧ notesOf (env.uuid k) (mustRun ⟨st.delivered c, fin⟩).1 <+: out
      ∧ (st.distributed.length = (saverEvents s.trace).length → notesOf (env.uuid k) (mustRun ⟨st.delivered c, fin⟩).1 = out) := by
  obtain ⟨h1, h2⟩ := told env hu hnow bs ht s h zone hzone senv hm st hr c hreg hfail hp fin hfin
  exact ⟨h1, fun k => ⟨_, C66_events_partial env hf hv bs hI hz s h k, h2 (env.uuid k)⟩⟩

-- non-vacuity: two connections, one vanishes; the server distributes all four events to client 5
example : ∀ t, ModernTime (exEnv.wall t) := by
  intro t; show ModernTime (t % 4102444800000000000); unfold ModernTime year0 year10000; omega
def subBlocks : List MessageBlock := [exBlock 1600000000000000000 [exMsg 1 0 5, exMsg 2 0 1], exBlock 1600000001000000000 [exMsg 1 0 5]]
def subEvents : List FlowEvent := ((runSaver exEnv subBlocks).map (fun s => saverEvents s.trace)).getD []
def subSchedule : List EventSocket.Choice :=
  [.accept 5, .serve, .produce, .produce, .produce, .produce] ++ ([.notify, .notify, .notify, .write 5, .notify] ++ [.notify, .notify, .notify, .write 5, .notify]
    ++ [.notify, .notify, .notify, .write 5, .notify] ++ [.notify, .notify, .notify, .write 5, .notify])
def subState : Option EventSocket.State := (EventSocket.init subEvents).exec exClientEnv subSchedule
example : (subState.map (fun s => (s.regAt 5, s.failedAt 5, decide (s.npc = .check), decide (s.distributed.length = 4 ∧ subEvents.length = 4)))) =
    some (some 0, none, true, true) := by decide +kernel
example : (subState.map (fun s => notesOf "1" (mustRun ⟨s.delivered 5, .eof⟩).1)) =
    some [.opened 1600000000000000000 (some ⟨8080, 80, "10.1.2.3", "8.8.8.8", 0, 1⟩), .closed] := by decide +kernel
example : (subState.map (fun s => notesOf "2" (mustRun ⟨s.delivered 5, .eof⟩).1)) =
    some [.opened 1600000000000000000 (some ⟨8080, 80, "10.1.2.3", "8.8.8.8", 0, 2⟩), .closed] := by decide +kernel
example : ∀ b ∈ subBlocks, ModernTime b.v4Time ∧ ModernTime b.v6Time := by unfold ModernTime year0 year10000; decide

end TcpInfo
