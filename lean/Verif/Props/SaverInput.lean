import Verif.Props.SaverRuns
import Verif.Props.RouteAttr
import Verif.Props.Record
import Verif.Props.Collector
/-!
# C49, C50, C57: excluded, malformed and missing messages
-/

namespace TcpInfo
open Spec

/-- Remove messages from a block. -/
def MessageBlock.keeping (keep : Option NetlinkMessage → Bool) (b : MessageBlock) : MessageBlock :=
  { b with v4Messages := b.v4Messages.filter keep, v6Messages := b.v6Messages.filter keep }

/-- Messages the saver ignores. -/
def Ignored (ex : Option ExcludeConfig) (m : Option NetlinkMessage) : Prop :=
  m = none ∨ ∃ x, m = some x ∧ ((∃ e, makeArchivalRecord x ex = .err e) ∨ makeArchivalRecord x ex = .ok none)

theorem handleType_keeping (env : Env) (t : Int) (keep : Option NetlinkMessage → Bool) (msgs : List (Option NetlinkMessage)) (s : Saver) (a b : UInt64)
    (h : ∀ m ∈ msgs, keep m = false → Ignored env.exclude m) : s.handleType env t (msgs.filter keep) a b = s.handleType env t msgs a b := by
  induction msgs generalizing s a b with
  | nil => rfl
  | cons m msgs ih =>
    have ih := fun s a b => ih s a b (fun m' hm => h m' (by simp [hm]))
    rw [List.filter_cons]
    by_cases hk : keep m = true
    · rw [if_pos hk]
      cases m with
      | none => exact ih s a b
      | some x =>
        simp only [Saver.handleType]
        cases makeArchivalRecord x env.exclude with
        | panic => rfl
        | err e => exact ih s a b
        | ok o =>
          cases o with
          | none => exact ih s a b
          | some ar =>
            simp only
            cases s.swapAndQueue env { ar with timestamp := t } with
            | none => rfl
            | some s1 => exact ih s1 _ _
    · rw [if_neg hk]
      rcases h m (by simp) (by simpa using hk) with rfl | ⟨x, rfl, ⟨e, he⟩ | he⟩
      · exact ih s a b
      · simp only [Saver.handleType, he]; exact ih s a b
      · simp only [Saver.handleType, he]; exact ih s a b

theorem runSaver_keeping (env : Env) (keep : Option NetlinkMessage → Bool) (bs : List MessageBlock)
    (h : ∀ b ∈ bs, ∀ m ∈ b.v4Messages ++ b.v6Messages, keep m = false → Ignored env.exclude m) :
    runSaver env (bs.map (·.keeping keep)) = runSaver env bs := by
  have hb : ∀ (bs : List MessageBlock), (∀ b ∈ bs, ∀ m ∈ b.v4Messages ++ b.v6Messages, keep m = false → Ignored env.exclude m) → ∀ l : LoopState,
      LoopState.blocks env (bs.map (·.keeping keep)) l = LoopState.blocks env bs l := by
    intro bs
    induction bs with
    | nil => intro _ _; rfl
    | cons b bs ih =>
      intro h l
      have h4 := handleType_keeping env b.v4Time keep b.v4Messages l.svr 0 0 (fun m hm => h b (by simp) m (by simp [hm]))
      have e : l.block env (b.keeping keep) = l.block env b := by
        unfold LoopState.block MessageBlock.keeping
        simp only
        rw [h4]
        cases l.svr.handleType env b.v4Time b.v4Messages 0 0 with
        | none => rfl
        | some r =>
          obtain ⟨s, x, y⟩ := r
          simp only
          rw [handleType_keeping env b.v6Time keep b.v6Messages s 0 0 (fun m hm => h b (by simp) m (by simp [hm]))]
      simp only [List.map_cons, LoopState.blocks, e]
      cases l.block env b with
      | none => rfl
      | some l1 => exact ih (fun b' hb' => h b' (by simp [hb'])) l1
  unfold runSaver runBlocks
  rw [hb bs h]

/-! ## C50 -/

/-- A message that does not describe a connection: nil, of another type, too short for a header, or with an attribute whose length field is below
4 or beyond the end of the message. -/
def Malformed : Option NetlinkMessage → Prop
  | none => True
  | some m => m.header.type ≠ 20 ∨ m.data.length < 72
    ∨ ∃ (hdr : Bytes) (l : List (Attr × Bytes)) (rest : Bytes), m.data = hdr ++ attrsWire l ++ rest ∧ hdr.length = 72
        ∧ (∀ p ∈ l, p.1.value.length ≤ 65531 ∧ GoodPad p.1 p.2) ∧ 4 ≤ rest.length ∧ (lenField rest < 4 ∨ rest.length < lenField rest)

theorem malformed_ignored (ex : Option ExcludeConfig) (m : Option NetlinkMessage) (h : Malformed m) : Ignored ex m := by
  cases m with
  | none => exact Or.inl rfl
  | some m =>
    refine Or.inr ⟨m, rfl, ?_⟩
    by_cases ht : m.header.type = 20
    · by_cases hl : m.data.length < 72
      · exact Or.inl ⟨_, (C11_errors m ex).2 ht hl⟩
      · rcases h with h | h | ⟨hdr, l, rest, hd, hh, hg, h4, hbad⟩
        · exact absurd ht h
        · exact absurd h hl
        · have hdrop : m.data.drop 72 = attrsWire l ++ rest := by rw [hd, List.append_assoc, List.drop_left' hh]
          obtain ⟨e, he⟩ := (C09_error_iff (m.data.drop 72) m.spare).2 ⟨l, rest, hdrop, hg, h4, hbad⟩
          have hmk : makeArchivalRecord m none = .err e := by
            simp only [makeArchivalRecord, ht, splitInetDiagMsg_ok (show 72 ≤ m.data.length by omega), ne_eq, not_true_eq_false, if_false, makeRecord, he]
          cases ex with
          | none => exact Or.inl ⟨e, hmk⟩
          | some ex =>
            rcases (C11_otherwise_unaffected m).2 ex with h1 | h1
            · exact Or.inr h1
            · exact Or.inl ⟨e, h1.trans hmk⟩
    · exact Or.inl ⟨_, (C11_errors m ex).1 ht⟩

/-- C50 (partial: the fourth kind of malformed message, an attribute whose padding is cut off, crashes the saver, see `C50_violated`).
Removing any malformed messages from the blocks changes nothing at all. -/
theorem C50_malformed_partial (env : Env) (bs : List MessageBlock) (keep : Option NetlinkMessage → Bool)
    (h : ∀ b ∈ bs, ∀ m ∈ b.v4Messages ++ b.v6Messages, keep m = false → Malformed m) :
    runSaver env (bs.map (·.keeping keep)) = runSaver env bs :=
  runSaver_keeping env keep bs (fun b hb m hm hk => malformed_ignored _ m (h b hb m hm hk))

-- non-vacuity: a nil message and one with an attribute of length 3 between two good ones
example : Malformed none ∧ Malformed (exMsgA 3 [3, 0, 1, 0])
    ∧ ((runSaver exEnv [exBlock 1 [exMsg 1 0 1, none, exMsgA 3 [3, 0, 1, 0], exMsg 2 0 1]]).map (fun s => (written s.trace).map ck)) = some [1, 2] := by
  refine ⟨trivial, ?_, by decide +kernel⟩
  refine Or.inr (Or.inr ⟨((exMsgA 3 []).map (·.data)).getD [], [], [3, 0, 1, 0], ?_, ?_, by simp, by decide, by decide⟩)
  · decide +kernel
  · decide +kernel

/-- C50 violated: a message with an attribute whose padding is cut off takes the whole process down. -/
theorem C50_violated : runSaver exEnv [exBlock 1 [exMsg 1 0 1, exMsgA 3 [5, 0, 1, 0, 42], exMsg 2 0 1]] = none
    ∧ runSaver exEnv [exBlock 1 [exMsg 1 0 1, exMsg 2 0 1]] ≠ none := by decide +kernel

/-! ## C49 -/

/-- The message is a connection that the configuration excludes. -/
def ExcludedMsg (ex : ExcludeConfig) (m : Option NetlinkMessage) : Prop :=
  ∃ x, m = some x ∧ x.header.type = 20 ∧ ∃ (d : DiagMsg) (rest : Bytes), x.data = d.wire ++ rest
    ∧ Excluded (ex.srcPorts.getD []) ex.localConns (ex.dstIPs.getD []) d

/-- C49. Excluded messages have no effect: the run is the same as if any of them were removed. -/
theorem C49_no_effect (env : Env) (ex : ExcludeConfig) (hex : env.exclude = some ex) (bs : List MessageBlock) (keep : Option NetlinkMessage → Bool)
    (h : ∀ b ∈ bs, ∀ m ∈ b.v4Messages ++ b.v6Messages, keep m = false → ExcludedMsg ex m) :
    runSaver env (bs.map (·.keeping keep)) = runSaver env bs := by
  refine runSaver_keeping env keep bs (fun b hb m hm hk => ?_)
  obtain ⟨x, rfl, ht, d, rest, hd, he⟩ := h b hb m hm hk
  rw [hex]
  exact Or.inr ⟨x, rfl, Or.inr ((C11_excluded_iff x ex).2 ⟨ht, d, rest, hd, he⟩)⟩

theorem reported_not_excluded (ex : ExcludeConfig) (t : Int) (m : Option NetlinkMessage) (r : ArchivalRecord) (h : reportOf (some ex) t m = some r)
    (d : DiagMsg) (hd : r.rawIDM = some d.wire) : ¬ Excluded (ex.srcPorts.getD []) ex.localConns (ex.dstIPs.getD []) d := by
  intro he
  unfold reportOf at h
  split at h
  · simp at h
  · rename_i x
    split at h
    · rename_i r0 hr
      injection h with h; subst h
      obtain ⟨ht, hl, hmk⟩ := makeArchivalRecord_some hr
      have hraw : r0.rawIDM = some (x.data.take 72) := by
        unfold makeRecord at hmk
        split at hmk
        · simp at hmk
        · simp at hmk
        · simp at hmk
        · simp only at hmk
          injection hmk with h2; injection h2 with h2; rw [← h2]
      have hd : r0.rawIDM = some d.wire := hd
      rw [hraw] at hd
      injection hd with hd
      have : makeArchivalRecord x (some ex) = .ok none :=
        (C11_excluded_iff x ex).2 ⟨ht, d, x.data.drop 72, by rw [← hd, List.take_append_drop], he⟩
      rw [this] at hr; simp at hr
    · simp at h

/-- C49. No record written (to any file) is that of an excluded connection. -/
theorem C49_records (env : Env) (ex : ExcludeConfig) (hex : env.exclude = some ex) (bs : List MessageBlock) (s : Saver) (h : runSaver env bs = some s)
    (r : ArchivalRecord) (hr : r ∈ written s.trace) (d : DiagMsg) (hd : r.rawIDM = some d.wire) :
    ¬ Excluded (ex.srcPorts.getD []) ex.localConns (ex.dstIPs.getD []) d := by
  have := (runSaver_written_reported env bs s h).subset hr
  obtain ⟨b, -, hb⟩ := List.mem_flatMap.1 this
  rw [hex] at hb
  rcases List.mem_append.1 hb with hb | hb
  · obtain ⟨m, -, hm⟩ := List.mem_filterMap.1 hb; exact reported_not_excluded ex _ m r hm d hd
  · obtain ⟨m, -, hm⟩ := List.mem_filterMap.1 hb; exact reported_not_excluded ex _ m r hm d hd

/-- A connection appears in the output: an event is sent for it or a file opened. -/
def Mentioned (u : String) (tr : List Stamped) : Prop :=
  ∃ a ∈ tr, (∃ t id, a.act = .flowCreated t u id) ∨ (∃ t, a.act = .flowDeleted t u) ∨ (∃ w n hd, a.act = .openFile w n hd ∧ n.uuid = u)

theorem flowEvents_ne_nil (u : String) (tr : List Stamped) :
    flowEvents u tr ≠ [] ↔ ∃ a ∈ tr, (∃ t id, a.act = .flowCreated t u id) ∨ ∃ t, a.act = .flowDeleted t u := by
  have hl : ∀ a : Stamped, (flowEvent u a ≠ none ↔ (∃ t id, a.act = .flowCreated t u id) ∨ ∃ t, a.act = .flowDeleted t u) := by
    rintro ⟨tm, act⟩
    cases act with
    | flowCreated t u' id => by_cases h : u' = u <;> simp [flowEvent, h]
    | flowDeleted t u' => by_cases h : u' = u <;> simp [flowEvent, h]
    | _ => simp [flowEvent]
  have : flowEvents u tr = tr.filterMap (flowEvent u) := rfl
  rw [this]
  constructor
  · intro h
    obtain ⟨b, hb⟩ := List.exists_mem_of_ne_nil _ h
    obtain ⟨a, ha, he⟩ := List.mem_filterMap.1 hb
    exact ⟨a, ha, (hl a).1 (by rw [he]; simp)⟩
  · rintro ⟨a, ha, he⟩ hn
    obtain ⟨b, hb⟩ := Option.ne_none_iff_exists'.1 ((hl a).2 he)
    have : b ∈ tr.filterMap (flowEvent u) := List.mem_filterMap.2 ⟨a, ha, hb⟩
    rw [hn] at this; simp at this

/-- Invariant: connections in the map and files have had an event. -/
structure MentionInv (env : Env) (s : Saver) : Prop where
  conns : ∀ k, s.conns.get k ≠ none → flowEvents (env.uuid k) s.trace ≠ []
  files : ∀ a ∈ s.trace, ∀ w n hd, a.act = .openFile w n hd → flowEvents n.uuid s.trace ≠ []

theorem flowEvents_append_ne (u : String) (tr tr' : List Stamped) (h : flowEvents u tr ≠ []) : flowEvents u (tr ++ tr') ≠ [] := by
  rw [flowEvents_ne_nil] at h ⊢
  obtain ⟨a, ha, h⟩ := h
  exact ⟨a, by simp [ha], h⟩

theorem mentionInv_step (env : Env) (s t : Saver) (hst : Step env s t) (hi : FInv env s ∧ MentionInv env s) : FInv env t ∧ MentionInv env t := by
  obtain ⟨hf, hm⟩ := hi
  refine ⟨finv_step env s t hst hf, ?_⟩
  have grow : ∀ (t : Saver) (x : List Stamped), t.trace = s.trace ++ x → (∀ k, t.conns.get k ≠ none → s.conns.get k ≠ none ∨ flowEvents (env.uuid k) t.trace ≠ []) →
      (∀ a ∈ x, ∀ w n hd, a.act = .openFile w n hd → flowEvents n.uuid t.trace ≠ []) → MentionInv env t := by
    intro t x ht hc hx
    refine ⟨fun k hk => ?_, fun a ha w n hd he => ?_⟩
    · rcases hc k hk with h | h
      · rw [ht]; exact flowEvents_append_ne _ _ _ (hm.conns k h)
      · exact h
    · rw [ht] at ha
      rcases List.mem_append.1 ha with ha | ha
      · rw [ht]; exact flowEvents_append_ne _ _ _ (hm.files a ha w n hd he)
      · exact hx a ha w n hd he
  have sets : ∀ k0 c0 c k, s.conns.get k0 = some c0 → (s.conns.set k0 c).get k ≠ none → s.conns.get k ≠ none := by
    intro k0 c0 c k h0 h
    rw [GoMap.get_set] at h
    split at h
    · rename_i e; rw [e, h0]; simp
    · exact h
  cases hst with
  | other h1 h2 h3 h4 h5 => exact grow t [] (by simp [h3]) (fun k h => by rw [h1] at h; exact Or.inl h) (by simp)
  | clock => exact grow _ [] (by simp [Saver.readClock]) (fun k h => Or.inl h) (by simp)
  | observe a ha =>
    refine grow _ [⟨s.clock, a⟩] rfl (fun k h => Or.inl h) ?_
    intro b hb w n hd he
    have : b = ⟨s.clock, a⟩ := by simpa using hb
    subst this
    rcases ha with ⟨n, rfl⟩ | ⟨n, rfl⟩ <;> simp at he
  | create k0 idm ts hn hk0 hk =>
    refine grow _ [⟨s.clock, .flowCreated ts (env.uuid k0) idm.id.getSockID⟩] rfl ?_ (by simp)
    intro k h
    by_cases hkk : k = k0
    · refine Or.inr ?_
      rw [flowEvents_ne_nil]
      exact ⟨⟨s.clock, .flowCreated ts (env.uuid k0) idm.id.getSockID⟩, by simp [Saver.emit], Or.inl ⟨ts, _, by rw [hkk]⟩⟩
    · have h : (s.conns.set k0 (newConnection idm ts s.clock)).get k ≠ none := h
      rw [GoMap.get_set_ne _ _ hkk] at h
      exact Or.inl h
  | closeExpired k0 c w hk hw hexp => exact grow _ [⟨s.clock, .send (queueOf env k0) ⟨none, some w⟩⟩] rfl (fun k h => Or.inl (sets k0 c _ k hk h)) (by simp)
  | touch k0 c hk => exact grow _ [] (by simp) (fun k h => Or.inl (sets k0 c _ k hk h)) (by simp)
  | rotate k0 c dir hk hw hd0 hd1 =>
    refine grow _ [⟨s.clock, .openFile s.nextWriter ⟨dir, env.uuid c.id.cookieUint64, c.sequence⟩ (headerRecord env c)⟩] rfl (fun k h => Or.inl (sets k0 c _ k hk h)) ?_
    intro b hb w n hd he
    have : b = ⟨s.clock, .openFile s.nextWriter ⟨dir, env.uuid c.id.cookieUint64, c.sequence⟩ (headerRecord env c)⟩ := by simpa using hb
    subst this
    injection he with h1 h2 h3
    subst h2
    refine flowEvents_append_ne _ _ _ ?_
    simp only
    rw [hf.cookie k0 c hk]
    exact hm.conns k0 (by rw [hk]; simp)
  | write k0 c w msg idm hk hw hp hck hexp => exact grow _ [⟨s.clock, .send (queueOf env k0) ⟨some msg, some w⟩⟩] rfl (fun k h => Or.inl h) (by simp)
  | endClose k0 c w hk hw =>
    refine grow _ [⟨s.clock, .flowDeleted (env.wall s.clock) (env.uuid k0)⟩, ⟨s.clock, .send (queueOf env k0) ⟨none, some w⟩⟩] (by simp [Saver.emit]) ?_ (by simp)
    intro k h
    refine Or.inl (fun hn => h ?_)
    show (s.conns.del k0).get k = none
    rw [GoMap.get_del]; split
    · rfl
    · exact hn
  | endGone k0 hg => exact grow _ [⟨s.clock, .flowDeleted (env.wall s.clock) (env.uuid k0)⟩] rfl (fun k h => Or.inl h) (by simp)

theorem mentionInv_run {env : Env} {s : Saver} (h : Steps env newSaver s) : MentionInv env s :=
  (h.inv (mentionInv_step env) ⟨finv_new env, ⟨fun k h => by simp [newSaver, GoMap.get] at h, fun a ha => by simp [newSaver] at ha⟩⟩).2

theorem swap_flow (env : Env) (s : Saver) (r : ArchivalRecord) (hr : complete r = true) (s' : Saver) (h : s.swapAndQueue env r = some s') (u : String)
    (hu : u ≠ env.uuid (ck r)) : flowEvents u s'.trace = flowEvents u s.trace := by
  obtain ⟨idm, hidm, hck⟩ := cookieOf_parse hr
  have hq : ∀ s0 : Saver, s0.trace = s.trace → ((s0.queue env r).map (·.1) = some s') → flowEvents u s'.trace = flowEvents u s.trace := by
    intro s0 ht he
    obtain ⟨s1, e, e1, -, -, -, e5, -⟩ := queue_effect env s0 r idm hidm
    rw [e1] at he
    have : s1 = s' := by simpa using he
    subst this
    rw [e5, ht, hck]
    simp [hu]
  unfold Saver.swapAndQueue at h
  simp only at h
  split at h
  · simp at h
  · injection h with h; subst h; rfl
  · exact hq _ (by rfl) h
  · split at h
    · simp at h
    · injection h with h; subst h; rfl
    · split at h
      · simp at h
      · injection h with h; subst h; simp only [recordClosing_trace]
      · split at h
        · exact hq _ (by simp only [recordClosing_trace]) h
        · injection h with h; subst h; simp only [recordClosing_trace]

theorem endConn_flow (env : Env) (s : Saver) (k : UInt64) (s' : Saver) (h : s.endConn env k = some s') (u : String) :
    flowEvents u s'.trace = flowEvents u s.trace ++ (if u = env.uuid k then [false] else []) := by
  by_cases hm : env.marshallers = 0
  · unfold Saver.endConn at h; simp [hm] at h
  · obtain ⟨s1, e1, -, -, e4, -⟩ := endConn_effect env hm s k
    have : s1 = s' := Option.some.inj (e1.symm.trans h)
    subst this; exact e4 u

theorem expireAll_flow (env : Env) (res : GoMap ArchivalRecord) (ks : List UInt64) (l l' : LoopState) (h : LoopState.expireAll env res ks l = some l')
    (u : String) (hu : ∀ k ∈ ks, u ≠ env.uuid k) : flowEvents u l'.svr.trace = flowEvents u l.svr.trace := by
  induction ks generalizing l with
  | nil => simp only [LoopState.expireAll] at h; injection h with h; subst h; rfl
  | cons k ks ih =>
    simp only [LoopState.expireAll] at h
    obtain ⟨l1, h1, h2⟩ := Option.bind_eq_some_iff.1 h
    rw [ih l1 h2 (fun k' hk' => hu k' (by simp [hk']))]
    unfold LoopState.expire at h1
    split at h1
    · injection h1 with h1; subst h1; rfl
    · simp only at h1
      split at h1
      · simp at h1
      · rename_i s1 hs
        injection h1 with h1; subst h1
        show flowEvents u s1.trace = _
        rw [endConn_flow env _ k s1 hs u, if_neg (hu k (by simp)), List.append_nil, (finalStats_frame _ _ _).2.1]

theorem endAll_flow (env : Env) (ks : List UInt64) (s s' : Saver) (h : Saver.endAll env ks s = some s')
    (u : String) (hu : ∀ k ∈ ks, u ≠ env.uuid k) : flowEvents u s'.trace = flowEvents u s.trace := by
  induction ks generalizing s with
  | nil => simp only [Saver.endAll] at h; injection h with h; subst h; rfl
  | cons k ks ih =>
    simp only [Saver.endAll] at h
    obtain ⟨s1, h1, h2⟩ := Option.bind_eq_some_iff.1 h
    rw [ih s1 h2 (fun k' hk' => hu k' (by simp [hk'])), endConn_flow env s k s1 h1 u, if_neg (hu k (by simp)), List.append_nil]

theorem cycles_mem (h : List Call) : ∀ r, r ∈ (cycles h).1 ∨ r ∈ (cycles h).2 → Call.update r ∈ h := by
  refine snoc_induction (P := fun h => ∀ r, r ∈ (cycles h).1 ∨ r ∈ (cycles h).2 → Call.update r ∈ h) ?_ ?_ h
  · intro r hr; simp [cycles] at hr
  · intro h c ih r hr
    cases c with
    | endCycle =>
      rw [cycles_endCycle] at hr
      rcases hr with hr | hr
      · simp [ih r (Or.inr hr)]
      · simp at hr
    | update x =>
      rw [cycles_update] at hr
      rcases hr with hr | hr
      · simp [ih r (Or.inl hr)]
      · simp only at hr
        split at hr
        · rcases List.mem_append.1 hr with hr | hr
          · simp [ih r (Or.inr hr)]
          · have : r = x := by simpa using hr
            simp [this]
        · simp [ih r (Or.inr hr)]

theorem mem_history {ex : Option ExcludeConfig} {bs : List MessageBlock} {r : ArchivalRecord} (h : Call.update r ∈ history ex bs) :
    r ∈ bs.flatMap (reports ex) := by
  unfold history at h
  obtain ⟨b, hb, h⟩ := List.mem_flatMap.1 h
  rcases List.mem_append.1 h with h | h
  · obtain ⟨x, hx, e⟩ := List.mem_map.1 h
    injection e with e; subst e
    exact List.mem_flatMap.2 ⟨b, hb, hx⟩
  · simp at h

theorem run_flow (env : Env) (bs : List MessageBlock) (l : LoopState) (h : runBlocks env bs = some l) (u : String)
    (hu : flowEvents u l.svr.trace ≠ []) : ∃ r ∈ bs.flatMap (reports env.exclude), u = env.uuid (ck r) := by
  have key := run_induct env (fun h l => l.svr.cache = cacheAfter h ∧ (flowEvents u l.svr.trace ≠ [] → ∃ r, Call.update r ∈ h ∧ u = env.uuid (ck r)))
    (fun _ => True) ⟨rfl, fun h => by simp [newLoop, newSaver, flowEvents] at h⟩ ?_ ?_ bs (fun _ _ _ _ => trivial) l h
  · obtain ⟨r, hr, e⟩ := key.2 hu
    exact ⟨r, mem_history hr, e⟩
  · rintro h l r s' hr - ⟨hc, hp⟩ hs
    refine ⟨?_, fun hne => ?_⟩
    · show s'.cache = _
      rw [swapAndQueue_cache env _ r s' hs, hc, cacheAfter_update]
    · by_cases he : u = env.uuid (ck r)
      · exact ⟨r, by simp, he⟩
      · have hne : flowEvents u s'.trace ≠ [] := hne
        rw [swap_flow env l.svr r hr s' hs u he] at hne
        obtain ⟨x, hx, e⟩ := hp hne
        exact ⟨x, by simp [hx], e⟩
  · rintro h l l1 t s4 s6 r4 r6 ⟨hc, hp⟩ hf - -
    refine ⟨by rw [report_cache, finish_cache env l l1 hf, hc, cacheAfter_endCycle], fun hne => ?_⟩
    rw [(report_effect l1 t s4 s6 r4 r6).2.2.2.2.2.2] at hne
    by_cases he : ∃ k ∈ env.order l.svr.tick l.svr.cache.endCycle.2.keys, u = env.uuid k
    · obtain ⟨k, hk, e⟩ := he
      rw [(env.order_perm _ _).mem_iff, hc, residual_mem] at hk
      obtain ⟨p, hp'⟩ := Option.ne_none_iff_exists'.1 hk.1
      obtain ⟨hm, hck⟩ := lastFor_mem hp'
      exact ⟨p, by simp [cycles_mem h p (Or.inl hm)], by rw [e]; exact congrArg env.uuid hck.symm⟩
    · rw [expireAll_flow env _ _ _ _ hf u (fun k hk e => he ⟨k, hk, e⟩)] at hne
      obtain ⟨x, hx, e⟩ := hp hne
      exact ⟨x, by simp [hx], e⟩

/-- C49. Only connections that were reported (hence not excluded) appear in the output: every UUID for which an event is sent or a file opened is
that of a reported record. -/
theorem C49_only_reported (env : Env) (bs : List MessageBlock) (s : Saver) (h : runSaver env bs = some s) (u : String) (hu : Mentioned u s.trace) :
    ∃ r ∈ bs.flatMap (reports env.exclude), u = env.uuid (ck r) := by
  obtain ⟨l, s1, h1, h2, rfl, h4⟩ := steps_runSaver env bs s h
  have hm := mentionInv_run h4
  have hml := mentionInv_run (steps_run env bs l h1)
  have e1 : flowEvents u s1.trace ≠ [] := by
    obtain ⟨a, ha, he⟩ := hu
    rcases List.mem_append.1 ha with ha | ha
    · rcases he with he | he | ⟨w, n, hd, he, rfl⟩
      · exact (flowEvents_ne_nil _ _).2 ⟨a, ha, Or.inl he⟩
      · exact (flowEvents_ne_nil _ _).2 ⟨a, ha, Or.inr he⟩
      · exact hm.files a ha w n hd he
    · have : a = ⟨s1.clock, .closeChans⟩ := by simpa using ha
      subst this; simp at he
  by_cases he : ∃ k ∈ env.order l.svr.tick l.svr.conns.keys, u = env.uuid k
  · obtain ⟨k, hk, rfl⟩ := he
    rw [(env.order_perm _ _).mem_iff, GoMap.mem_keys_iff] at hk
    obtain ⟨c, hc⟩ := hk
    exact run_flow env bs l h1 _ (hml.conns k (by rw [hc]; simp))
  · have e2 := endAll_flow env _ _ _ h2 u (fun k hk e => he ⟨k, hk, e⟩)
    rw [e2] at e1
    exact run_flow env bs l h1 u e1

theorem reportOf_wire (ex : Option ExcludeConfig) (t : Int) (m : Option NetlinkMessage) (r : ArchivalRecord) (h : reportOf ex t m = some r) :
    ∃ x, m = some x ∧ x.header.type = 20 ∧ ∃ (d : DiagMsg) (rest : Bytes), x.data = d.wire ++ rest ∧ r.rawIDM = some d.wire ∧ d.cookie = ck r := by
  unfold reportOf at h
  split at h
  · simp at h
  · rename_i x
    split at h
    · rename_i r0 hr
      injection h with h; subst h
      obtain ⟨ht, hl, hmk⟩ := makeArchivalRecord_some hr
      have hraw : r0.rawIDM = some (x.data.take 72) := by
        unfold makeRecord at hmk
        split at hmk
        · simp at hmk
        · simp at hmk
        · simp at hmk
        · simp only at hmk
          injection hmk with h2; injection h2 with h2; rw [← h2]
      have hlt : (x.data.take 72).length = 72 := by simp; omega
      have hcomp : complete r0 = true := by simp only [complete, hraw, Option.getD_some, hlt]; decide
      obtain ⟨idm, hp, hck⟩ := cookieOf_parse hcomp
      have hp' : parseIDM (x.data.take 72) = .ok idm := by rw [← hp]; simp [ArchivalRecord.raw, hraw]
      obtain ⟨d, hw, hag⟩ := C02_wire_parse _ hlt idm hp'
      refine ⟨x, rfl, ht, d, x.data.drop 72, by rw [hw, List.take_append_drop], by rw [hw]; exact hraw, ?_⟩
      exact hag.2.2.2.2.2.2.2.2.2.1.symm.trans hck
    · simp at h

/-- C49. If every message of connection `k` is excluded, then no event is ever sent and no file ever opened for `k`. -/
theorem C49_no_output (env : Env) (ex : ExcludeConfig) (hex : env.exclude = some ex) (bs : List MessageBlock) (s : Saver) (h : runSaver env bs = some s)
    (k : UInt64) (hk : ∀ b ∈ bs, ∀ x, some x ∈ b.v4Messages ++ b.v6Messages → ∀ (d : DiagMsg) (rest : Bytes), x.data = d.wire ++ rest → d.cookie = k →
      Excluded (ex.srcPorts.getD []) ex.localConns (ex.dstIPs.getD []) d) :
    ¬ Mentioned (env.uuid k) s.trace := by
  intro hm
  obtain ⟨r, hr, e⟩ := C49_only_reported env bs s h _ hm
  have e := env.uuid_inj _ _ e
  obtain ⟨b, hb, hr⟩ := List.mem_flatMap.1 hr
  rw [hex] at hr
  rcases List.mem_append.1 hr with hr | hr
  · obtain ⟨m, hm, hrm⟩ := List.mem_filterMap.1 hr
    obtain ⟨x, rfl, -, d, rest, hd, hraw, hck⟩ := reportOf_wire _ _ m r hrm
    exact reported_not_excluded ex _ _ r hrm d hraw (hk b hb x (by simp [hm]) d rest hd (by rw [hck, e]))
  · obtain ⟨m, hm, hrm⟩ := List.mem_filterMap.1 hr
    obtain ⟨x, rfl, -, d, rest, hd, hraw, hck⟩ := reportOf_wire _ _ m r hrm
    exact reported_not_excluded ex _ _ r hrm d hraw (hk b hb x (by simp [hm]) d rest hd (by rw [hck, e]))

/-- Exclude source port 8080. -/
def portEx : ExcludeConfig := { localConns := false, srcPorts := some [8080], dstIPs := none }

-- non-vacuity: the same messages with and without the exclusion of their source port
example : ((runSaver { exEnv with exclude := some portEx } exBlocks).map (fun s => (written s.trace, flowEvents "1" s.trace))) = some ([], [])
    ∧ ((runSaver exEnv exBlocks).map (fun s => (written s.trace).length)) = some 3 := by decide +kernel

/-! ## C57 -/

/-- C57 violated: connection 1 is alive in all three polls; the second v4 dump fails; its connection is closed and then opened again. -/
theorem C57_violated :
    ((runSaver exEnv [exBlock 1 [exMsg 1 0 1], collectBlock ([], none) 2 ([], some .badSequence) 2, exBlock 3 [exMsg 1 0 1]]).map
      (fun s => flowEvents "1" s.trace)) = some [true, false, true, false] := by decide +kernel

theorem cycles_history (ex : Option ExcludeConfig) (bs : List MessageBlock) : (cycles (history ex bs)).2 = [] := by
  rcases List.eq_nil_or_concat bs with rfl | ⟨bs, b, rfl⟩
  · rfl
  · simp only [history, List.concat_eq_append, List.flatMap_append, List.flatMap_cons, List.flatMap_nil, List.append_nil]
    rw [← List.append_assoc, cycles_endCycle]

theorem cycles_history_snoc (ex : Option ExcludeConfig) (bs : List MessageBlock) (b : MessageBlock) :
    cycles (history ex (bs ++ [b])) = (reports ex b, []) := by
  have e : history ex (bs ++ [b]) = history ex bs ++ (reports ex b).map .update ++ [.endCycle] := by simp [history]
  rw [e, cycles_endCycle, cycles_updates _ _ (fun r hr => reports_complete hr), cycles_history, List.nil_append]

/-- The events that a call adds to those of `FlowsFor`. -/
def flowStep (k : UInt64) (h : List Call) : Call → List Bool
  | .update r => if ck r = k ∧ lastFor k (cycles h).1 = none ∧ lastFor k (cycles h).2 = none then [true] else []
  | .endCycle => if lastFor k (cycles h).1 ≠ none ∧ lastFor k (cycles h).2 = none then [false] else []

theorem flowsFor_inv {k : UInt64} {hs : List Call} {o : List Bool} (h : FlowsFor k hs o) : ∀ {h0 c}, hs = h0 ++ [c] →
    ∃ o0, FlowsFor k h0 o0 ∧ o = o0 ++ flowStep k h0 c := by
  intro h0 c e
  cases h with
  | nil => simp at e
  | first h' h1 h2 h3 => obtain ⟨rfl, e2⟩ := List.append_inj' e rfl; injection e2 with e2; subst e2; exact ⟨_, h', by simp [flowStep, h1, h2, h3]⟩
  | again h' h1 h2 =>
    obtain ⟨rfl, e2⟩ := List.append_inj' e rfl; injection e2 with e2; subst e2
    exact ⟨_, h', by rw [flowStep, if_neg (by rintro ⟨-, a, b⟩; rcases h2 with h2 | h2 <;> exact absurd (by assumption) h2), List.append_nil]⟩
  | other h' h1 => obtain ⟨rfl, e2⟩ := List.append_inj' e rfl; injection e2 with e2; subst e2; exact ⟨_, h', by simp [flowStep, h1]⟩
  | gone h' h1 h2 => obtain ⟨rfl, e2⟩ := List.append_inj' e rfl; injection e2 with e2; subst e2; exact ⟨_, h', by rw [flowStep, if_pos ⟨h1, h2⟩]⟩
  | stays h' h1 =>
    obtain ⟨rfl, e2⟩ := List.append_inj' e rfl; injection e2 with e2; subst e2
    exact ⟨_, h', by rw [flowStep, if_neg (by rintro ⟨a, b⟩; rcases h1 with h1 | h1; exact a h1; exact h1 b), List.append_nil]⟩

theorem flowsFor_inj {k : UInt64} {hs : List Call} {o : List Bool} (h : FlowsFor k hs o) : ∀ o', FlowsFor k hs o' → o = o' := by
  suffices hgen : ∀ (n : Nat) (hs : List Call), hs.length = n → ∀ o o', FlowsFor k hs o → FlowsFor k hs o' → o = o' from fun o' h' => hgen _ hs rfl o o' h h'
  intro n
  induction n with
  | zero =>
    intro hs hl o o' h h'
    have : hs = [] := List.length_eq_zero_iff.1 hl
    subst this
    have z : ∀ {o}, FlowsFor k [] o → o = [] := by
      intro o h
      generalize e : ([] : List Call) = hs at h
      cases h <;> simp at e ⊢
    rw [z h, z h']
  | succ n ih =>
    intro hs hl o o' h h'
    rcases List.eq_nil_or_concat hs with rfl | ⟨h0, c, rfl⟩
    · simp at hl
    · rw [List.concat_eq_append] at *
      obtain ⟨o1, h1, rfl⟩ := flowsFor_inv h rfl
      obtain ⟨o2, h2, rfl⟩ := flowsFor_inv h' rfl
      rw [ih h0 (by simpa using hl) o1 o2 h1 h2]

theorem flowsFor_others {k : UInt64} {h : List Call} {o : List Bool} (rs : List ArchivalRecord) (hrs : ∀ r ∈ rs, ck r ≠ k)
    (hf : FlowsFor k (h ++ rs.map .update) o) : FlowsFor k h o := by
  suffices hgen : ∀ (n : Nat) (rs : List ArchivalRecord), rs.length = n → (∀ r ∈ rs, ck r ≠ k) → ∀ o, FlowsFor k (h ++ rs.map .update) o → FlowsFor k h o from
    hgen _ rs rfl hrs o hf
  intro n
  induction n with
  | zero => intro rs hl _ o hf; have : rs = [] := List.length_eq_zero_iff.1 hl; subst this; simpa using hf
  | succ n ih =>
    intro rs hl hrs o hf
    rcases List.eq_nil_or_concat rs with rfl | ⟨rs0, r, rfl⟩
    · simp at hl
    · rw [List.concat_eq_append] at *
      obtain ⟨o1, h1, rfl⟩ := flowsFor_inv hf (h0 := h ++ rs0.map .update) (c := .update r) (by simp)
      rw [flowStep, if_neg (by rintro ⟨a, -⟩; exact hrs r (by simp) a), List.append_nil]
      exact ih rs0 (by simpa using hl) (fun r hr => hrs r (by simp [hr])) o1 h1

/-- C57 violated, in general (files can be created, cookies are not 0): whenever a dump of one family fails, every connection that was reported by the poll
before and is not reported by the other family's dump is closed at once. -/
theorem C57_violated_always (env : Env) (hf : NoFaults env) (hv : ViewOK env) (bs : List MessageBlock) (b : MessageBlock)
    (res6 res4 : List NetlinkMessage × Option GoErr) (t6 t4 : Int) (hI : ∀ x ∈ bs ++ [b] ++ [collectBlock res6 t6 res4 t4], AllInfoOK env.exclude x)
    (hz : ∀ x ∈ bs ++ [b] ++ [collectBlock res6 t6 res4 t4], ∀ r ∈ reports env.exclude x, ck r ≠ 0) (l l' : LoopState)
    (h : runBlocks env (bs ++ [b]) = some l) (h' : runBlocks env (bs ++ [b] ++ [collectBlock res6 t6 res4 t4]) = some l')
    (r : ArchivalRecord) (hr : r ∈ reports env.exclude b)
    (hfail : (res4.2 ≠ none ∧ ∀ m ∈ res6.1, ∀ r', reportOf env.exclude t6 (some m) = some r' → ck r' ≠ ck r)
      ∨ (res6.2 ≠ none ∧ ∀ m ∈ res4.1, ∀ r', reportOf env.exclude t4 (some m) = some r' → ck r' ≠ ck r)) :
    flowEvents (env.uuid (ck r)) l'.svr.trace = flowEvents (env.uuid (ck r)) l.svr.trace ++ [false] := by
  have hno : ∀ r' ∈ reports env.exclude (collectBlock res6 t6 res4 t4), ck r' ≠ ck r := by
    intro r' hr'
    have key : ∀ (res : List NetlinkMessage × Option GoErr) (t : Int), (∀ m ∈ res.1, ∀ r', reportOf env.exclude t (some m) = some r' → ck r' ≠ ck r) →
        r' ∈ (match res.2 with | some _ => [] | none => res.1.map some).filterMap (reportOf env.exclude t) → ck r' ≠ ck r := by
      intro res t hres hm
      obtain ⟨m, hm, e⟩ := List.mem_filterMap.1 hm
      split at hm
      · simp at hm
      · obtain ⟨x, hx, rfl⟩ := List.mem_map.1 hm
        exact hres x hx r' e
    have none' : ∀ (res : List NetlinkMessage × Option GoErr) (t : Int), res.2 ≠ none →
        r' ∉ (match res.2 with | some _ => [] | none => res.1.map some).filterMap (reportOf env.exclude t) := by
      intro res t hres hm
      split at hm
      · simp at hm
      · rename_i hn; exact hres hn
    rcases List.mem_append.1 hr' with hm | hm <;> rcases hfail with ⟨h1, h2⟩ | ⟨h1, h2⟩
    · exact absurd hm (none' res4 t4 h1)
    · exact key res4 t4 h2 hm
    · exact key res6 t6 h2 hm
    · exact absurd hm (none' res6 t6 h1)
  have hI0 : ∀ x ∈ bs ++ [b], AllInfoOK env.exclude x := fun x hx => hI x (List.mem_append_left _ hx)
  rw [runBlocks_view env hv _ hI0] at h
  rw [runBlocks_view env hv _ hI] at h'
  have f1 := flowInv_run env.still ⟨hf.create, hf.marshallers⟩ (still_view env) _ hI0 (fun x hx => hz x (List.mem_append_left _ hx)) l h
  have f2 := flowInv_run env.still ⟨hf.create, hf.marshallers⟩ (still_view env) _ hI hz l' h'
  obtain ⟨o, ho, e⟩ := flowsFor_inv (f2.flows (ck r)) (h0 := history env.exclude (bs ++ [b]) ++ (reports env.exclude (collectBlock res6 t6 res4 t4)).map .update)
    (c := .endCycle) (by simp [history, Env.still])
  have ho' := flowsFor_others _ hno ho
  have hl := flowsFor_inj (f1.flows (ck r)) _ ho'
  have hc : cycles (history env.exclude (bs ++ [b]) ++ (reports env.exclude (collectBlock res6 t6 res4 t4)).map .update)
      = (reports env.exclude b, reports env.exclude (collectBlock res6 t6 res4 t4)) := by
    rw [cycles_updates _ _ (fun r hr => reports_complete hr), cycles_history_snoc, List.nil_append]
  have h1 : lastFor (ck r) (reports env.exclude b) ≠ none := by
    unfold lastFor
    rw [ne_eq, List.getLast?_eq_none_iff, List.filter_eq_nil_iff]
    intro hall
    exact hall r hr (by simp)
  have h2 : lastFor (ck r) (reports env.exclude (collectBlock res6 t6 res4 t4)) = none := by
    unfold lastFor
    rw [List.getLast?_eq_none_iff, List.filter_eq_nil_iff]
    intro r' hr'
    simpa using hno r' hr'
  show flowEvents (env.still.uuid (ck r)) l'.svr.trace = flowEvents (env.still.uuid (ck r)) l.svr.trace ++ [false]
  rw [e, ← hl]
  simp only [flowStep, hc]
  rw [if_pos ⟨h1, h2⟩]

-- non-vacuity: the run of `C57_violated`
example : (reports none (exBlock 1 [exMsg 1 0 1])).map ck = [1] ∧ (collectBlock ([], none) 2 ([], some .badSequence) 2).v4Messages = [] := by decide +kernel

theorem swapAll_flow (env : Env) (rs : List ArchivalRecord) (hrs : ∀ r ∈ rs, complete r = true) (s s' : Saver) (h : s.swapAll env rs = some s') (u : String) :
    ∃ n, flowEvents u s'.trace = flowEvents u s.trace ++ List.replicate n true := by
  induction rs generalizing s with
  | nil => simp only [Saver.swapAll] at h; injection h with h; subst h; exact ⟨0, by simp⟩
  | cons r rs ih =>
    simp only [Saver.swapAll] at h
    obtain ⟨s1, h1, h2⟩ := Option.bind_eq_some_iff.1 h
    obtain ⟨n, hn⟩ := ih (fun r' hr' => hrs r' (by simp [hr'])) s1 h2
    have hstep : ∃ m, flowEvents u s1.trace = flowEvents u s.trace ++ List.replicate m true := by
      obtain ⟨idm, hidm, -⟩ := cookieOf_parse (hrs r (by simp))
      have hq : ∀ s0 : Saver, s0.trace = s.trace → ((s0.queue env r).map (·.1) = some s1) → ∃ m, flowEvents u s1.trace = flowEvents u s.trace ++ List.replicate m true := by
        intro s0 ht he
        obtain ⟨s2, e, e1, -, -, -, e5, -⟩ := queue_effect env s0 r idm hidm
        rw [e1] at he
        have : s2 = s1 := by simpa using he
        subst this
        rw [e5, ht]
        split
        · exact ⟨1, rfl⟩
        · exact ⟨0, rfl⟩
      have h := h1
      unfold Saver.swapAndQueue at h
      simp only at h
      split at h
      · simp at h
      · injection h with h; subst h; exact ⟨0, by simp⟩
      · exact hq _ (by rfl) h
      · split at h
        · simp at h
        · injection h with h; subst h; exact ⟨0, by simp⟩
        · split at h
          · simp at h
          · injection h with h; subst h; simp only [recordClosing_trace]; exact ⟨0, by simp⟩
          · split at h
            · exact hq _ (by simp only [recordClosing_trace]) h
            · injection h with h; subst h; simp only [recordClosing_trace]; exact ⟨0, by simp⟩
    obtain ⟨m, hm⟩ := hstep
    exact ⟨m + n, by rw [hn, hm, List.append_assoc, List.replicate_append_replicate]⟩

/-- C57 (partial). A connection that is reported in a block is not closed by that block: the events of that block for it are at most opens.
(Missing: a connection of the family whose dump failed is not reported, and `C57_violated`.) -/
theorem C57_reported_partial (env : Env) (bs : List MessageBlock) (l l' : LoopState) (h : runBlocks env bs = some l) (b : MessageBlock)
    (hb : l.block env b = some l') (r : ArchivalRecord) (hr : r ∈ reports env.exclude b) :
    ∃ n, flowEvents (env.uuid (ck r)) l'.svr.trace = flowEvents (env.uuid (ck r)) l.svr.trace ++ List.replicate n true := by
  obtain ⟨s, l1, s4, s6, r4, r6, e1, e2, rfl, -, -⟩ := block_decompose env l b l' hb
  have hcomp : ∀ r ∈ reports env.exclude b, complete r = true := fun r hr => reports_complete hr
  obtain ⟨n, hn⟩ := swapAll_flow env _ hcomp l.svr s e1 (env.uuid (ck r))
  refine ⟨n, ?_⟩
  rw [(report_effect l1 b.v4Time s4 s6 r4 r6).2.2.2.2.2.2, ← hn]
  have hcache : ∀ (rs : List ArchivalRecord) (h0 : List Call) (s0 s1 : Saver), s0.cache = cacheAfter h0 → s0.swapAll env rs = some s1 →
      s1.cache = cacheAfter (h0 ++ rs.map .update) := by
    intro rs
    induction rs with
    | nil => intro h0 s0 s1 hc hs; simp only [Saver.swapAll] at hs; injection hs with hs; subst hs; simpa using hc
    | cons x rs ih =>
      intro h0 s0 s1 hc hs
      simp only [Saver.swapAll] at hs
      obtain ⟨s2, h1, h2⟩ := Option.bind_eq_some_iff.1 hs
      have := ih (h0 ++ [.update x]) s2 s1 (by rw [swapAndQueue_cache env _ x s2 h1, hc, cacheAfter_update]) h2
      simpa using this
  have hc := hcache _ _ _ _ (run_cache env bs l h) e1
  refine expireAll_flow env _ _ _ _ e2 _ ?_
  intro k hk e
  have e := env.uuid_inj _ _ e
  subst e
  have hk := (env.order_perm _ _).mem_iff.1 hk
  have hk' : ck r ∈ s.cache.endCycle.2.keys := hk
  rw [hc, residual_mem, cycles_updates _ _ hcomp] at hk'
  have : lastFor (ck r) ((cycles (history env.exclude bs)).2 ++ reports env.exclude b) ≠ none := by
    unfold lastFor
    rw [ne_eq, List.getLast?_eq_none_iff, List.filter_eq_nil_iff]
    intro hall
    exact hall r (by simp [hr]) (by simp)
  exact this hk'.2

example : (reports none (exBlock 1600000002000000000 [exMsg 1 0 1])).map ck = [1] := by decide +kernel

end TcpInfo
