import Verif.Props.SaverStats
import Verif.Props.SaverRuns
/-!
# C65: what the saver remembers
-/

namespace TcpInfo
open Spec

/-- C65 (partial: files can be created, see `C65_violated_create`, and cookies are not 0). After every block, the connections in the saver's map are exactly those reported in that block. -/
theorem C65_connections_partial (env : Env) (hf : NoFaults env) (hv : ViewOK env) (bs : List MessageBlock) (b : MessageBlock)
    (hI : ∀ b' ∈ bs ++ [b], AllInfoOK env.exclude b') (hz : ∀ b' ∈ bs ++ [b], ∀ r ∈ reports env.exclude b', ck r ≠ 0) (l : LoopState)
    (h : runBlocks env (bs ++ [b]) = some l) (k : UInt64) :
    k ∈ l.svr.conns.keys ↔ ∃ r ∈ reports env.exclude b, ck r = k := by
  rw [runBlocks_view env hv _ hI] at h
  have hp := (flowInv_run env.still ⟨hf.create, hf.marshallers⟩ (still_view env) _ hI hz l h).present k
  have hh : cycles (history env.exclude (bs ++ [b])) = (reports env.exclude b, []) := by
    have e : history env.exclude (bs ++ [b]) = (history env.exclude bs ++ (reports env.exclude b).map .update) ++ [.endCycle] := by simp [history]
    have hc2 : (cycles (history env.exclude bs)).2 = [] := by
      rcases List.eq_nil_or_concat bs with rfl | ⟨bs', b', rfl⟩
      · rfl
      · have e : history env.exclude (bs' ++ [b']) = (history env.exclude bs' ++ (reports env.exclude b').map .update) ++ [.endCycle] := by simp [history]
        rw [List.concat_eq_append, e, cycles_endCycle]
    rw [e, cycles_endCycle, cycles_updates _ _ (fun r hr => reports_complete hr), hc2]; rfl
  rw [show env.still.exclude = env.exclude from rfl, hh] at hp
  have hl : lastFor k ([] : List ArchivalRecord) = none := rfl
  rw [GoMap.mem_keys_iff, ← Option.ne_none_iff_exists', hp, hl]
  simp only [ne_eq, not_true, or_false]
  rw [lastFor_none]
  simp

/-- A record has an attribute table that reaches to tcp_info. -/
def withInfo (r : ArchivalRecord) : Prop := 2 < (r.attributes.getD []).length

/-- The latest record of a connection in the current or the previous cycle. -/
def latest (h : List Call) (k : UInt64) : Option ArchivalRecord := (lastFor k (cycles h).2).or (lastFor k (cycles h).1)

/-- No connection regains its tcp_info after losing it. -/
def Steady (h : List Call) : Prop :=
  ∀ h1 r h2, h = h1 ++ Call.update r :: h2 → ∀ p, latest h1 (ck r) = some p → ¬ withInfo p → ¬ withInfo r

theorem withInfo_iff (r : ArchivalRecord) : withInfo r ↔ hasDiagInfo r = true := by
  unfold withInfo hasDiagInfo INET_DIAG_INFO
  rw [show r.attrs = r.attributes.getD [] from rfl]
  simp

/-- Remembered closing statistics belong to connections known without tcp_info. -/
def ClosingInv (h : List Call) (l : LoopState) : Prop :=
  ∀ k, l.svr.closingStats.get k ≠ none → ∃ p, latest h k = some p ∧ ¬ withInfo p

theorem latest_update {h : List Call} {r : ArchivalRecord} (hr : complete r = true) (k : UInt64) :
    latest (h ++ [.update r]) k = if ck r = k then some r else latest h k := by
  unfold latest
  rw [cycles_update, if_pos hr]
  simp only [lastFor, List.filter_append]
  by_cases hk : ck r = k
  · rw [if_pos hk, List.filter_cons_of_pos (by simpa using hk)]; simp
  · rw [if_neg hk, List.filter_cons_of_neg (by simpa using hk)]; simp

theorem latest_endCycle (h : List Call) (k : UInt64) : latest (h ++ [.endCycle]) k = lastFor k (cycles h).2 := by
  unfold latest
  rw [cycles_endCycle]; simp [lastFor]

theorem steady_init {h : List Call} {c : Call} (ht : Steady (h ++ [c])) : Steady h := by
  intro h1 r h2 e
  exact ht h1 r (h2 ++ [c]) (by rw [e]; simp)

theorem expireAll_closing (env : Env) (hm : env.marshallers ≠ 0) (hview : ∀ n r, env.view n r = r) (res : GoMap ArchivalRecord) (ks : List UInt64)
    (hks : ∀ k ∈ ks, ∃ r, res.get k = some r) (l l' : LoopState) (h : LoopState.expireAll env res ks l = some l') (k : UInt64)
    (hk : l'.svr.closingStats.get k ≠ none) :
    l.svr.closingStats.get k ≠ none ∧ (k ∈ ks → ∀ r, res.get k = some r → withInfo r) := by
  induction ks generalizing l with
  | nil => simp only [LoopState.expireAll] at h; injection h with h; subst h; exact ⟨hk, by simp⟩
  | cons k1 ks ih =>
    simp only [LoopState.expireAll] at h
    obtain ⟨l1, h1, h2⟩ := Option.bind_eq_some_iff.1 h
    obtain ⟨i1, i2⟩ := ih (fun k hk => hks k (by simp [hk])) l1 h2
    obtain ⟨ar, har⟩ := hks k1 (by simp)
    obtain ⟨l1', a1, -, -, -, -, -, a7, -⟩ := expire_effect env hm hview res l k1 ar har
    rw [h1] at a1; injection a1 with a1; subst a1
    rw [a7] at i1
    have key : l.svr.closingStats.get k ≠ none ∧ (k = k1 → withInfo ar) := by
      unfold Saver.finalStats at i1
      split at i1
      · cases hg : l.svr.closingStats.get k1 with
        | none =>
          rw [hg] at i1
          refine ⟨i1, ?_⟩
          intro e; subst e; exact absurd hg i1
        | some st =>
          rw [hg] at i1
          simp only at i1
          rw [GoMap.get_del] at i1
          by_cases e : k = k1
          · rw [if_pos e] at i1; exact absurd rfl i1
          · rw [if_neg e] at i1; exact ⟨i1, fun x => absurd x e⟩
      · rename_i hd
        exact ⟨i1, fun _ => (withInfo_iff ar).2 (by simpa using hd)⟩
    refine ⟨key.1, ?_⟩
    intro hmem r hr
    rcases List.mem_cons.1 hmem with e | hmem
    · subst e; rw [har] at hr; injection hr with hr; subst hr; exact key.2 rfl
    · exact i2 hmem r hr

theorem closingInv_run (env : Env) (hm : env.marshallers ≠ 0) (hview : ∀ n r, env.view n r = r) (bs : List MessageBlock)
    (hI : ∀ b ∈ bs, AllInfoOK env.exclude b) (l : LoopState) (h : runBlocks env bs = some l) (hs : Steady (history env.exclude bs)) :
    ClosingInv (history env.exclude bs) l := by
  refine (run_induct' env hview (fun h l => Steady h → ClosingInv h l) (fun _ => True) ?_ ?_ ?_ bs hI (fun _ _ _ _ => trivial) l h).2 hs
  · intro _ k hk; simp [newLoop, newSaver, GoMap.get] at hk
  · intro h l r s' hr hq _ hi hp hsw ht k hk
    obtain ⟨s1, e1, -, -, -, -, -, e7, -⟩ := swap_effect env hview h l.svr hi.cache r hr hq (fun p hp => hi.info p (Or.inl hp))
    rw [hsw] at e1; injection e1 with e1; subst e1
    have hk : s'.closingStats.get k ≠ none := hk
    rw [e7] at hk
    rw [latest_update hr]
    have hold : l.svr.closingStats.get k ≠ none → ∃ p, (if ck r = k then some r else latest h k) = some p ∧ ¬ withInfo p := by
      intro hg
      obtain ⟨p, hp1, hp2⟩ := hp (steady_init ht) k hg
      by_cases e : ck r = k
      · rw [if_pos e]
        subst e
        exact ⟨r, rfl, ht h r [] rfl p hp1 hp2⟩
      · rw [if_neg e]; exact ⟨p, hp1, hp2⟩
    unfold closingAfter at hk
    cases href : reference h r with
    | none => rw [href] at hk; exact hold hk
    | some p =>
      rw [href] at hk
      simp only at hk
      unfold Saver.recordClosing at hk
      split at hk
      · rename_i hd
        simp only at hk
        rw [GoMap.get_set] at hk
        by_cases e : k = ck r
        · rw [if_pos e.symm]
          exact ⟨r, rfl, fun hw => by rw [withInfo_iff, hd.1] at hw; simp at hw⟩
        · rw [if_neg e] at hk; exact hold hk
      · exact hold hk
  · intro h l l1 t s4 s6 r4 r6 hi hp hfin _ _ ht k hk
    rw [(report_effect l1 t s4 s6 r4 r6).2.2.1] at hk
    unfold LoopState.finish at hfin
    have hks := finish_keys env l
    obtain ⟨g1, g2⟩ := expireAll_closing env hm hview _ _ hks _ l1 hfin k hk
    obtain ⟨p, hp1, hp2⟩ := hp (steady_init ht) k g1
    rw [latest_endCycle]
    unfold latest at hp1
    cases hc : lastFor k (cycles h).2 with
    | some q => rw [hc] at hp1; exact ⟨p, hp1, hp2⟩
    | none =>
      rw [hc, Option.none_or] at hp1
      have hmem : k ∈ (cacheAfter h).endCycle.2.keys := (residual_mem h k).2 ⟨by rw [hp1]; simp, hc⟩
      obtain ⟨v, hv⟩ := (GoMap.mem_keys_iff _ _).1 hmem
      have hv1 := (residual_get h k v hv).1
      rw [hp1] at hv1; injection hv1 with hv1; subst hv1
      refine absurd (g2 ?_ p (by rw [hi.cache]; exact hv)) hp2
      rw [(env.order_perm _ _).mem_iff, hi.cache]; exact hmem

/-- C65 (partial: no connection regains its tcp_info after losing it, see `C65_violated_closing`). After every block, the saver remembers closing
statistics only of connections that were reported in that block, the last time without tcp_info. -/
theorem C65_closing_partial (env : Env) (hm : 1 ≤ env.marshallers) (hv : ViewOK env) (bs : List MessageBlock) (b : MessageBlock)
    (hI : ∀ b' ∈ bs ++ [b], AllInfoOK env.exclude b') (l : LoopState) (h : runBlocks env (bs ++ [b]) = some l)
    (hs : Steady (history env.exclude (bs ++ [b]))) (k : UInt64) (hk : k ∈ l.svr.closingStats.keys) :
    ∃ r, lastFor k (reports env.exclude b) = some r ∧ ¬ withInfo r := by
  rw [runBlocks_view env hv _ hI] at h
  have hp := closingInv_run env.still (Nat.ne_of_gt hm) (still_view env) _ hI l h hs k (by
    obtain ⟨v, hv⟩ := (GoMap.mem_keys_iff _ _).1 hk
    rw [hv]; simp)
  have e : history env.exclude (bs ++ [b]) = (history env.exclude bs ++ (reports env.exclude b).map .update) ++ [.endCycle] := by simp [history]
  have hc2 : (cycles (history env.exclude bs)).2 = [] := by
    rcases List.eq_nil_or_concat bs with rfl | ⟨bs', b', rfl⟩
    · rfl
    · have e : history env.exclude (bs' ++ [b']) = (history env.exclude bs' ++ (reports env.exclude b').map .update) ++ [.endCycle] := by simp [history]
      rw [List.concat_eq_append, e, cycles_endCycle]
  rw [show env.still.exclude = env.exclude from rfl, e, latest_endCycle, cycles_updates _ _ (fun r hr => reports_complete hr), hc2] at hp
  exact hp

/-! ## Leaks -/

theorem empty_block (env : Env) (l : LoopState) (t : Int) (hc : l.svr.cache.current = []) (hp : l.svr.cache.previous = []) :
    ∃ l', l.block env (exBlock t []) = some l' ∧ l'.svr.cache.current = [] ∧ l'.svr.cache.previous = [] ∧ l'.svr.conns = l.svr.conns
      ∧ l'.svr.closingStats = l.svr.closingStats := by
  have ho : env.order l.svr.tick [] = [] := List.perm_nil.1 (env.order_perm _ _)
  unfold LoopState.block exBlock
  simp only [Saver.handleType, Cache.endCycle, hp, GoMap.keys, List.map_nil, ho, LoopState.expireAll, Option.some.injEq, exists_eq_left', hc]
  obtain ⟨r1, -, r3, -⟩ := report_effect { l with svr := { l.svr with cache := { current := [], previous := [], cycles := l.svr.cache.cycles + 1 }, tick := l.svr.tick + 1 } } t 0 0 0 0
  rw [report_cache]
  exact ⟨rfl, rfl, r1, r3⟩

theorem empty_blocks (env : Env) (ts : List Int) (l : LoopState) (hc : l.svr.cache.current = []) (hp : l.svr.cache.previous = []) :
    ∃ l', LoopState.blocks env (ts.map (fun t => exBlock t [])) l = some l' ∧ l'.svr.conns = l.svr.conns
      ∧ l'.svr.closingStats = l.svr.closingStats := by
  induction ts generalizing l with
  | nil => exact ⟨l, rfl, rfl, rfl⟩
  | cons t ts ih =>
    obtain ⟨l1, h1, h2, h3, h4, h5⟩ := empty_block env l t hc hp
    obtain ⟨l2, g1, g2, g3⟩ := ih l1 h2 h3
    exact ⟨l2, by simp only [List.map_cons, LoopState.blocks, h1]; exact g1, by rw [g2, h4], by rw [g3, h5]⟩

theorem blocks_append (env : Env) (as bs : List MessageBlock) (l : LoopState) :
    LoopState.blocks env (as ++ bs) l = (LoopState.blocks env as l).bind (LoopState.blocks env bs) := by
  induction as generalizing l with
  | nil => rfl
  | cons a as ih =>
    simp only [List.cons_append, LoopState.blocks]
    cases l.block env a with
    | none => rfl
    | some l1 => exact ih l1

/-- What is there after some blocks, the cache being empty, stays for ever if nothing is reported any more. -/
theorem stays (env : Env) (bs : List MessageBlock) (f : LoopState → Bool)
    (hf : ∀ l l' : LoopState, l'.svr.conns = l.svr.conns → l'.svr.closingStats = l.svr.closingStats → f l' = f l)
    (h : (runBlocks env bs).any (fun l => l.svr.cache.current.isEmpty && l.svr.cache.previous.isEmpty && f l) = true) (ts : List Int) :
    ∃ l, runBlocks env (bs ++ ts.map (fun t => exBlock t [])) = some l ∧ f l = true := by
  cases hr : runBlocks env bs with
  | none => rw [hr] at h; simp at h
  | some l =>
    rw [hr] at h
    simp only [Option.any_some, Bool.and_eq_true, List.isEmpty_iff] at h
    obtain ⟨l', h1, h2, h3⟩ := empty_blocks env ts l h.1.1 h.1.2
    refine ⟨l', ?_, by rw [hf l l' h2 h3]; exact h.2⟩
    unfold runBlocks at hr ⊢
    rw [blocks_append, hr]; exact h1

/-- C65 violated: a connection whose file could not be created is never forgotten: it is in the saver's map after any number of further blocks that do
not report it. -/
theorem C65_violated_create (ts : List Int) :
    ∃ l, runBlocks (exEnvWith 1000000000 (List.range 100) 3) ([exBlock 1 [exMsg 1 0 1], exBlock 2 [], exBlock 3 []] ++ ts.map (fun t => exBlock t [])) = some l
      ∧ 1 ∈ l.svr.conns.keys := by
  obtain ⟨l, h1, h2⟩ := stays (exEnvWith 1000000000 (List.range 100) 3) [exBlock 1 [exMsg 1 0 1], exBlock 2 [], exBlock 3 []]
    (fun l => decide (1 ∈ l.svr.conns.keys)) (fun l l' h _ => by rw [h]) (by decide +kernel) ts
  exact ⟨l, h1, by simpa using h2⟩

/-- C65 violated: the closing statistics of a connection that lost its tcp_info and regained it are never forgotten (and count for ever). -/
theorem C65_violated_closing (ts : List Int) :
    ∃ l, runBlocks exEnv ([exBlock 1 [exMsg 1 0 5], exBlock 2 [exMsgA 1 noInfo], exBlock 3 [exMsg 1 0 6], exBlock 4 [], exBlock 5 []]
        ++ ts.map (fun t => exBlock t [])) = some l ∧ 1 ∈ l.svr.closingStats.keys := by
  obtain ⟨l, h1, h2⟩ := stays exEnv [exBlock 1 [exMsg 1 0 5], exBlock 2 [exMsgA 1 noInfo], exBlock 3 [exMsg 1 0 6], exBlock 4 [], exBlock 5 []]
    (fun l => decide (1 ∈ l.svr.closingStats.keys)) (fun l l' _ h => by rw [h]) (by decide +kernel) ts
  exact ⟨l, h1, by simpa using h2⟩

-- non-vacuity: a connection loses its tcp_info while another one vanishes
def closingBlocks : List MessageBlock := [exBlock 1 [exMsg 1 0 5, exMsg 2 0 1], exBlock 2 [exMsgA 1 noInfo]]
example : ((runBlocks exEnv closingBlocks).map (fun l => (l.svr.conns.keys, l.svr.closingStats.keys))) = some ([1], [1]) := by decide +kernel
example : ((runBlocks exEnv (closingBlocks ++ [exBlock 3 []])).map (fun l => (l.svr.conns.keys, l.svr.closingStats.keys))) = some ([], []) := by
  decide +kernel

/-- Decides `Steady`. -/
def steadyB : (h1 h2 : List Call) → Bool
  | _, [] => true
  | h1, .endCycle :: h2 => steadyB (h1 ++ [.endCycle]) h2
  | h1, .update r :: h2 => ((latest h1 (ck r)).all (fun p => decide (2 < (p.attributes.getD []).length) || !decide (2 < (r.attributes.getD []).length)))
    && steadyB (h1 ++ [.update r]) h2

theorem steadyB_sound (h2 h1 : List Call) (hb : steadyB h1 h2 = true) :
    ∀ a r b, h2 = a ++ Call.update r :: b → ∀ p, latest (h1 ++ a) (ck r) = some p → ¬ withInfo p → ¬ withInfo r := by
  induction h2 generalizing h1 with
  | nil => intro a r b e; simp at e
  | cons c h2 ih =>
    intro a r b e p hp hw
    cases a with
    | nil =>
      simp only [List.nil_append, List.cons.injEq] at e
      obtain ⟨rfl, rfl⟩ := e
      simp only [steadyB, Bool.and_eq_true] at hb
      rw [List.append_nil] at hp
      have h1 := hb.1
      rw [hp] at h1
      simp only [Option.all_some, Bool.or_eq_true, decide_eq_true_eq, Bool.not_eq_true', decide_eq_false_iff_not] at h1
      rcases h1 with h1 | h1
      · exact absurd h1 hw
      · exact h1
    | cons a0 a =>
      simp only [List.cons_append, List.cons.injEq] at e
      obtain ⟨rfl, rfl⟩ := e
      have hb' : steadyB (h1 ++ [c]) (a ++ Call.update r :: b) = true := by
        cases c with
        | endCycle => exact hb
        | update r => simp only [steadyB, Bool.and_eq_true] at hb; exact hb.2
      exact ih (h1 ++ [c]) hb' a r b rfl p (by rw [List.append_assoc]; exact hp) hw

example : Steady (history exEnv.exclude closingBlocks) := by
  intro h1 r h2 e p hp
  exact steadyB_sound (history exEnv.exclude closingBlocks) [] (by decide +kernel) h1 r h2 e p (by simpa using hp)
example : NoFaults exEnv ∧ ViewOK exEnv := ⟨⟨fun _ => rfl, by decide⟩, fun _ _ => ⟨rfl, rfl, ⟨rfl, rfl, rfl⟩, rfl⟩⟩

end TcpInfo
