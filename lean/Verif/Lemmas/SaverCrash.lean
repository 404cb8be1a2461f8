import Verif.Lemmas.SaverRun
import Verif.Spec.Crash
/-!
# When the saver crashes
-/

namespace TcpInfo
open Spec

theorem infoRoom_some {r : ArchivalRecord} {n : Nat} :
    infoRoom r = some n ↔ ∃ s, r.attrs[2]? = some (some s) ∧ s.val.length + s.spare.length = n := by
  unfold infoRoom
  show (match r.attrs[2]? with | some (some s) => some (s.val.length + s.spare.length) | _ => none) = some n ↔ _
  cases h : r.attrs[2]? with
  | none => simp
  | some o => cases o <;> simp

theorem compare_panic_iff {r p : ArchivalRecord} (hr : complete r = true) (hp : complete p = true) :
    compareRecords r (some p) = .panic ↔ Overrun r p := by
  rw [C17_panic_iff]
  have h1 : 72 ≤ (r.rawIDM.getD []).length := of_decide_eq_true hr
  have h2 : 72 ≤ (p.rawIDM.getD []).length := of_decide_eq_true hp
  constructor
  · rintro ⟨-, -, hs, a, b, ha, hb, h⟩
    exact ⟨hs, _, _, infoRoom_some.2 ⟨a, ha, rfl⟩, infoRoom_some.2 ⟨b, hb, rfl⟩, h⟩
  · rintro ⟨hs, a, b, ha, hb, h⟩
    obtain ⟨x, hx, rfl⟩ := infoRoom_some.1 ha
    obtain ⟨y, hy, rfl⟩ := infoRoom_some.1 hb
    exact ⟨h1, h2, hs, x, y, hx, hy, h⟩

theorem infoRoom_view {env : Env} (hk : KeepsRoom env) (n : Nat) (r : ArchivalRecord) : infoRoom (env.view n r) = infoRoom r := by
  have h : ∀ a : ArchivalRecord, infoRoom a = (((a.attributes.getD []).map (·.map (fun s : GoSlice => s.val.length + s.spare.length)))[2]?).join := by
    intro a
    unfold infoRoom
    rw [List.getElem?_map]
    cases (a.attributes.getD [])[2]? with
    | none => rfl
    | some o => cases o <;> rfl
  rw [h, h, hk n r]

theorem overrun_view {env : Env} (hv : ViewOK env) (hk : KeepsRoom env) (n : Nat) (r p : ArchivalRecord) :
    Overrun r (env.view n p) ↔ Overrun r p := by
  have e : stateByte (env.view n p) = stateByte p := byte1_of_take8 (hv n p).header.2.1
  unfold Overrun
  rw [e, infoRoom_view hk]

theorem complete_view {env : Env} (hv : ViewOK env) (n : Nat) (p : ArchivalRecord) : complete (env.view n p) = complete p := by
  unfold complete
  rw [(hv n p).header.1]

theorem swap_none_iff (env : Env) (hv : ViewOK env) (hk : KeepsRoom env) (h : List Call) (s : Saver) (hc : s.cache = cacheAfter h)
    (r : ArchivalRecord) (hr : complete r = true) :
    s.swapAndQueue env r = none ↔ CrashAt env.marshallers h (.update r) := by
  obtain ⟨idm, hidm, -⟩ := cookieOf_parse hr
  have hq : ∀ s0 : Saver, (s0.queue env r).map (·.1) ≠ none := by
    intro s0
    obtain ⟨s', e, q, -⟩ := queue_effect env s0 r idm hidm
    rw [q]; simp
  unfold Saver.swapAndQueue
  simp only
  rw [hc, update_reference h r hr]
  unfold CrashAt
  cases href : reference h r with
  | none =>
    constructor
    · intro e; exact absurd e (hq _)
    · rintro ⟨p, hp, -⟩; simp [href] at hp
  | some p =>
    simp only [hidm]
    have hpc : complete p = true := cycles_complete h p (Or.inl (reference_mem href).1)
    have key := compare_panic_iff hr (show complete (env.view s.tick p) = true by rw [complete_view hv]; exact hpc)
    rw [overrun_view hv hk] at key
    have : (∃ p', reference h r = some p' ∧ Overrun r p') ↔ Overrun r p := ⟨by rintro ⟨p', e, h⟩; rw [href] at e; injection e with e; subst e; exact h, fun h => ⟨p, href, h⟩⟩
    rw [this, ← key]
    cases hcm : compareRecords r (some (env.view s.tick p)) with
    | panic => simp
    | err e => simp
    | ok c =>
      simp only
      constructor
      · intro e
        split at e
        · exact absurd e (hq _)
        · simp at e
      · intro e; simp at e

/-- Something fatal in the calls `cs` after `h`. -/
def ExCrash (m : Nat) (h cs : List Call) : Prop := ∃ h1 c t, cs = h1 ++ c :: t ∧ CrashAt m (h ++ h1) c

theorem exCrash_nil (m : Nat) (h : List Call) : ¬ ExCrash m h [] := by
  rintro ⟨h1, c, t, e, -⟩; simp at e

theorem exCrash_cons (m : Nat) (h : List Call) (c : Call) (cs : List Call) :
    ExCrash m h (c :: cs) ↔ CrashAt m h c ∨ ExCrash m (h ++ [c]) cs := by
  constructor
  · rintro ⟨h1, c', t, e, hc⟩
    cases h1 with
    | nil => simp at e; obtain ⟨rfl, rfl⟩ := e; exact Or.inl (by simpa using hc)
    | cons x h1 =>
      simp at e; obtain ⟨rfl, rfl⟩ := e
      exact Or.inr ⟨h1, c', t, rfl, by simpa using hc⟩
  · rintro (hc | ⟨h1, c', t, rfl, hc⟩)
    · exact ⟨[], c, cs, rfl, by simpa using hc⟩
    · exact ⟨c :: h1, c', t, rfl, by simpa using hc⟩

theorem exCrash_append (m : Nat) (h a b : List Call) : ExCrash m h (a ++ b) ↔ ExCrash m h a ∨ ExCrash m (h ++ a) b := by
  induction a generalizing h with
  | nil => simp [exCrash_nil]
  | cons c a ih =>
    rw [List.cons_append, exCrash_cons, exCrash_cons, ih, or_assoc]
    simp

theorem swapAll_none_iff (env : Env) (hv : ViewOK env) (hk : KeepsRoom env) (rs : List ArchivalRecord) (hrs : ∀ r ∈ rs, complete r = true)
    (h : List Call) (s : Saver) (hc : s.cache = cacheAfter h) :
    (s.swapAll env rs = none ↔ ExCrash env.marshallers h (rs.map .update))
    ∧ ∀ s', s.swapAll env rs = some s' → s'.cache = cacheAfter (h ++ rs.map .update) := by
  induction rs generalizing h s with
  | nil =>
    refine ⟨by simp [Saver.swapAll, exCrash_nil], ?_⟩
    intro s' e; simp only [Saver.swapAll] at e; injection e with e; subst e; simpa using hc
  | cons r rs ih =>
    rw [List.map_cons, exCrash_cons, ← swap_none_iff env hv hk h s hc r (hrs r (by simp))]
    simp only [Saver.swapAll]
    cases hs : s.swapAndQueue env r with
    | none => simp
    | some s1 =>
      have hc1 : s1.cache = cacheAfter (h ++ [.update r]) := by rw [swapAndQueue_cache env _ r s1 hs, hc, cacheAfter_update]
      obtain ⟨i1, i2⟩ := ih (fun r' h' => hrs r' (by simp [h'])) (h ++ [.update r]) s1 hc1
      simp only [Option.bind_some]
      refine ⟨by rw [i1]; simp, ?_⟩
      intro s' e
      rw [i2 s' e]; simp

theorem expireAll_none_iff (env : Env) (res : GoMap ArchivalRecord) (ks : List UInt64) (hks : ∀ k ∈ ks, ∃ r, res.get k = some r) (l : LoopState) :
    LoopState.expireAll env res ks l = none ↔ env.marshallers = 0 ∧ ks ≠ [] := by
  induction ks generalizing l with
  | nil => simp [LoopState.expireAll]
  | cons k ks ih =>
    obtain ⟨ar, har⟩ := hks k (by simp)
    simp only [LoopState.expireAll]
    by_cases hm : env.marshallers = 0
    · have : l.expire env res k = none := by
        unfold LoopState.expire
        rw [har]
        simp [Saver.endConn, hm]
      rw [this]; simp [hm]
    · have : ∃ l1, l.expire env res k = some l1 := by
        unfold LoopState.expire
        rw [har]
        simp only
        obtain ⟨s', e1, -⟩ := endConn_effect env hm ({ l.svr with tick := l.svr.tick + 1 }.finalStats k (env.view l.svr.tick ar)).1 k
        rw [e1]; exact ⟨_, rfl⟩
      obtain ⟨l1, e1⟩ := this
      rw [e1]
      simp only [Option.bind_some]
      rw [ih (fun k' h => hks k' (by simp [h]))]
      simp [hm]

theorem finish_none_iff (env : Env) (h : List Call) (l : LoopState) (hc : l.svr.cache = cacheAfter h) :
    l.finish env = none ↔ CrashAt env.marshallers h .endCycle := by
  unfold LoopState.finish
  have hperm := env.order_perm l.svr.tick l.svr.cache.endCycle.2.keys
  rw [expireAll_none_iff]
  · unfold CrashAt Gone
    refine and_congr_right fun _ => ?_
    have : ∀ xs : List UInt64, xs ≠ [] ↔ ∃ k, k ∈ xs := by intro xs; cases xs with | nil => simp | cons x xs => simp
    rw [this]
    refine exists_congr fun k => ?_
    rw [hperm.mem_iff, hc, residual_mem]
  · intro k hk'
    rw [hperm.mem_iff, GoMap.mem_keys_iff] at hk'
    exact hk'

theorem handleType_none_iff (env : Env) (t : Int) (msgs : List (Option NetlinkMessage)) (s : Saver) (a b : UInt64) :
    s.handleType env t msgs a b = none
      ↔ (∃ m, some m ∈ msgs ∧ makeArchivalRecord m env.exclude = .panic) ∨ s.swapAll env (msgs.filterMap (reportOf env.exclude t)) = none := by
  constructor
  · intro h
    apply Classical.byContradiction
    intro hn
    rw [not_or] at hn
    have hnp : NoPanic env.exclude msgs := fun m hm hp => hn.1 ⟨m, hm, hp⟩
    cases hs : s.swapAll env (msgs.filterMap (reportOf env.exclude t)) with
    | none => exact hn.2 hs
    | some s' =>
      obtain ⟨x, y, e⟩ := handleType_total env t msgs hnp s s' hs a b
      rw [e] at h; simp at h
  · intro h
    cases hh : s.handleType env t msgs a b with
    | none => rfl
    | some r =>
      exfalso
      obtain ⟨s', a', b'⟩ := r
      rcases h with ⟨m, hm, hp⟩ | h
      · induction msgs generalizing s a b with
        | nil => simp at hm
        | cons x msgs ih =>
          cases x with
          | none =>
            simp at hm
            exact ih s a b hh hm
          | some x =>
            simp only [Saver.handleType] at hh
            cases hmk : makeArchivalRecord x env.exclude with
            | panic => rw [hmk] at hh; simp at hh
            | err e =>
              rw [hmk] at hh
              rcases List.mem_cons.1 hm with e' | hm
              · injection e' with e'; subst e'; rw [hmk] at hp; simp at hp
              · exact ih s a b hh hm
            | ok o =>
              have hm' : some m ∈ msgs := by
                rcases List.mem_cons.1 hm with e' | hm
                · injection e' with e'; subst e'; rw [hmk] at hp; simp at hp
                · exact hm
              cases o with
              | none => rw [hmk] at hh; exact ih s a b hh hm'
              | some ar =>
                rw [hmk] at hh
                simp only at hh
                split at hh
                · simp at hh
                · exact ih _ _ _ hh hm'
      · rw [(handleType_swapAll env t msgs s a b s' a' b' hh).1] at h
        simp at h

theorem block_none_iff (env : Env) (l : LoopState) (b : MessageBlock) :
    l.block env b = none
      ↔ (∃ m, some m ∈ b.v4Messages ++ b.v6Messages ∧ makeArchivalRecord m env.exclude = .panic)
        ∨ (l.svr.swapAll env (reports env.exclude b)).bind (fun s => { l with svr := s }.finish env) = none := by
  have h4 := handleType_none_iff env b.v4Time b.v4Messages l.svr 0 0
  unfold LoopState.block
  unfold reports
  rw [swapAll_append]
  cases e4 : l.svr.handleType env b.v4Time b.v4Messages 0 0 with
  | none =>
    rw [e4] at h4
    simp only [true_iff] at h4 ⊢
    rcases h4 with ⟨m, hm, hp⟩ | h4
    · exact Or.inl ⟨m, by simp [hm], hp⟩
    · rw [h4]; exact Or.inr rfl
  | some r4 =>
    obtain ⟨s4, a4, b4⟩ := r4
    rw [e4] at h4
    replace h4 := not_or.1 (fun h => by simpa using h4.2 h)
    have x4 := (handleType_swapAll env _ _ _ _ _ _ _ _ e4).1
    rw [x4]
    simp only [Option.bind_some]
    have h6 := handleType_none_iff env b.v6Time b.v6Messages s4 0 0
    cases e6 : s4.handleType env b.v6Time b.v6Messages 0 0 with
    | none =>
      rw [e6] at h6
      simp only [true_iff] at h6 ⊢
      rcases h6 with ⟨m, hm, hp⟩ | h6
      · exact Or.inl ⟨m, by simp [hm], hp⟩
      · rw [h6]; exact Or.inr rfl
    | some r6 =>
      obtain ⟨s6, a6, b6⟩ := r6
      rw [e6] at h6
      replace h6 := not_or.1 (fun h => by simpa using h6.2 h)
      have x6 := (handleType_swapAll env _ _ _ _ _ _ _ _ e6).1
      rw [x6]
      simp only [Option.bind_some]
      have hno : ¬ ∃ m, some m ∈ b.v4Messages ++ b.v6Messages ∧ makeArchivalRecord m env.exclude = .panic := by
        rintro ⟨m, hm, hp⟩
        rcases List.mem_append.1 hm with hm | hm
        · exact h4.1 ⟨m, hm, hp⟩
        · exact h6.1 ⟨m, hm, hp⟩
      simp only [hno, false_or]
      unfold LoopState.finish
      simp only
      split <;> simp_all

/-- Without marshallers no connection is ever kept. -/
theorem no_conns (env : Env) (hm : env.marshallers = 0) (bs : List MessageBlock) (l : LoopState) (h : runBlocks env bs = some l) : l.svr.conns = [] := by
  have hq : ∀ (s : Saver) (r : ArchivalRecord) (s' : Saver), (s.queue env r).map (·.1) = some s' → s'.conns = s.conns := by
    intro s r s' e
    unfold Saver.queue at e
    split at e
    · simp at e
    · simp at e
    · simp only at e
      split at e
      · simp at e; rw [← e]
      · rw [if_pos (by omega)] at e; simp at e; rw [← e]
  refine run_induct env (fun _ l => l.svr.conns = []) (fun _ => True) rfl ?_ ?_ bs (fun _ _ _ _ => trivial) l h
  · intro h l r s' _ _ hp hs
    show s'.conns = []
    unfold Saver.swapAndQueue at hs
    simp only at hs
    split at hs
    · simp at hs
    · injection hs with hs; subst hs; exact hp
    · rw [hq _ _ _ hs]; exact hp
    · split at hs
      · simp at hs
      · injection hs with hs; subst hs; exact hp
      · have hrc : ∀ (s0 : Saver) k a b, (s0.recordClosing k a b).conns = s0.conns := by
          intro s0 k a b; unfold Saver.recordClosing; split <;> rfl
        split at hs
        · simp at hs
        · injection hs with hs; subst hs; rw [hrc]; exact hp
        · split at hs
          · rw [hq _ _ _ hs]; simp only [hrc]; exact hp
          · injection hs with hs; subst hs; rw [hrc]; exact hp
  · intro h l l1 t s4 s6 r4 r6 hp hf _ _
    have hfin : l1.svr.conns = [] := by
      unfold LoopState.finish at hf
      generalize hl : ({ l with svr := { l.svr with cache := l.svr.cache.endCycle.1, tick := l.svr.tick + 1 } } : LoopState) = l0 at hf
      have hp0 : l0.svr.conns = [] := by rw [← hl]; exact hp
      clear hl
      revert hf
      generalize env.order l.svr.tick l.svr.cache.endCycle.2.keys = ks
      induction ks generalizing l0 with
      | nil => intro hf; simp only [LoopState.expireAll] at hf; injection hf with hf; subst hf; exact hp0
      | cons k ks ih =>
        intro hf
        simp only [LoopState.expireAll] at hf
        obtain ⟨l2, e1, e2⟩ := Option.bind_eq_some_iff.1 hf
        refine ih l2 ?_ e2
        unfold LoopState.expire at e1
        split at e1
        · injection e1 with e1; subst e1; exact hp0
        · simp [Saver.endConn, hm] at e1
    rw [(report_effect l1 t s4 s6 r4 r6).1]; exact hfin

theorem blocks_none_iff (env : Env) (hv : ViewOK env) (hk : KeepsRoom env) (bs : List MessageBlock) (h : List Call) (l : LoopState)
    (hc : l.svr.cache = cacheAfter h) :
    LoopState.blocks env bs l = none
      ↔ (∃ b ∈ bs, ∃ m, some m ∈ b.v4Messages ++ b.v6Messages ∧ makeArchivalRecord m env.exclude = .panic)
        ∨ ExCrash env.marshallers h (history env.exclude bs) := by
  induction bs generalizing h l with
  | nil => simp [LoopState.blocks, history, exCrash_nil]
  | cons b bs ih =>
    have hh : history env.exclude (b :: bs) = (reports env.exclude b).map .update ++ (.endCycle :: history env.exclude bs) := by
      simp [history]
    rw [hh, exCrash_append, exCrash_cons]
    have hcomp : ∀ r ∈ reports env.exclude b, complete r = true := fun r hr => reports_complete hr
    obtain ⟨k1, k2⟩ := swapAll_none_iff env hv hk (reports env.exclude b) hcomp h l.svr hc
    have hb := block_none_iff env l b
    simp only [LoopState.blocks]
    cases eb : l.block env b with
    | none =>
      rw [eb] at hb
      simp only [true_iff] at hb
      simp only [Option.bind_none, true_iff]
      rcases hb with ⟨m, hm, hp⟩ | hb
      · exact Or.inl ⟨b, by simp, m, hm, hp⟩
      · cases es : l.svr.swapAll env (reports env.exclude b) with
        | none => exact Or.inr (Or.inl (k1.1 es))
        | some s =>
          rw [es] at hb
          exact Or.inr (Or.inr (Or.inl ((finish_none_iff env _ { l with svr := s } (k2 s es)).1 hb)))
    | some l1 =>
      rw [eb] at hb
      replace hb := not_or.1 (fun h => by simpa using hb.2 h)
      obtain ⟨s, l2, s4, s6, r4, r6, e1, e2, rfl, -, -⟩ := block_decompose env l b l1 eb
      simp only [Option.bind_some]
      have hc1 := k2 s e1
      rw [ih (h ++ (reports env.exclude b).map .update ++ [.endCycle]) _
        (by rw [report_cache, finish_cache env _ _ e2]; simp only; rw [hc1, ← cacheAfter_endCycle])]
      have n1 : ¬ ExCrash env.marshallers h ((reports env.exclude b).map .update) := by rw [← k1, e1]; simp
      have n2 : ¬ CrashAt env.marshallers (h ++ (reports env.exclude b).map .update) .endCycle := by
        rw [← finish_none_iff env _ { l with svr := s } hc1, e2]; simp
      simp only [n1, n2, false_or]
      have : (∃ b' ∈ b :: bs, ∃ m, some m ∈ b'.v4Messages ++ b'.v6Messages ∧ makeArchivalRecord m env.exclude = .panic)
          ↔ (∃ b' ∈ bs, ∃ m, some m ∈ b'.v4Messages ++ b'.v6Messages ∧ makeArchivalRecord m env.exclude = .panic) := by
        constructor
        · rintro ⟨b', hb', m, hm, hp⟩
          rcases List.mem_cons.1 hb' with rfl | hb'
          · exact absurd ⟨m, hm, hp⟩ hb.1
          · exact ⟨b', hb', m, hm, hp⟩
        · rintro ⟨b', hb', x⟩; exact ⟨b', List.mem_cons_of_mem _ hb', x⟩
      rw [this]

end TcpInfo
