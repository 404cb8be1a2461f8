import Verif.Lemmas.Indexing
import Verif.Spec.Saver
import Verif.Lemmas.Compare
import Verif.Lemmas.SaverSteps
import Verif.Props.Cache
/-!
# The saver does not depend on what it sees of cached addresses
-/

namespace TcpInfo
open Spec

theorem compareAttrsLoop_congr (tp : Nat) (p p' c : List (Option GoSlice)) (h : p.map (·.map (·.val)) = p'.map (·.map (·.val))) :
    compareAttrsLoop tp p c = compareAttrsLoop tp p' c := by
  induction p generalizing tp p' c with
  | nil =>
    cases p' with
    | nil => rfl
    | cons _ _ => simp at h
  | cons a p ih =>
    cases p' with
    | nil => simp at h
    | cons a' p' =>
      simp only [List.map_cons, List.cons.injEq] at h
      cases c with
      | nil => rfl
      | cons b c =>
        have e := ih (tp + 1) p' c h.2
        simp only [compareAttrsLoop, e]
        split
        · rfl
        · cases a with
          | none =>
            cases a' with
            | none => rfl
            | some _ => simp at h
          | some x =>
            cases a' with
            | none => simp at h
            | some x' =>
              have hx : x.val = x'.val := by simpa using h.1
              cases b with
              | none => rfl
              | some y => simp only [hx]

theorem byte1_of_take8 {a b : Bytes} (h : a.take 8 = b.take 8) : u8At 1 a = u8At 1 b := by
  have : (a.take 8)[1]? = (b.take 8)[1]? := by rw [h]
  simp only [List.getElem?_take] at this
  simp only [u8At, List.getD_eq_getElem?_getD]
  simpa using congrArg (fun o => Option.getD o 0) this

theorem attrs_getD {a b : ArchivalRecord} (h : SameButAddresses a b) (t : Nat) :
    (a.attrs.getD t none).map (·.val) = (b.attrs.getD t none).map (·.val) := by
  have : (a.attrs.map (·.map (·.val)))[t]? = (b.attrs.map (·.map (·.val)))[t]? := by
    have := h.attributes
    simp only [ArchivalRecord.attrs]
    rw [this]
  simp only [List.getElem?_map] at this
  simp only [List.getD_eq_getElem?_getD]
  cases h1 : a.attrs[t]? <;> cases h2 : b.attrs[t]? <;> simp [h1, h2] at this ⊢
  exact this

theorem attrs_length {a b : ArchivalRecord} (h : SameButAddresses a b) : a.attrs.length = b.attrs.length := by
  have := congrArg List.length h.attributes
  simpa [ArchivalRecord.attrs] using this

theorem hasDiagInfo_view {a b : ArchivalRecord} (h : SameButAddresses a b) : hasDiagInfo a = hasDiagInfo b := by
  simp only [hasDiagInfo, attrs_length h]

theorem getStats_view {a b : ArchivalRecord} (h : SameButAddresses a b) : getStats a = getStats b := by
  have e := attrs_getD h INET_DIAG_INFO
  rw [getStats_def, getStats_def]
  simp only
  rw [attrs_length h]
  cases h1 : a.attrs.getD INET_DIAG_INFO none <;> cases h2 : b.attrs.getD INET_DIAG_INFO none <;> rw [h1, h2] at e <;> simp at e ⊢
  rw [e]

theorem compare_view {pm a b : ArchivalRecord} (h : SameButAddresses a b) (hpm : InfoOK pm) (ha : InfoOK a) :
    compareRecords pm (some a) = compareRecords pm (some b) := by
  have hl := attrs_length h
  have hb : InfoOK b := by
    intro v hv
    refine ha v ?_
    rw [attrVal_eq, attrs_getD h, ← attrVal_eq]; exact hv
  rw [compareRecords_def, compareRecords_def]
  simp only
  have hlen : a.raw.length = b.raw.length := h.header.1
  by_cases h72 : 72 ≤ a.raw.length
  · rw [parseIDM_ok h72, parseIDM_ok (by omega : 72 ≤ b.raw.length)]
    simp only
    cases hp : parseIDM pm.raw with
    | panic => rfl
    | err _ => rfl
    | ok m =>
      simp only
      have hs : u8At 1 a.raw = u8At 1 b.raw := byte1_of_take8 h.header.2.1
      rw [hs, hl]
      split
      · rfl
      · split
        · rfl
        · have e := attrs_getD h INET_DIAG_INFO
          cases h1 : a.attrs.getD INET_DIAG_INFO none with
          | none =>
            cases h2 : b.attrs.getD INET_DIAG_INFO none with
            | none => rfl
            | some y => rw [h1, h2] at e; simp at e
          | some x =>
            cases h2 : b.attrs.getD INET_DIAG_INFO none with
            | none => rw [h1, h2] at e; simp at e
            | some y =>
              have hxy : x.val = y.val := by rw [h1, h2] at e; simpa using e
              cases h3 : pm.attrs.getD INET_DIAG_INFO none with
              | none => rfl
              | some z =>
                have hy : y.val.length = x.val.length := by rw [hxy]
                have hx : 168 ≤ x.val.length := ha x.val (by rw [attrVal_eq]; show Option.map _ (a.attrs.getD INET_DIAG_INFO none) = _; rw [h1]; rfl)
                simp only
                rw [slice_hi x _ _ (by decide +kernel) (by rw [busytimeOffset_eq]; exact hx), slice_hi x _ _ (by omega) (by rw [lastDataSentOffset_eq]; omega),
                  slice_hi y _ _ (by decide +kernel) (by rw [busytimeOffset_eq]; omega), slice_hi y _ _ (by omega) (by rw [lastDataSentOffset_eq]; omega), hxy]
                rw [compareAttrsLoop_congr 0 a.attrs b.attrs pm.attrs h.attributes]
  · rw [parseIDM_short (by omega), parseIDM_short (by omega : b.raw.length < 72)]

/-- Cached records are fine. -/
def CacheOK (s : Saver) : Prop :=
  (∀ k r, s.cache.current.get k = some r → InfoOK r) ∧ (∀ k r, s.cache.previous.get k = some r → InfoOK r)

theorem rotate_still (env : Env) (s : Saver) (c : Conn) : s.rotate env.still c = s.rotate env c := rfl

theorem queue_still (env : Env) (s : Saver) (msg : ArchivalRecord) : s.queue env.still msg = s.queue env msg := rfl

theorem endConn_still (env : Env) (s : Saver) (k : UInt64) : s.endConn env.still k = s.endConn env k := rfl

theorem queue_cache (env : Env) (s : Saver) (msg : ArchivalRecord) (s' : Saver) (e : Option GoErr) (h : s.queue env msg = some (s', e)) :
    s'.cache = s.cache ∧ s'.stats = s.stats ∧ s'.closingStats = s.closingStats ∧ s'.closingTotals = s.closingTotals := by
  unfold Saver.queue at h
  split at h
  · simp at h
  · simp at h
  · rename_i idm hp
    simp only at h
    split at h
    · injection h with h; injection h with h _; subst h; exact ⟨rfl, rfl, rfl, rfl⟩
    split at h
    · injection h with h; injection h with h _; subst h; exact ⟨rfl, rfl, rfl, rfl⟩
    have g : ∀ s0 : Saver, let r := s0.getConn env (cookieOf idm) idm msg.timestamp
        r.1.cache = s0.cache ∧ r.1.stats = s0.stats ∧ r.1.closingStats = s0.closingStats ∧ r.1.closingTotals = s0.closingTotals := by
      intro s0
      simp only [Saver.getConn]
      split <;> exact ⟨rfl, rfl, rfl, rfl⟩
    have c : ∀ (s0 : Saver) (cn : Conn), let r := s0.closeExpired env (cookieOf idm) cn
        r.1.cache = s0.cache ∧ r.1.stats = s0.stats ∧ r.1.closingStats = s0.closingStats ∧ r.1.closingTotals = s0.closingTotals := by
      intro s0 cn
      simp only [Saver.closeExpired]
      split <;> exact ⟨rfl, rfl, rfl, rfl⟩
    have r : ∀ (s0 : Saver) (cn : Conn), let r := s0.rotate env cn
        r.1.cache = s0.cache ∧ r.1.stats = s0.stats ∧ r.1.closingStats = s0.closingStats ∧ r.1.closingTotals = s0.closingTotals := by
      intro s0 cn
      simp only [Saver.rotate, Saver.rotateDir]
      by_cases hs : cn.sequence > 0
      · simp only [if_pos hs]
        split <;> exact ⟨rfl, rfl, rfl, rfl⟩
      · simp only [if_neg hs]
        split <;> exact ⟨rfl, rfl, rfl, rfl⟩
    have g' := g s
    generalize s.getConn env (cookieOf idm) idm msg.timestamp = sc at h g'
    have c' := c sc.1 sc.2
    generalize sc.1.closeExpired env (cookieOf idm) sc.2 = sc2 at h c'
    have r' := r sc2.1 sc2.2
    generalize hsce : (if sc2.2.writer = none then sc2.1.rotate env sc2.2 else (sc2.1, sc2.2, none)) = sce at h
    have e1 : sce.1.cache = sc2.1.cache ∧ sce.1.stats = sc2.1.stats ∧ sce.1.closingStats = sc2.1.closingStats ∧ sce.1.closingTotals = sc2.1.closingTotals := by
      rw [← hsce]
      split
      · exact r'
      · exact ⟨rfl, rfl, rfl, rfl⟩
    obtain ⟨a1, a2, a3, a4⟩ := g'
    obtain ⟨b1, b2, b3, b4⟩ := c'
    obtain ⟨d1, d2, d3, d4⟩ := e1
    split at h <;>
    · injection h with h; injection h with h _; subst h
      exact ⟨by simp only [Saver.emit]; rw [d1, b1, a1], by simp only [Saver.emit]; rw [d2, b2, a2], by simp only [Saver.emit]; rw [d3, b3, a3],
        by simp only [Saver.emit]; rw [d4, b4, a4]⟩

/-- `swapAndQueue` makes exactly one cache update. -/
theorem swapAndQueue_cache (env : Env) (s : Saver) (pm : ArchivalRecord) (s' : Saver) (h : s.swapAndQueue env pm = some s') :
    s'.cache = (s.cache.update pm).1 := by
  unfold Saver.swapAndQueue at h
  simp only at h
  split at h
  · simp at h
  · rename_i c e hc
    injection h with h; subst h; rw [hc]
  · rename_i c hc
    obtain ⟨⟨s1, e⟩, hq, rfl⟩ := Option.map_eq_some_iff.1 h
    rw [hc]
    exact (queue_cache env _ pm _ e hq).1
  · rename_i c cached hc
    have hcl : ∀ (s0 : Saver) k old, (s0.recordClosing k pm old).cache = s0.cache := by
      intro s0 k old
      unfold Saver.recordClosing
      split <;> rfl
    rw [hc]
    split at h
    · simp at h
    · injection h with h; subst h; rfl
    · split at h
      · simp at h
      · injection h with h; subst h; exact hcl _ _ _
      · split at h
        · obtain ⟨⟨s1, e⟩, hq, rfl⟩ := Option.map_eq_some_iff.1 h
          exact (queue_cache env _ pm _ e hq).1.trans (hcl _ _ _)
        · injection h with h; subst h; exact hcl _ _ _

theorem update_previous {c : Cache} {pm : ArchivalRecord} {c' : Cache} {r : Option ArchivalRecord} (h : c.update pm = (c', .ok r)) :
    (∀ k x, c'.current.get k = some x → x = pm ∨ c.current.get k = some x) ∧ (∀ k x, c'.previous.get k = some x → c.previous.get k = some x)
    ∧ (∀ x, r = some x → ∃ k, c.previous.get k = some x) := by
  unfold Cache.update at h
  split at h
  · simp at h
  · simp at h
  · rename_i idm hp
    injection h with h1 h2
    injection h2 with h2
    subst h1; subst h2
    refine ⟨?_, ?_, fun x hx => ⟨_, hx⟩⟩
    · intro k x hx
      simp only [GoMap.get_set] at hx
      split at hx
      · injection hx with hx; exact Or.inl hx.symm
      · exact Or.inr hx
    · intro k x hx
      simp only at hx
      split at hx
      · rw [GoMap.get_del] at hx
        split at hx
        · simp at hx
        · exact hx
      · exact hx

theorem update_ok_or {c : Cache} {pm : ArchivalRecord} : (∃ c' r, c.update pm = (c', .ok r)) ∨ (c.update pm).1 = c := by
  unfold Cache.update
  split
  · exact Or.inr rfl
  · exact Or.inr rfl
  · exact Or.inl ⟨_, _, rfl⟩

theorem cacheOK_update {c : Cache} {pm : ArchivalRecord} (hpm : InfoOK pm)
    (h : (∀ k r, c.current.get k = some r → InfoOK r) ∧ (∀ k r, c.previous.get k = some r → InfoOK r)) :
    (∀ k r, (c.update pm).1.current.get k = some r → InfoOK r) ∧ (∀ k r, (c.update pm).1.previous.get k = some r → InfoOK r) := by
  rcases @update_ok_or c pm with ⟨c', r, hc⟩ | hc
  · obtain ⟨h1, h2, -⟩ := update_previous hc
    rw [hc]
    refine ⟨fun k x hx => ?_, fun k x hx => h.2 k x (h2 k x hx)⟩
    rcases h1 k x hx with rfl | hx
    · exact hpm
    · exact h.1 k x hx
  · rw [hc]; exact h

theorem swapAndQueue_view (env : Env) (hv : ViewOK env) (s : Saver) (pm : ArchivalRecord) (hpm : InfoOK pm) (hc : CacheOK s) :
    s.swapAndQueue env pm = s.swapAndQueue env.still pm := by
  unfold Saver.swapAndQueue
  simp only
  split
  · rfl
  · rfl
  · rfl
  · rename_i c cached hcu
    obtain ⟨-, -, h3⟩ := update_previous hcu
    obtain ⟨k, hk⟩ := h3 cached rfl
    have hinfo : InfoOK cached := hc.2 k cached hk
    have hs := hv s.tick cached
    cases hp : parseIDM pm.raw with
    | panic => rfl
    | err _ => rfl
    | ok m =>
      simp only
      have e1 : compareRecords pm (some (env.view s.tick cached)) = compareRecords pm (some cached) :=
        compare_view hs hpm (by
          intro v hvv
          rw [attrVal_eq, attrs_getD hs, ← attrVal_eq] at hvv
          exact hinfo v hvv)
      have e2 : ∀ s0 : Saver, s0.recordClosing (cookieOf m) pm (env.view s.tick cached) = s0.recordClosing (cookieOf m) pm cached := by
        intro s0
        simp only [Saver.recordClosing, hasDiagInfo_view hs, getStats_view hs]
      have e3 : env.still.view s.tick cached = cached := rfl
      simp only [e1, e2, e3, queue_still]

theorem cacheOK_swap (env : Env) (s : Saver) (pm : ArchivalRecord) (hpm : InfoOK pm) (hc : CacheOK s) (s' : Saver)
    (h : s.swapAndQueue env pm = some s') : CacheOK s' := by
  unfold CacheOK
  rw [swapAndQueue_cache env s pm s' h]
  exact cacheOK_update hpm hc

theorem handleType_view (env : Env) (hv : ViewOK env) (t : Int) (msgs : List (Option NetlinkMessage)) (s : Saver) (a b : UInt64)
    (hm : ∀ r ∈ msgs.filterMap (reportOf env.exclude t), InfoOK r) (hc : CacheOK s) :
    s.handleType env t msgs a b = s.handleType env.still t msgs a b
    ∧ ∀ r, s.handleType env t msgs a b = some r → CacheOK r.1 := by
  induction msgs generalizing s a b with
  | nil =>
    refine ⟨rfl, fun r hr => ?_⟩
    simp only [Saver.handleType] at hr; injection hr with hr; subst hr; exact hc
  | cons m msgs ih =>
    cases m with
    | none => exact ih s a b (fun r hr => hm r (by simpa [reportOf] using hr)) hc
    | some msg =>
      have hex : env.still.exclude = env.exclude := rfl
      cases hmk : makeArchivalRecord msg env.exclude with
      | panic => simp only [Saver.handleType, hex, hmk]; exact ⟨trivial, fun r hr => by simp at hr⟩
      | err e =>
        simp only [Saver.handleType, hex, hmk]
        exact ih s a b (fun r hr => hm r (by rw [List.filterMap_cons]; simp only [reportOf, hmk]; exact hr)) hc
      | ok o =>
        cases o with
        | none =>
          simp only [Saver.handleType, hex, hmk]
          exact ih s a b (fun r hr => hm r (by rw [List.filterMap_cons]; simp only [reportOf, hmk]; exact hr)) hc
        | some ar =>
          have hrep : reportOf env.exclude t (some msg) = some { ar with timestamp := t } := by simp only [reportOf, hmk]
          have hpm : InfoOK { ar with timestamp := t } := hm _ (by rw [List.filterMap_cons, hrep]; simp)
          simp only [Saver.handleType, hex, hmk]
          rw [← swapAndQueue_view env hv s _ hpm hc]
          cases hs : s.swapAndQueue env { ar with timestamp := t } with
          | none => simp only; exact ⟨trivial, fun r hr => by simp at hr⟩
          | some s1 =>
            simp only
            exact ih s1 _ _ (fun r hr => hm r (by rw [List.filterMap_cons, hrep]; simp [hr])) (cacheOK_swap env s _ hpm hc s1 hs)

theorem endConn_cache (env : Env) (s : Saver) (k : UInt64) (s' : Saver) (h : s.endConn env k = some s') :
    s'.cache = s.cache ∧ s'.stats = s.stats ∧ s'.closingStats = s.closingStats ∧ s'.closingTotals = s.closingTotals := by
  unfold Saver.endConn at h
  simp only at h
  split at h
  · simp at h
  · split at h
    · split at h <;> (injection h with h; subst h; exact ⟨rfl, rfl, rfl, rfl⟩)
    · injection h with h; subst h; exact ⟨rfl, rfl, rfl, rfl⟩

theorem expire_view (env : Env) (hv : ViewOK env) (res : GoMap ArchivalRecord) (l : LoopState) (k : UInt64) :
    l.expire env res k = l.expire env.still res k ∧ ∀ l', l.expire env res k = some l' → l'.svr.cache = l.svr.cache := by
  constructor
  · unfold LoopState.expire
    split
    · rfl
    · rename_i cached hg
      have hs := hv l.svr.tick cached
      have : ∀ s : Saver, s.finalStats k (env.view l.svr.tick cached) = s.finalStats k cached := by
        intro s
        simp only [Saver.finalStats, hasDiagInfo_view hs, getStats_view hs]
      simp only [this]
      rfl
  · intro l' h
    unfold LoopState.expire at h
    split at h
    · injection h with h; subst h; rfl
    · simp only at h
      split at h
      · simp at h
      · rename_i s1 hs
        injection h with h; subst h
        have := (endConn_cache env _ k s1 hs).1
        simp only
        rw [this]
        unfold Saver.finalStats
        split
        · split <;> rfl
        · rfl

theorem expireAll_view (env : Env) (hv : ViewOK env) (res : GoMap ArchivalRecord) (ks : List UInt64) (l : LoopState) :
    LoopState.expireAll env res ks l = LoopState.expireAll env.still res ks l
    ∧ ∀ l', LoopState.expireAll env res ks l = some l' → l'.svr.cache = l.svr.cache := by
  induction ks generalizing l with
  | nil => exact ⟨rfl, fun l' h => by simp only [LoopState.expireAll] at h; injection h with h; subst h; rfl⟩
  | cons k ks ih =>
    obtain ⟨h1, h2⟩ := expire_view env hv res l k
    constructor
    · simp only [LoopState.expireAll, ← h1]
      cases l.expire env res k with
      | none => rfl
      | some l1 => exact (ih l1).1
    · intro l' h
      simp only [LoopState.expireAll] at h
      obtain ⟨l1, e1, e2⟩ := Option.bind_eq_some_iff.1 h
      rw [(ih l1).2 l' e2, h2 l1 e1]

theorem report_cache (l : LoopState) (t : Int) (a b c d : UInt64) : (l.report t a b c d).svr.cache = l.svr.cache := by
  unfold LoopState.report
  split
  · simp only
    split <;> split <;> rfl
  · rfl

theorem block_view (env : Env) (hv : ViewOK env) (l : LoopState) (b : MessageBlock) (hb : AllInfoOK env.exclude b) (hc : CacheOK l.svr) :
    l.block env b = l.block env.still b ∧ ∀ l', l.block env b = some l' → CacheOK l'.svr := by
  have h4 : ∀ r ∈ b.v4Messages.filterMap (reportOf env.exclude b.v4Time), InfoOK r := fun r hr => hb r (List.mem_append_left _ hr)
  have h6 : ∀ r ∈ b.v6Messages.filterMap (reportOf env.exclude b.v6Time), InfoOK r := fun r hr => hb r (List.mem_append_right _ hr)
  obtain ⟨e4, c4⟩ := handleType_view env hv b.v4Time b.v4Messages l.svr 0 0 h4 hc
  unfold LoopState.block
  rw [← e4]
  cases hh4 : l.svr.handleType env b.v4Time b.v4Messages 0 0 with
  | none => exact ⟨rfl, fun l' h => by simp at h⟩
  | some r4 =>
    obtain ⟨s4, a4, b4⟩ := r4
    simp only
    obtain ⟨e6, c6⟩ := handleType_view env hv b.v6Time b.v6Messages s4 0 0 h6 (c4 _ hh4)
    rw [← e6]
    cases hh6 : s4.handleType env b.v6Time b.v6Messages 0 0 with
    | none => exact ⟨rfl, fun l' h => by simp at h⟩
    | some r6 =>
      obtain ⟨s6, a6, b6⟩ := r6
      have hc6 := c6 _ hh6
      simp only
      obtain ⟨x1, x2⟩ := expireAll_view env hv s6.cache.endCycle.2 (env.order s6.tick s6.cache.endCycle.2.keys)
        { l with svr := { s6 with cache := s6.cache.endCycle.1, tick := s6.tick + 1 } }
      constructor
      · show (match LoopState.expireAll env _ _ _ with | none => none | some l => some (l.report _ _ _ _ _)) =
          (match LoopState.expireAll env.still _ (env.order _ _) _ with | none => none | some l => some (l.report _ _ _ _ _))
        rw [← x1]
      · intro l' h
        split at h
        · simp at h
        · rename_i l1 he
          injection h with h; subst h
          unfold CacheOK
          rw [report_cache, x2 l1 he]
          refine ⟨fun k r hr => ?_, fun k r hr => hc6.1 k r hr⟩
          simp [Cache.endCycle, GoMap.get] at hr

theorem blocks_view (env : Env) (hv : ViewOK env) (bs : List MessageBlock) (l : LoopState) (hb : ∀ b ∈ bs, AllInfoOK env.exclude b)
    (hc : CacheOK l.svr) : LoopState.blocks env bs l = LoopState.blocks env.still bs l := by
  induction bs generalizing l with
  | nil => rfl
  | cons b bs ih =>
    obtain ⟨h1, h2⟩ := block_view env hv l b (hb b (by simp)) hc
    simp only [LoopState.blocks, ← h1]
    cases h : l.block env b with
    | none => rfl
    | some l1 => exact ih l1 (fun b' hb' => hb b' (by simp [hb'])) (h2 l1 h)

theorem endAll_still (env : Env) (ks : List UInt64) (s : Saver) : Saver.endAll env.still ks s = Saver.endAll env ks s := by
  induction ks generalizing s with
  | nil => rfl
  | cons k ks ih =>
    simp only [Saver.endAll, endConn_still]
    cases s.endConn env k with
    | none => rfl
    | some s1 => exact ih s1

theorem runBlocks_view (env : Env) (hv : ViewOK env) (bs : List MessageBlock) (hb : ∀ b ∈ bs, AllInfoOK env.exclude b) :
    runBlocks env bs = runBlocks env.still bs :=
  blocks_view env hv bs newLoop hb ⟨fun k r h => by simp [newLoop, newSaver, newCache, GoMap.get] at h, fun k r h => by simp [newLoop, newSaver, newCache, GoMap.get] at h⟩

theorem runSaver_view (env : Env) (hv : ViewOK env) (bs : List MessageBlock) (hb : ∀ b ∈ bs, AllInfoOK env.exclude b) :
    runSaver env bs = runSaver env.still bs := by
  unfold runSaver
  rw [runBlocks_view env hv bs hb]
  cases runBlocks env.still bs with
  | none => rfl
  | some l =>
    show Saver.close env l.svr = Saver.close env.still l.svr
    unfold Saver.close
    rw [endAll_still]
    rfl

end TcpInfo
