import Verif.Lemmas.SaverView
import Verif.Spec.Trace
/-!
# The saver loop as a fold over the history of reports
-/

namespace TcpInfo
open Spec

/-- Bytes sent and received, summed over records (modulo 2^64). -/
def sumSent (l : List ArchivalRecord) : UInt64 := l.foldl (fun n r => n + (getStats r).1) 0
def sumReceived (l : List ArchivalRecord) : UInt64 := l.foldl (fun n r => n + (getStats r).2) 0

theorem foldl_add_start (f : ArchivalRecord → UInt64) (l : List ArchivalRecord) (a : UInt64) :
    l.foldl (fun n r => n + f r) a = a + l.foldl (fun n r => n + f r) 0 := by
  induction l generalizing a with
  | nil => simp
  | cons x l ih =>
    simp only [List.foldl_cons]
    rw [ih (a + f x), ih (0 + f x)]
    simp [UInt64.add_assoc]

theorem sumSent_append (l l' : List ArchivalRecord) : sumSent (l ++ l') = sumSent l + sumSent l' := by
  unfold sumSent; rw [List.foldl_append]; exact foldl_add_start (fun r => (getStats r).1) _ _
theorem sumReceived_append (l l' : List ArchivalRecord) : sumReceived (l ++ l') = sumReceived l + sumReceived l' := by
  unfold sumReceived; rw [List.foldl_append]; exact foldl_add_start (fun r => (getStats r).2) _ _

/-- `swapAndQueue` on several records. -/
def Saver.swapAll (env : Env) : List ArchivalRecord → Saver → Option Saver
  | [], s => some s
  | r :: rs, s => (s.swapAndQueue env r).bind (Saver.swapAll env rs)

theorem swapAll_append (env : Env) (l l' : List ArchivalRecord) (s : Saver) :
    s.swapAll env (l ++ l') = (s.swapAll env l).bind (Saver.swapAll env l') := by
  induction l generalizing s with
  | nil => rfl
  | cons r l ih =>
    simp only [List.cons_append, Saver.swapAll]
    cases s.swapAndQueue env r with
    | none => rfl
    | some s1 => exact ih s1

theorem handleType_swapAll (env : Env) (t : Int) (msgs : List (Option NetlinkMessage)) (s : Saver) (a b : UInt64) (s' : Saver) (a' b' : UInt64)
    (h : s.handleType env t msgs a b = some (s', a', b')) :
    s.swapAll env (msgs.filterMap (reportOf env.exclude t)) = some s'
    ∧ a' = a + sumSent (msgs.filterMap (reportOf env.exclude t)) ∧ b' = b + sumReceived (msgs.filterMap (reportOf env.exclude t)) := by
  induction msgs generalizing s a b with
  | nil =>
    simp only [Saver.handleType] at h
    injection h with h; injection h with h1 h2; injection h2 with h2 h3
    subst h1; subst h2; subst h3
    exact ⟨rfl, by simp [sumSent], by simp [sumReceived]⟩
  | cons m msgs ih =>
    cases m with
    | none => exact ih s a b h
    | some msg =>
      simp only [Saver.handleType] at h
      rw [List.filterMap_cons]
      cases hmk : makeArchivalRecord msg env.exclude with
      | panic => rw [hmk] at h; simp at h
      | err e => rw [hmk] at h; simp only [reportOf, hmk]; exact ih s a b h
      | ok o =>
        cases o with
        | none => rw [hmk] at h; simp only [reportOf, hmk]; exact ih s a b h
        | some ar =>
          rw [hmk] at h
          simp only [reportOf, hmk]
          simp only at h
          cases hs : s.swapAndQueue env { ar with timestamp := t } with
          | none => rw [hs] at h; simp at h
          | some s1 =>
            rw [hs] at h
            simp only at h
            obtain ⟨e1, e2, e3⟩ := ih s1 _ _ h
            refine ⟨by simp only [Saver.swapAll, hs]; exact e1, ?_, ?_⟩
            · rw [e2, show ∀ x (l : List ArchivalRecord), x :: l = [x] ++ l from fun _ _ => rfl, sumSent_append]
              simp [sumSent, UInt64.add_assoc]
            · rw [e3, show ∀ x (l : List ArchivalRecord), x :: l = [x] ++ l from fun _ _ => rfl, sumReceived_append]
              simp [sumReceived, UInt64.add_assoc]

theorem reportOf_complete {ex : Option ExcludeConfig} {t : Int} {m : Option NetlinkMessage} {r : ArchivalRecord} (h : reportOf ex t m = some r) :
    complete r = true := by
  unfold reportOf at h
  split at h
  · simp at h
  · rename_i m
    split at h
    · rename_i r0 hr
      injection h with h; subst h
      obtain ⟨-, h1, h2⟩ := makeArchivalRecord_some hr
      have : r0.rawIDM = some (m.data.take 72) := by
        unfold makeRecord at h2
        split at h2
        · simp at h2
        · simp at h2
        · simp at h2
        · simp only at h2
          injection h2 with h2; injection h2 with h2; rw [← h2]
      simp only [complete, this]
      simp; omega
    · simp at h

theorem reports_complete {ex : Option ExcludeConfig} {b : MessageBlock} {r : ArchivalRecord} (h : r ∈ reports ex b) : complete r = true := by
  rcases List.mem_append.1 h with h | h
  · obtain ⟨m, -, h⟩ := List.mem_filterMap.1 h; exact reportOf_complete h
  · obtain ⟨m, -, h⟩ := List.mem_filterMap.1 h; exact reportOf_complete h

/-- The end of a cycle, up to the report. -/
def LoopState.finish (env : Env) (l : LoopState) : Option LoopState :=
  LoopState.expireAll env l.svr.cache.endCycle.2 (env.order l.svr.tick l.svr.cache.endCycle.2.keys)
    { l with svr := { l.svr with cache := l.svr.cache.endCycle.1, tick := l.svr.tick + 1 } }

theorem block_decompose (env : Env) (l : LoopState) (b : MessageBlock) (l' : LoopState) (h : l.block env b = some l') :
    ∃ s l1 s4 s6 r4 r6, l.svr.swapAll env (reports env.exclude b) = some s ∧ { l with svr := s }.finish env = some l1
      ∧ l' = l1.report b.v4Time s4 s6 r4 r6 ∧ s4 + s6 = sumSent (reports env.exclude b) ∧ r4 + r6 = sumReceived (reports env.exclude b) := by
  unfold LoopState.block at h
  split at h
  · simp at h
  · rename_i s4 a4 b4 h4
    split at h
    · simp at h
    · rename_i s6 a6 b6 h6
      simp only at h
      split at h
      · simp at h
      · rename_i l1 he
        injection h with h
        obtain ⟨x1, x2, x3⟩ := handleType_swapAll env _ _ _ _ _ _ _ _ h4
        obtain ⟨y1, y2, y3⟩ := handleType_swapAll env _ _ _ _ _ _ _ _ h6
        refine ⟨s6, l1, a4, a6, b4, b6, ?_, he, h.symm, ?_, ?_⟩
        · unfold reports; rw [swapAll_append, x1]; exact y1
        · unfold reports; rw [sumSent_append, x2, y2]; simp
        · unfold reports; rw [sumReceived_append, x3, y3]; simp

theorem cycles_update (h : List Call) (r : ArchivalRecord) : cycles (h ++ [.update r]) = ((cycles h).1, if complete r then (cycles h).2 ++ [r] else (cycles h).2) := by
  unfold cycles; rw [List.foldl_append]; rfl
theorem cycles_endCycle (h : List Call) : cycles (h ++ [.endCycle]) = ((cycles h).2, []) := by
  unfold cycles; rw [List.foldl_append]; rfl

theorem cycles_updates (h : List Call) (rs : List ArchivalRecord) (hc : ∀ r ∈ rs, complete r = true) :
    cycles (h ++ rs.map .update) = ((cycles h).1, (cycles h).2 ++ rs) := by
  induction rs generalizing h with
  | nil => simp
  | cons r rs ih =>
    have : h ++ (r :: rs).map Call.update = (h ++ [.update r]) ++ rs.map .update := by simp
    rw [this, ih _ (fun r' hr => hc r' (by simp [hr])), cycles_update, if_pos (hc r (by simp))]
    simp

/-- Induction over runs. `Q` is any property of the reported records. -/
theorem run_induct (env : Env) (P : List Call → LoopState → Prop) (Q : ArchivalRecord → Prop) (h0 : P [] newLoop)
    (hu : ∀ h l r s', complete r = true → Q r → P h l → l.svr.swapAndQueue env r = some s' → P (h ++ [.update r]) { l with svr := s' })
    (he : ∀ h l l1 t s4 s6 r4 r6, P h l → l.finish env = some l1 → s4 + s6 = sumSent (cycles h).2 → r4 + r6 = sumReceived (cycles h).2 →
      P (h ++ [.endCycle]) (l1.report t s4 s6 r4 r6))
    (bs : List MessageBlock) (hQ : ∀ b ∈ bs, ∀ r ∈ reports env.exclude b, Q r) (l : LoopState) (hr : runBlocks env bs = some l) :
    P (history env.exclude bs) l := by
  suffices ∀ (bs : List MessageBlock), (∀ b ∈ bs, ∀ r ∈ reports env.exclude b, Q r) → ∀ (h : List Call) (l0 l : LoopState), (cycles h).2 = [] → P h l0 →
      LoopState.blocks env bs l0 = some l → P (h ++ history env.exclude bs) l by
    simpa using this bs hQ [] newLoop l rfl h0 hr
  intro bs
  induction bs with
  | nil =>
    intro _ h l0 l _ hp hb
    simp only [LoopState.blocks] at hb; injection hb with hb; subst hb
    simpa [history] using hp
  | cons b bs ih =>
    intro hQ h l0 l hcur hp hb
    simp only [LoopState.blocks] at hb
    obtain ⟨l1, hb1, hb2⟩ := Option.bind_eq_some_iff.1 hb
    obtain ⟨s, l2, s4, s6, r4, r6, e1, e2, rfl, e4, e5⟩ := block_decompose env l0 b l1 hb1
    have hupd : ∀ (rs : List ArchivalRecord), (∀ r ∈ rs, complete r = true ∧ Q r) → ∀ (h : List Call) (l : LoopState) (s : Saver), P h l →
        l.svr.swapAll env rs = some s → P (h ++ rs.map .update) { l with svr := s } := by
      intro rs
      induction rs with
      | nil =>
        intro _ h l s hp hs
        simp only [Saver.swapAll] at hs; injection hs with hs; subst hs
        simpa using hp
      | cons r rs ihr =>
        intro hrs h l s hp hs
        simp only [Saver.swapAll] at hs
        obtain ⟨s1, hs1, hs2⟩ := Option.bind_eq_some_iff.1 hs
        have hr := hrs r (by simp)
        have := ihr (fun r' hr' => hrs r' (by simp [hr'])) (h ++ [.update r]) { l with svr := s1 } s (hu h l r s1 hr.1 hr.2 hp hs1) hs2
        simpa using this
    have hcomp : ∀ r ∈ reports env.exclude b, complete r = true := fun r hr => reports_complete hr
    have p1 := hupd (reports env.exclude b) (fun r hr => ⟨hcomp r hr, hQ b (by simp) r hr⟩) h l0 s hp e1
    have hcyc := cycles_updates h (reports env.exclude b) hcomp
    have p2 := he _ _ l2 b.v4Time s4 s6 r4 r6 p1 e2 (by rw [hcyc, hcur, e4]; simp) (by rw [hcyc, hcur, e5]; simp)
    have p3 := ih (fun b' hb' => hQ b' (by simp [hb'])) _ _ l (by rw [cycles_endCycle]) p2 hb2
    have : h ++ history env.exclude (b :: bs) = (h ++ (reports env.exclude b).map .update ++ [.endCycle]) ++ history env.exclude bs := by
      simp [history]
    rw [this]; exact p3

theorem cacheAfter_update (h : List Call) (r : ArchivalRecord) : cacheAfter (h ++ [.update r]) = ((cacheAfter h).update r).1 := by
  unfold cacheAfter; rw [List.foldl_append]; rfl
theorem cacheAfter_endCycle (h : List Call) : cacheAfter (h ++ [.endCycle]) = (cacheAfter h).endCycle.1 := by
  unfold cacheAfter; rw [List.foldl_append]; rfl

theorem expireAll_cache (env : Env) (res : GoMap ArchivalRecord) (ks : List UInt64) (l l' : LoopState)
    (h : LoopState.expireAll env res ks l = some l') : l'.svr.cache = l.svr.cache := by
  induction ks generalizing l with
  | nil => simp only [LoopState.expireAll] at h; injection h with h; subst h; rfl
  | cons k ks ih =>
    simp only [LoopState.expireAll] at h
    obtain ⟨l1, h1, h2⟩ := Option.bind_eq_some_iff.1 h
    rw [ih l1 h2]
    unfold LoopState.expire at h1
    split at h1
    · injection h1 with h1; subst h1; rfl
    · simp only at h1
      split at h1
      · simp at h1
      · rename_i s1 hs
        injection h1 with h1; subst h1
        simp only
        rw [(endConn_cache env _ k s1 hs).1]
        unfold Saver.finalStats
        split
        · split <;> rfl
        · rfl

theorem finish_cache (env : Env) (l l' : LoopState) (h : l.finish env = some l') : l'.svr.cache = l.svr.cache.endCycle.1 :=
  expireAll_cache env _ _ _ _ h

/-- The saver's cache is the cache after the history of reports. -/
theorem run_cache (env : Env) (bs : List MessageBlock) (l : LoopState) (h : runBlocks env bs = some l) :
    l.svr.cache = cacheAfter (history env.exclude bs) := by
  refine run_induct env (fun h l => l.svr.cache = cacheAfter h) (fun _ => True) rfl ?_ ?_ bs (fun _ _ _ _ => trivial) l h
  · intro h l r s' hc _ hp hs
    show s'.cache = _
    rw [swapAndQueue_cache env _ r s' hs, hp, cacheAfter_update]
  · intro h l l1 t s4 s6 r4 r6 hp hf _ _
    show (l1.report t s4 s6 r4 r6).svr.cache = _
    rw [report_cache, finish_cache env l l1 hf, hp, cacheAfter_endCycle]

end TcpInfo
