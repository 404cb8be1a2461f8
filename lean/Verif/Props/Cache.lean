import Verif.Lemmas.GoMap
import Verif.Spec.Cache
import Verif.Lemmas.Record
/-!
# C29, C30, C31: the connection cache
-/

namespace TcpInfo
open Spec

/-- Execute one call, ignoring its answer. -/
def Cache.apply (c : Cache) : Call → Cache
  | .update r => (c.update r).1
  | .endCycle => c.endCycle.1

/-- The cache after a history of calls. -/
def cacheAfter (h : List Call) : Cache := h.foldl Cache.apply newCache

theorem cookieOf_parse {r : ArchivalRecord} (h : complete r = true) :
    ∃ m, parseIDM r.raw = .ok m ∧ cookieOf m = cookie (r.rawIDM.getD []) := by
  have h' : 72 ≤ r.raw.length := of_decide_eq_true h
  refine ⟨_, parseIDM_ok h', ?_⟩
  simp only [cookieOf, LinuxSockID.cookieVal, parseSockID, cookie, ArchivalRecord.raw, sub, List.drop_take, List.take_take, List.drop_drop]
  rfl

theorem lastFor_snoc (k : UInt64) (l : List ArchivalRecord) (r : ArchivalRecord) :
    lastFor k (l ++ [r]) = if cookie (r.rawIDM.getD []) = k then some r else lastFor k l := by
  unfold lastFor
  rw [List.filter_append]
  by_cases h : cookie (r.rawIDM.getD []) = k
  · simp [h]
  · simp [h]

/-- Refinement relation between the cache and the history. -/
structure CacheInv (c : Cache) (prev cur : List ArchivalRecord) : Prop where
  cur_get : ∀ k, c.current.get k = lastFor k cur
  prev_get : ∀ k, c.previous.get k = if lastFor k cur = none then lastFor k prev else none
  wfc : GoMap.WF c.current
  wfp : GoMap.WF c.previous

theorem cacheInv_apply {c : Cache} {p q : List ArchivalRecord} (hi : CacheInv c p q) (call : Call) :
    CacheInv (c.apply call)
      (match call with | .update _ => p | .endCycle => q)
      (match call with | .update r => if complete r then q ++ [r] else q | .endCycle => []) := by
  cases call with
  | endCycle =>
    exact ⟨fun k => rfl, fun k => by simp [Cache.apply, Cache.endCycle, hi.cur_get, lastFor], GoMap.wf_nil, hi.wfc⟩
  | update r =>
    simp only [Cache.apply, Cache.update]
    by_cases hc : complete r = true
    · obtain ⟨m, hm, hk⟩ := cookieOf_parse hc
      rw [if_pos hc]
      simp only [hm, hk]
      refine ⟨?_, ?_, GoMap.wf_set hi.wfc _ _, ?_⟩
      · intro k
        simp only [GoMap.get_set, lastFor_snoc, hi.cur_get]
        by_cases h : k = cookie (r.rawIDM.getD [])
        · simp [h]
        · rw [if_neg h, if_neg (fun e => h e.symm)]
      · intro k
        simp only [lastFor_snoc]
        by_cases h : k = cookie (r.rawIDM.getD [])
        · subst h
          simp only [if_true]
          split
          · simp [GoMap.get_del_self]
          · rename_i hn; simp [hn]
        · have hne : ¬ cookie (r.rawIDM.getD []) = k := fun e => h e.symm
          simp only [if_neg hne]
          rw [← hi.prev_get]
          split
          · exact GoMap.get_del_ne _ h
          · rfl
      · show GoMap.WF (match c.previous.get _ with | some _ => _ | none => _)
        split
        · exact GoMap.wf_del hi.wfp _
        · exact hi.wfp
    · have hs : parseIDM r.raw = .err .parseFailed := parseIDM_short (by
        simp only [complete, decide_eq_true_eq] at hc
        simp only [ArchivalRecord.raw]; omega)
      simp only [hs, hc]
      exact hi

theorem cacheInv_after (h : List Call) : CacheInv (cacheAfter h) (cycles h).1 (cycles h).2 := by
  suffices ∀ (h : List Call) (c : Cache) (p q : List ArchivalRecord), CacheInv c p q →
      CacheInv (h.foldl Cache.apply c)
        (h.foldl (fun (p, c) call => match call with
          | .update r => (p, if complete r then c ++ [r] else c)
          | .endCycle => (c, [])) (p, q)).1
        (h.foldl (fun (p, c) call => match call with
          | .update r => (p, if complete r then c ++ [r] else c)
          | .endCycle => (c, [])) (p, q)).2 by
    exact this h newCache [] [] ⟨fun k => rfl, fun k => by simp [newCache, GoMap.get, lastFor], GoMap.wf_nil, GoMap.wf_nil⟩
  intro h
  induction h with
  | nil => intro c p q hi; exact hi
  | cons call h ih =>
    intro c p q hi
    have := cacheInv_apply hi call
    cases call with
    | endCycle => exact ih _ _ _ this
    | update r => exact ih _ _ _ this

/-- C29. After any history, `Update` of a record with complete header returns the last record stored for that cookie in the previous
cycle when this is the cookie's first update of the current cycle, and nil otherwise. -/
theorem C29_update (h : List Call) (r : ArchivalRecord) (hr : complete r = true) :
    let k := cookie (r.rawIDM.getD [])
    ((cacheAfter h).update r).2 = .ok (if lastFor k (cycles h).2 = none then lastFor k (cycles h).1 else none) := by
  obtain ⟨m, hm, hk⟩ := cookieOf_parse hr
  simp only [Cache.update, hm, hk, (cacheInv_after h).prev_get]

/-- C29. A record without complete header changes nothing and is an error. -/
theorem C29_incomplete (h : List Call) (r : ArchivalRecord) (hr : complete r = false) :
    (cacheAfter h).update r = (cacheAfter h, .err .parseFailed) := by
  have hs : parseIDM r.raw = .err .parseFailed := parseIDM_short (by
    simp only [complete, decide_eq_false_iff_not] at hr
    simp only [ArchivalRecord.raw]; omega)
  simp only [Cache.update, hs]

/-- C30. After any history, the map returned by `EndCycle` holds exactly the cookies seen in the previous cycle and not in the one
just ended, each with its last record, and lists no key twice. -/
theorem C30_endCycle (h : List Call) :
    GoMap.WF (cacheAfter h).endCycle.2
    ∧ ∀ k r, (cacheAfter h).endCycle.2.get k = some r ↔
        (lastFor k (cycles h).1 = some r ∧ ∀ x ∈ (cycles h).2, cookie (x.rawIDM.getD []) ≠ k) := by
  have hi := cacheInv_after h
  refine ⟨hi.wfp, ?_⟩
  intro k r
  show (cacheAfter h).previous.get k = some r ↔ _
  rw [hi.prev_get]
  have hn : lastFor k (cycles h).2 = none ↔ ∀ x ∈ (cycles h).2, cookie (x.rawIDM.getD []) ≠ k := by
    unfold lastFor
    rw [List.getLast?_eq_none_iff, List.filter_eq_nil_iff]
    simp
  rw [← hn]
  by_cases hc : lastFor k (cycles h).2 = none
  · simp [hc]
  · simp [hc]

/-- C31. -/
theorem C31_cycleCount (h : List Call) :
    (cacheAfter h).cycleCount = ((h.filter (fun c => match c with | .endCycle => true | .update _ => false)).length : Int) := by
  suffices ∀ (h : List Call) (c : Cache), (h.foldl Cache.apply c).cycles = c.cycles +
      ((h.filter (fun c => match c with | .endCycle => true | .update _ => false)).length : Int) by
    have := this h newCache
    simp only [newCache, Int.zero_add] at this
    exact this
  intro h
  induction h with
  | nil => simp
  | cons call h ih =>
    intro c
    rw [List.foldl_cons, ih]
    cases call with
    | endCycle => simp [Cache.apply, Cache.endCycle]; omega
    | update r =>
      simp only [Cache.apply, Cache.update, List.filter_cons]
      split <;> simp

/-- A record with a complete header and the given cookie byte. -/
def cacheRec (c : UInt8) (t : Int) : ArchivalRecord :=
  { timestamp := t, rawIDM := some ((List.replicate 72 0).set 44 c), attributes := none, metadata := none }

-- cycle 1: cookies 1, 2; cycle 2: cookie 1. Updating 1 hands back the old record; 2 is what EndCycle returns.
example : complete (cacheRec 1 20) = true
    ∧ ((cacheAfter [.update (cacheRec 1 10), .update (cacheRec 2 10), .endCycle]).update (cacheRec 1 20)).2 = .ok (some (cacheRec 1 10)) := by
  decide +kernel
example : (cacheAfter [.update (cacheRec 1 10), .update (cacheRec 2 10), .endCycle, .update (cacheRec 1 20)]).endCycle.2
    = [(2, cacheRec 2 10)] := by decide +kernel
example : complete { timestamp := 0, rawIDM := some [1, 2, 3], attributes := none, metadata := none } = false := by decide

end TcpInfo
