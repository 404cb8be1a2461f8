import Verif.Lemmas.SaverNotes
/-!
# What becomes of a connection when files cannot be created
-/

namespace TcpInfo
open Spec

/-- Of a saver: whether it knows connection `k`, and whether it has an open file for it. -/
def Saver.knows (s : Saver) (k : UInt64) : Bool := (s.conns.get k).isSome
/-- See `knows`. -/
def Saver.filed (s : Saver) (k : UInt64) : Bool := (s.conns.get k).any (·.writer.isSome)

theorem rotate_writer (env : Env) (s : Saver) (c : Conn) (h : (s.rotate env c).2.2 ≠ none) : (s.rotate env c).2.1.writer = none := by
  unfold Saver.rotate at h ⊢
  simp only at h ⊢
  split
  · rfl
  · rename_i h1; rw [if_neg h1] at h; exact absurd rfl h

/-- What `queue` leaves of the connection. -/
theorem queue_conn (env : Env) (s s' : Saver) (r : ArchivalRecord) (idm : InetDiagMsg) (hp : parseIDM r.raw = .ok idm) (e : Option GoErr)
    (h : s.queue env r = some (s', e)) :
    ((cookieOf idm = 0 ∨ env.marshallers < 1) → s' = s ∧ e ≠ none)
    ∧ (cookieOf idm ≠ 0 → 1 ≤ env.marshallers → s'.knows (cookieOf idm) = true ∧ s'.filed (cookieOf idm) = e.isNone) := by
  unfold Saver.queue at h
  rw [hp] at h
  simp only at h
  by_cases hk : cookieOf idm = 0
  · rw [if_pos hk] at h
    injection h with h; injection h with h1 h2; subst h1 h2
    exact ⟨fun _ => ⟨rfl, by simp⟩, fun h => absurd hk h⟩
  · rw [if_neg hk] at h
    by_cases hm : env.marshallers < 1
    · rw [if_pos hm] at h
      injection h with h; injection h with h1 h2; subst h1 h2
      exact ⟨fun _ => ⟨rfl, by simp⟩, fun _ h => by omega⟩
    · rw [if_neg hm] at h
      refine ⟨fun h => by rcases h with h | h <;> contradiction, fun _ _ => ?_⟩
      generalize s.getConn env (cookieOf idm) idm r.timestamp = sc at h
      generalize sc.1.closeExpired env (cookieOf idm) sc.2 = sc2 at h
      have g : ((if sc2.2.writer = none then sc2.1.rotate env sc2.2 else (sc2.1, sc2.2, none)).2.2 = none →
            ∃ w, (if sc2.2.writer = none then sc2.1.rotate env sc2.2 else (sc2.1, sc2.2, none)).2.1.writer = some w)
          ∧ ((if sc2.2.writer = none then sc2.1.rotate env sc2.2 else (sc2.1, sc2.2, none)).2.2 ≠ none →
            (if sc2.2.writer = none then sc2.1.rotate env sc2.2 else (sc2.1, sc2.2, none)).2.1.writer = none) := by
        split
        · exact ⟨(rotate_effect env sc2.1 sc2.2).2.2.2.1, rotate_writer env sc2.1 sc2.2⟩
        · rename_i hw
          exact ⟨fun _ => Option.ne_none_iff_exists'.1 hw, fun h => absurd rfl h⟩
      generalize (if sc2.2.writer = none then sc2.1.rotate env sc2.2 else (sc2.1, sc2.2, none)) = sce at h g
      split at h
      · rename_i e' he
        injection h with h; injection h with h1 h2; subst h1 h2
        have := g.2 (by rw [he]; simp)
        simp [Saver.knows, Saver.filed, GoMap.get_set_self, this]
      · rename_i he
        injection h with h; injection h with h1 h2; subst h1 h2
        obtain ⟨w, hw⟩ := g.1 he
        simp [Saver.knows, Saver.filed, Saver.emit, GoMap.get_set_self, hw]

/-- `swapAndQueue` calls `queue` or leaves connections and trace alone. -/
theorem swap_cases (env : Env) (s s' : Saver) (r : ArchivalRecord) (h : s.swapAndQueue env r = some s') :
    (s'.conns = s.conns ∧ s'.trace = s.trace ∧ s'.stats.new = s.stats.new ∧ s'.stats.diff = s.stats.diff)
    ∨ ∃ (s0 : Saver) (e : Option GoErr), s0.conns = s.conns ∧ s0.trace = s.trace ∧ s0.queue env r = some (s', e) := by
  have hq : ∀ s0 : Saver, s0.conns = s.conns → s0.trace = s.trace → (s0.queue env r).map (·.1) = some s' →
      ∃ (s0 : Saver) (e : Option GoErr), s0.conns = s.conns ∧ s0.trace = s.trace ∧ s0.queue env r = some (s', e) := by
    intro s0 h0 h0' h1
    obtain ⟨⟨s1, e⟩, h2, h3⟩ := Option.map_eq_some_iff.1 h1
    subst h3
    exact ⟨s0, e, h0, h0', h2⟩
  unfold Saver.swapAndQueue at h
  simp only at h
  generalize s.cache.update r = cu at h
  obtain ⟨c, o⟩ := cu
  cases o with
  | panic => simp at h
  | err e => simp only [Option.some.injEq] at h; subst h; exact Or.inl ⟨rfl, rfl, rfl, rfl⟩
  | ok o =>
    cases o with
    | none => simp only at h; right; refine hq _ ?_ ?_ h <;> rfl
    | some cached =>
      simp only at h
      generalize hold : env.view s.tick cached = old at h
      split at h
      · simp at h
      · injection h with h; subst h; exact Or.inl ⟨rfl, rfl, rfl, rfl⟩
      · split at h
        · simp at h
        · injection h with h; subst h
          obtain ⟨a, b, c, -⟩ := recordClosing_frame { s with cache := c, stats := { s.stats with total := s.stats.total + 1 }, tick := s.tick + 1 } (cookieOf _) r old
          exact Or.inl ⟨a, b, by rw [c], by rw [c]⟩
        · split at h
          · right
            refine hq _ ?_ ?_ h
            · exact (recordClosing_frame _ _ _ _).1
            · exact (recordClosing_frame _ _ _ _).2.1
          · injection h with h; subst h
            obtain ⟨a, b, c, -⟩ := recordClosing_frame { s with cache := c, stats := { s.stats with total := s.stats.total + 1 }, tick := s.tick + 1 } (cookieOf _) r old
            exact Or.inl ⟨a, b, by rw [c], by rw [c]⟩

/-- What a due report leaves of its connection: it is known, and has a file exactly if the report was handed to it. -/
theorem swap_conn (env : Env) (hview : ∀ n r, env.view n r = r) (h : List Call) (s s' : Saver) (hc : s.cache = cacheAfter h) (r : ArchivalRecord)
    (hr : complete r = true) (hi : InfoOK r) (hh : ∀ p ∈ (cycles h).1, InfoOK p) (hs : s.swapAndQueue env r = some s') (hm : 1 ≤ env.marshallers) :
    (¬ Due h r ∨ ck r = 0 → s'.conns = s.conns ∧ s'.trace = s.trace)
    ∧ (Due h r → ck r ≠ 0 → s'.knows (ck r) = true
      ∧ written s'.trace = written s.trace ++ (if s'.filed (ck r) = true then [r] else [])) := by
  obtain ⟨s1, e1, -, -, -, e5, e6, -, -, e8, e9, e10⟩ := swap_effect env hview h s hc r hr hi hh
  have : s1 = s' := Option.some.inj (e1.symm.trans hs)
  subst this
  obtain ⟨idm, hidm, hck⟩ := cookieOf_parse hr
  have hq : Due h r → ∃ (s0 : Saver) (e : Option GoErr), s0.conns = s.conns ∧ s0.trace = s.trace ∧ s0.queue env r = some (s1, e) := by
    intro hd
    rcases swap_cases env s s1 r hs with ⟨-, -, a, b⟩ | h
    · exfalso
      by_cases hn : reference h r = none
      · have := (e5 hn).1; omega
      · have := (e6 hn).2.1 hd; omega
    · exact h
  refine ⟨?_, ?_⟩
  · by_cases hd : Due h r
    · rintro (h | h0)
      · exact absurd hd h
      · obtain ⟨s0, e, a, b, c⟩ := hq hd
        have := (queue_conn env s0 s1 r idm hidm e c).1 (Or.inl (hck.trans h0))
        rw [this.1]; exact ⟨a, b⟩
    · intro _; exact e9 hd
  · intro hd h0
    obtain ⟨s0, e, a, b, c⟩ := hq hd
    have q := (queue_conn env s0 s1 r idm hidm e c).2 (by rw [hck]; exact h0) hm
    rw [hck] at q
    obtain ⟨s2, e', c', -, w, -⟩ := queue_effect env s0 r idm hidm
    rw [c] at c'
    injection c' with c'; injection c' with h1 h2; subst h1 h2
    refine ⟨q.1, ?_⟩
    rw [w, b, q.2]
    cases e <;> rfl

/-- What `endConn` leaves of connections. -/
theorem endConn_conn (env : Env) (s s' : Saver) (k : UInt64) (h : s.endConn env k = some s') :
    (∀ k', k' ≠ k → s'.conns.get k' = s.conns.get k') ∧ (s.filed k = true → s'.conns.get k = none) ∧ (s.filed k = false → s'.conns.get k = s.conns.get k) := by
  unfold Saver.endConn at h
  simp only at h
  have e : ((s.readClock env).emit (.flowDeleted (env.wall (s.readClock env).clock) (env.uuid k))).conns = s.conns := rfl
  rw [e] at h
  split at h
  · simp at h
  · split at h
    · rename_i conn hc
      split at h
      · rename_i hw
        injection h with h; subst h
        refine ⟨fun k' hne => ?_, fun _ => ?_, fun hf => ?_⟩
        · simp [GoMap.get_del, hne]
        · simp [GoMap.get_del]
        · simp [Saver.filed, hc, hw] at hf
      · rename_i hw
        injection h with h; subst h
        refine ⟨fun _ _ => rfl, fun hf => ?_, fun _ => rfl⟩
        simp [Saver.filed, hc] at hf
        simp [hf] at hw
    · rename_i hc
      injection h with h; subst h
      exact ⟨fun _ _ => rfl, fun _ => hc, fun _ => rfl⟩

theorem expireAll_conn (env : Env) (res : GoMap ArchivalRecord) (ks : List UInt64) (hn : ks.Nodup) (l l' : LoopState)
    (h : LoopState.expireAll env res ks l = some l') (hk : ∀ k ∈ ks, res.get k ≠ none) :
    (∀ k, k ∉ ks → l'.svr.conns.get k = l.svr.conns.get k)
    ∧ ∀ k ∈ ks, (l.svr.filed k = true → l'.svr.conns.get k = none) ∧ (l.svr.filed k = false → l'.svr.conns.get k = l.svr.conns.get k) := by
  induction ks generalizing l with
  | nil => simp only [LoopState.expireAll] at h; injection h with h; subst h; exact ⟨fun _ _ => rfl, by simp⟩
  | cons k ks ih =>
    simp only [LoopState.expireAll] at h
    obtain ⟨l1, h1, h2⟩ := Option.bind_eq_some_iff.1 h
    rw [List.nodup_cons] at hn
    obtain ⟨i1, i2⟩ := ih hn.2 l1 h2 (fun k' hk' => hk k' (by simp [hk']))
    have s1 : (∀ k', k' ≠ k → l1.svr.conns.get k' = l.svr.conns.get k') ∧ (l.svr.filed k = true → l1.svr.conns.get k = none)
        ∧ (l.svr.filed k = false → l1.svr.conns.get k = l.svr.conns.get k) := by
      unfold LoopState.expire at h1
      split at h1
      · rename_i hx; exact absurd hx (hk k (by simp))
      · simp only at h1
        split at h1
        · simp at h1
        · rename_i s1 hs1
          injection h1 with h1; subst h1
          have := endConn_conn env _ s1 k hs1
          simp only [Saver.filed, (finalStats_frame _ _ _).1] at this
          exact this
    refine ⟨?_, ?_⟩
    · intro k' hk'
      rw [List.mem_cons, not_or] at hk'
      rw [i1 k' hk'.2, s1.1 k' hk'.1]
    · intro k' hk'
      by_cases hkk : k' = k
      · subst hkk; rw [i1 k' hn.1]; exact s1.2
      · have hm : k' ∈ ks := by simpa [hkk] using hk'
        have e := s1.1 k' hkk
        have := i2 k' hm
        simp only [Saver.filed, e] at this
        exact this

/-- What the end of a cycle leaves of connections: one that is gone is forgotten if it has a file, otherwise it is kept. -/
theorem finish_conn (env : Env) (h : List Call) (l l' : LoopState) (hc : l.svr.cache = cacheAfter h) (hf : l.finish env = some l') (k : UInt64) :
    (¬ (lastFor k (cycles h).1 ≠ none ∧ lastFor k (cycles h).2 = none) → l'.svr.conns.get k = l.svr.conns.get k)
    ∧ ((lastFor k (cycles h).1 ≠ none ∧ lastFor k (cycles h).2 = none) →
        (l.svr.filed k = true → l'.svr.conns.get k = none) ∧ (l.svr.filed k = false → l'.svr.conns.get k = l.svr.conns.get k)) := by
  unfold LoopState.finish at hf
  rw [hc] at hf
  have hperm := env.order_perm l.svr.tick (cacheAfter h).endCycle.2.keys
  have hmem : ∀ k, k ∈ env.order l.svr.tick (cacheAfter h).endCycle.2.keys ↔ (lastFor k (cycles h).1 ≠ none ∧ lastFor k (cycles h).2 = none) := by
    intro k; rw [hperm.mem_iff, residual_mem]
  have hnd : (env.order l.svr.tick (cacheAfter h).endCycle.2.keys).Nodup := hperm.nodup_iff.2 (C30_endCycle h).1
  have hks : ∀ k ∈ env.order l.svr.tick (cacheAfter h).endCycle.2.keys, (cacheAfter h).endCycle.2.get k ≠ none := by
    intro k hk
    rw [hperm.mem_iff, GoMap.mem_keys_iff] at hk
    obtain ⟨r, hr⟩ := hk
    rw [hr]; simp
  obtain ⟨a, b⟩ := expireAll_conn env _ _ hnd _ _ hf hks
  exact ⟨fun hk => a k (fun x => hk ((hmem k).1 x)), fun hk => b k ((hmem k).2 hk)⟩

end TcpInfo
