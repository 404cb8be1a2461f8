import Verif.Lemmas.SaverLife
/-!
# Consequences of the file invariants for complete runs
-/

namespace TcpInfo
open Spec

/-- Induction from the right. -/
theorem snoc_induction {α : Type} {P : List α → Prop} (nil : P []) (step : ∀ l a, P l → P (l ++ [a])) (l : List α) : P l := by
  have : ∀ l : List α, P l.reverse := by
    intro l
    induction l with
    | nil => exact nil
    | cons a l ih => rw [List.reverse_cons]; exact step _ _ ih
  simpa using this l.reverse

/-- After `endConn k` the connection `k`, if still there, has no open file; other connections are unchanged. -/
theorem endConn_conns {env : Env} {s s' : Saver} {k : UInt64} (h : s.endConn env k = some s') :
    (∀ c, s'.conns.get k = some c → c.writer = none) ∧ (∀ k', k' ≠ k → s'.conns.get k' = s.conns.get k') := by
  unfold Saver.endConn at h
  simp only at h
  split at h
  · simp at h
  · split at h
    · rename_i c hc
      split at h
      · injection h with h; subst h
        refine ⟨fun c' hc' => ?_, fun k' hne => ?_⟩
        · simp only [GoMap.get_del_self] at hc'; simp at hc'
        · simp only [GoMap.get_del_ne _ hne]; rfl
      · rename_i hw
        injection h with h; subst h
        refine ⟨fun c' hc' => ?_, fun k' hne => rfl⟩
        have h1 : some c' = some c := hc'.symm.trans hc
        injection h1 with h1; subst h1
        cases hcw : c'.writer with
        | none => rfl
        | some w => simp [hcw] at hw
    · rename_i hc
      injection h with h; subst h
      refine ⟨fun c' hc' => ?_, fun k' hne => rfl⟩
      have h1 : some c' = none := hc'.symm.trans hc
      simp at h1

/-- After `endAll ks` no connection among `ks`, and none that had no open file before, has an open file. -/
theorem endAll_conns {env : Env} (ks : List UInt64) {s s' : Saver} (h : Saver.endAll env ks s = some s') :
    ∀ k c, s'.conns.get k = some c → (k ∈ ks ∨ ∀ c, s.conns.get k = some c → c.writer = none) → c.writer = none := by
  induction ks generalizing s with
  | nil =>
    simp only [Saver.endAll] at h; injection h with h; subst h
    intro k c hc hk
    rcases hk with hk | hk
    · simp at hk
    · exact hk c hc
  | cons k ks ih =>
    simp only [Saver.endAll] at h
    obtain ⟨s1, h1, h2⟩ := Option.bind_eq_some_iff.1 h
    obtain ⟨e1, e2⟩ := endConn_conns h1
    intro k' c hc hk
    refine ih h2 k' c hc ?_
    by_cases hkk : k' = k
    · subst hkk; exact Or.inr e1
    · rcases hk with hk | hk
      · rcases List.mem_cons.1 hk with hk | hk
        · exact absurd hk hkk
        · exact Or.inl hk
      · exact Or.inr (by rw [e2 k' hkk]; exact hk)

/-- In a complete run all connections have been closed. -/
theorem runSaver_closed {env : Env} {bs : List MessageBlock} {s : Saver} (h : runSaver env bs = some s) :
    ∃ s1, s = s1.emit .closeChans ∧ Steps env newSaver s1 ∧ ∀ k c, s1.conns.get k = some c → c.writer = none := by
  obtain ⟨l, s1, h1, h2, rfl, h4⟩ := steps_runSaver env bs s h
  refine ⟨s1, rfl, h4, ?_⟩
  intro k c hc
  refine endAll_conns _ h2 k c hc ?_
  by_cases hk : k ∈ l.svr.conns.keys
  · exact Or.inl ((env.order_perm _ _).mem_iff.2 hk)
  · refine Or.inr ?_
    intro c' hc'
    have : l.svr.conns.get k = none := (GoMap.get_eq_none_iff _ _).2 hk
    have h1 : some c' = none := hc'.symm.trans this
    simp at h1

/-- Every queued task has a writer, and goes to a queue chosen by a cookie. -/
def SendInv (env : Env) (s : Saver) : Prop :=
  ∀ a ∈ s.trace, ∀ q t, a.act = .send q t → (∃ w, t.writer = some w) ∧ ∃ k, q = queueOf env k

theorem sendInv_step (env : Env) (s t : Saver) (hst : Step env s t) (hi : SendInv env s) : SendInv env t := by
  have snoc : ∀ (tr : List Stamped) (x : Stamped), (∀ a ∈ tr, ∀ q t, a.act = .send q t → (∃ w, t.writer = some w) ∧ ∃ k, q = queueOf env k) →
      (∀ q t, x.act = .send q t → (∃ w, t.writer = some w) ∧ ∃ k, q = queueOf env k) →
      ∀ a ∈ tr ++ [x], ∀ q t, a.act = .send q t → (∃ w, t.writer = some w) ∧ ∃ k, q = queueOf env k := by
    intro tr x h1 h2 a ha
    rcases List.mem_append.1 ha with ha | ha
    · exact h1 a ha
    · have : a = x := by simpa using ha
      subst this; exact h2
  cases hst with
  | other h1 h2 h3 h4 h5 => unfold SendInv; rw [h3]; exact hi
  | clock => exact hi
  | observe a ha =>
    refine snoc _ _ hi ?_
    intro q t h
    rcases ha with ⟨n, rfl⟩ | ⟨n, rfl⟩ <;> simp at h
  | create k idm ts hn hk0 hk => exact snoc _ _ hi (by intro q t h; simp at h)
  | closeExpired k c w hk hw hexp =>
    refine snoc _ _ hi ?_
    intro q t h
    injection h with h1 h2; subst h1; subst h2
    exact ⟨⟨w, rfl⟩, k, rfl⟩
  | touch k c hk => exact hi
  | rotate k c dir hk hw hd0 hd1 => exact snoc _ _ hi (by intro q t h; simp at h)
  | write k c w msg idm hk hw hp hck hexp =>
    refine snoc _ _ hi ?_
    intro q t h
    injection h with h1 h2; subst h1; subst h2
    exact ⟨⟨w, rfl⟩, k, rfl⟩
  | endClose k c w hk hw =>
    refine snoc _ _ (snoc _ _ hi ?_) ?_
    · intro q t h; simp at h
    · intro q t h
      injection h with h1 h2; subst h1; subst h2
      exact ⟨⟨w, rfl⟩, k, rfl⟩
  | endGone k hg => exact snoc _ _ hi (by intro q t h; simp at h)

theorem sendInv_run {env : Env} {s : Saver} (h : Steps env newSaver s) : SendInv env s :=
  h.inv (sendInv_step env) (fun a ha => by simp [newSaver] at ha)

theorem fileEvents_closeChans (w : Nat) (s : Saver) : fileEvents w (s.emit .closeChans).trace = fileEvents w s.trace := by
  simp [Saver.emit, fileEvents_snoc, fileEvent]

theorem lifeRun_append (b : Bool) (u : String) (st : Option Life) (t1 t2 : List Stamped) :
    lifeRun b u st (t1 ++ t2) = (lifeRun b u st t1).bind (fun st => lifeRun b u st t2) := by
  induction t1 generalizing st with
  | nil => rfl
  | cons x t1 ih =>
    simp only [List.cons_append, lifeRun]
    cases lifeStep b u st x with
    | none => rfl
    | some st' => exact ih st'

/-- Without a new `FlowCreated` the number of files does not go down. -/
theorem lifeRun_files (b : Bool) (u : String) (tr : List Stamped) (hno : ∀ a ∈ tr, ∀ t id, a.act ≠ .flowCreated t u id) (l : Life) (st : Option Life)
    (h : lifeRun b u (some l) tr = some st) : ∃ l', st = some l' ∧ l.files ≤ l'.files := by
  induction tr generalizing l with
  | nil => simp only [lifeRun] at h; injection h with h; exact ⟨l, h.symm, Nat.le_refl _⟩
  | cons x tr ih =>
    simp only [lifeRun] at h
    obtain ⟨st1, h1, h2⟩ := Option.bind_eq_some_iff.1 h
    have hstep : ∃ l1, st1 = some l1 ∧ l.files ≤ l1.files := by
      unfold lifeStep at h1
      split at h1
      · rename_i t u' id ha
        split at h1
        · rename_i hu; subst hu
          exact absurd ha (hno x (by simp) t id)
        · injection h1 with h1; exact ⟨l, h1.symm, Nat.le_refl _⟩
      · split at h1
        · simp only at h1
          split at h1
          · injection h1 with h1; exact ⟨_, h1.symm, Nat.le_succ _⟩
          · simp at h1
        · injection h1 with h1; exact ⟨l, h1.symm, Nat.le_refl _⟩
      · simp only at h1
        split at h1
        · split at h1
          · injection h1 with h1; exact ⟨_, h1.symm, Nat.le_refl _⟩
          · simp at h1
        · injection h1 with h1; exact ⟨l, h1.symm, Nat.le_refl _⟩
      · injection h1 with h1; exact ⟨l, h1.symm, Nat.le_refl _⟩
    obtain ⟨l1, rfl, hle⟩ := hstep
    obtain ⟨l', e, hle'⟩ := ih (fun a ha => hno a (List.mem_cons_of_mem _ ha)) l1 h2
    exact ⟨l', e, Nat.le_trans hle hle'⟩

/-- A successful open step: sequence number and new state. -/
theorem lifeStep_open {b : Bool} {u : String} {st st' : Option Life} {t : Int} {w : Nat} {n : FileName} {h : ArchivalRecord} (hu : n.uuid = u)
    (hs : lifeStep b u st ⟨t, .openFile w n h⟩ = some st') :
    ∃ l l', st = some l ∧ st' = some l' ∧ n.sequence = l.files ∧ l'.files = l.files + 1 := by
  unfold lifeStep at hs
  simp only at hs
  rw [if_pos hu] at hs
  split at hs
  · simp at hs
  · rename_i l
    split at hs
    · rename_i hc
      injection hs with hs
      exact ⟨l, _, rfl, hs.symm, hc.1, rfl⟩
    · simp at hs

/-- The file opened by an action belongs to a cookie. -/
theorem finv_name {env : Env} {s : Saver} (hi : FInv env s) {a : Stamped} {w : Nat} {n : FileName} {h : ArchivalRecord} (ha : a ∈ s.trace)
    (hact : a.act = .openFile w n h) : ∃ k, n.uuid = env.uuid k := by
  have hm : FileEvent.opened n h ∈ fileEvents w s.trace := by
    unfold fileEvents
    rw [List.mem_filterMap]
    exact ⟨a, ha, by simp [hact, fileEvent]⟩
  by_cases hw : w < s.nextWriter
  · obtain ⟨k, n', h', ws, ho, hh⟩ := hi.files w hw
    rcases hh with ⟨e, -⟩ | ⟨e, -⟩
    · rw [e] at hm
      simp at hm
      obtain ⟨rfl, rfl⟩ := hm
      exact ⟨k, ho.name⟩
    · rw [e] at hm
      simp at hm
      obtain ⟨rfl, rfl⟩ := hm
      exact ⟨k, ho.name⟩
  · rw [hi.fresh w (by omega)] at hm
    simp at hm

end TcpInfo
