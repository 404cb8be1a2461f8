import Verif.Lemmas.SaverFiles
/-!
# How a trace is put together

A property of traces that is kept by concatenation holds of the trace of a run if it holds of what one call of `queue` adds, and of every action that opens no
file.
-/

namespace TcpInfo
open Spec

/-- The trace of `t` is that of `s` and then a part with property `F`. -/
def Grow (F : List Stamped → Prop) (s t : Saver) : Prop := ∃ ext, t.trace = s.trace ++ ext ∧ F ext

/-- What has to be known about `F`. -/
structure Parts (env : Env) (F : List Stamped → Prop) : Prop where
  nil : F []
  append : ∀ a b, F a → F b → F (a ++ b)
  other : ∀ a : Stamped, (∀ w n h, a.act ≠ .openFile w n h) → F [a]
  queue : ∀ s msg s' e, s.queue env msg = some (s', e) → Grow F s s'

namespace Parts
variable {env : Env} {F : List Stamped → Prop}

theorem same (p : Parts env F) {s t : Saver} (h : t.trace = s.trace) : Grow F s t := ⟨[], by simp [h], p.nil⟩

theorem trans (p : Parts env F) {s t u : Saver} (h1 : Grow F s t) (h2 : Grow F t u) : Grow F s u := by
  obtain ⟨a, ha, fa⟩ := h1
  obtain ⟨b, hb, fb⟩ := h2
  exact ⟨a ++ b, by rw [hb, ha, List.append_assoc], p.append a b fa fb⟩

theorem one (p : Parts env F) (s : Saver) (a : Action) (h : ∀ w n hd, a ≠ .openFile w n hd) : Grow F s (s.emit a) :=
  ⟨[⟨s.clock, a⟩], rfl, p.other _ h⟩

theorem endConn (p : Parts env F) (s : Saver) (k : UInt64) (s' : Saver) (h : s.endConn env k = some s') : Grow F s s' := by
  unfold Saver.endConn at h
  simp only at h
  have h0 : Grow F s ((s.readClock env).emit (.flowDeleted (env.wall (s.readClock env).clock) (env.uuid k))) :=
    p.trans (p.same (t := s.readClock env) rfl) (p.one _ _ (by simp))
  split at h
  · simp at h
  · split at h
    · split at h
      · injection h with h; subst h
        exact p.trans h0 (p.trans (p.one _ (.send _ _) (by simp)) (p.same rfl))
      · injection h with h; subst h; exact h0
    · injection h with h; subst h; exact h0

theorem swapAndQueue (p : Parts env F) (s : Saver) (pm : ArchivalRecord) (s' : Saver) (h : s.swapAndQueue env pm = some s') : Grow F s s' := by
  unfold Saver.swapAndQueue at h
  simp only at h
  split at h
  · simp at h
  · injection h with h; subst h; exact p.same rfl
  · obtain ⟨⟨s1, e⟩, hq, rfl⟩ := Option.map_eq_some_iff.1 h
    obtain ⟨ext, he, hf⟩ := p.queue _ pm _ e hq
    exact ⟨ext, he, hf⟩
  · split at h
    · simp at h
    · injection h with h; subst h; exact p.same rfl
    · rename_i idm hp
      have hcl : ∀ (s0 : Saver) k old, (s0.recordClosing k pm old).trace = s0.trace := by
        intro s0 k old
        unfold Saver.recordClosing
        split <;> rfl
      split at h
      · simp at h
      · injection h with h; subst h; exact p.same (hcl _ _ _)
      · split at h
        · obtain ⟨⟨s1, e⟩, hq, rfl⟩ := Option.map_eq_some_iff.1 h
          obtain ⟨ext, he, hf⟩ := p.queue _ pm _ e hq
          simp only [hcl] at he
          exact ⟨ext, he, hf⟩
        · injection h with h; subst h; exact p.same (hcl _ _ _)

theorem handleType (p : Parts env F) (t : Int) (msgs : List (Option NetlinkMessage)) (s : Saver) (a b : UInt64) (r : Saver × UInt64 × UInt64)
    (h : s.handleType env t msgs a b = some r) : Grow F s r.1 := by
  induction msgs generalizing s a b with
  | nil => simp only [Saver.handleType] at h; injection h with h; subst h; exact p.same rfl
  | cons m msgs ih =>
    cases m with
    | none => exact ih s a b h
    | some msg =>
      simp only [Saver.handleType] at h
      split at h
      · simp at h
      · exact ih s a b h
      · exact ih s a b h
      · split at h
        · simp at h
        · rename_i s1 hs
          exact p.trans (p.swapAndQueue s _ s1 hs) (ih s1 _ _ h)

theorem expire (p : Parts env F) (res : GoMap ArchivalRecord) (l : LoopState) (k : UInt64) (l' : LoopState)
    (h : l.expire env res k = some l') : Grow F l.svr l'.svr := by
  unfold LoopState.expire at h
  split at h
  · injection h with h; subst h; exact p.same rfl
  · simp only at h
    split at h
    · simp at h
    · rename_i s1 hs
      injection h with h; subst h
      refine p.trans (p.trans ?_ (p.endConn _ k _ hs)) (p.same rfl)
      unfold Saver.finalStats
      split
      · split <;> exact p.same rfl
      · exact p.same rfl

theorem expireAll (p : Parts env F) (res : GoMap ArchivalRecord) (ks : List UInt64) (l l' : LoopState)
    (h : LoopState.expireAll env res ks l = some l') : Grow F l.svr l'.svr := by
  induction ks generalizing l with
  | nil => simp only [LoopState.expireAll] at h; injection h with h; subst h; exact p.same rfl
  | cons k ks ih =>
    simp only [LoopState.expireAll] at h
    obtain ⟨l1, h1, h2⟩ := Option.bind_eq_some_iff.1 h
    exact p.trans (p.expire res l k l1 h1) (ih l1 h2)

theorem report (p : Parts env F) (l : LoopState) (t : Int) (a b c d : UInt64) : Grow F l.svr (l.report t a b c d).svr := by
  unfold LoopState.report
  split
  · simp only
    split
    · split
      · exact p.same rfl
      · exact p.one _ _ (by simp)
    · split
      · exact p.one _ _ (by simp)
      · exact p.trans (p.one _ (.observeSent _) (by simp)) (p.one _ (.observeReceived _) (by simp))
  · exact p.same rfl

theorem block (p : Parts env F) (l : LoopState) (b : MessageBlock) (l' : LoopState) (h : l.block env b = some l') : Grow F l.svr l'.svr := by
  unfold LoopState.block at h
  split at h
  · simp at h
  · rename_i s4 a1 b1 h4
    split at h
    · simp at h
    · rename_i s6 a2 b2 h6
      simp only at h
      split at h
      · simp at h
      · rename_i l1 he
        injection h with h; subst h
        have e1 := p.handleType _ _ _ _ _ _ h4
        have e2 := p.handleType _ _ _ _ _ _ h6
        refine p.trans (p.trans (p.trans e1 e2) ?_) (p.report _ _ _ _ _ _)
        exact p.trans (p.same rfl) (p.expireAll _ _ _ _ he)

theorem blocks (p : Parts env F) (bs : List MessageBlock) (l l' : LoopState) (h : LoopState.blocks env bs l = some l') : Grow F l.svr l'.svr := by
  induction bs generalizing l with
  | nil => simp only [LoopState.blocks] at h; injection h with h; subst h; exact p.same rfl
  | cons b bs ih =>
    simp only [LoopState.blocks] at h
    obtain ⟨l1, h1, h2⟩ := Option.bind_eq_some_iff.1 h
    exact p.trans (p.block l b l1 h1) (ih l1 h2)

theorem endAll (p : Parts env F) (ks : List UInt64) (s s' : Saver) (h : Saver.endAll env ks s = some s') : Grow F s s' := by
  induction ks generalizing s with
  | nil => simp only [Saver.endAll] at h; injection h with h; subst h; exact p.same rfl
  | cons k ks ih =>
    simp only [Saver.endAll] at h
    obtain ⟨l1, h1, h2⟩ := Option.bind_eq_some_iff.1 h
    exact p.trans (p.endConn s k l1 h1) (ih l1 h2)

/-- The trace of a complete run has the property. -/
theorem run (p : Parts env F) (bs : List MessageBlock) (s : Saver) (h : runSaver env bs = some s) : F s.trace := by
  obtain ⟨l, s1, h1, h2, rfl, -⟩ := steps_runSaver env bs s h
  have g1 : Grow F newSaver l.svr := p.blocks bs newLoop l h1
  have g2 : Grow F l.svr s1 := by
    obtain ⟨ext, he, hf⟩ := p.endAll _ _ _ h2
    exact ⟨ext, he, hf⟩
  obtain ⟨ext, he, hf⟩ := p.trans (p.trans g1 g2) (p.one s1 .closeChans (by simp))
  rw [he]
  simpa [newSaver] using hf

end Parts
end TcpInfo
