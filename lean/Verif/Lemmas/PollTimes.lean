import Verif.Spec.PollTimes
import Verif.Props.Ticker
/-!
# Lemmas about the steps of a poll
-/

namespace TcpInfo
open Spec

/-- Number of events of a poll that have taken place. -/
def pollDone (s : Poll.State) : Nat :=
  if s.tk.pc = .polling then
    match s.stage with
    | .begin6 => 1 | .dump6 => 2 | .defer6 => 3 | .stamp6 => 4 | .begin4 => 5 | .dump4 => 6 | .defer4 => 7 | .stamp4 => 8 | .send => 9
  else 0

structure PollInv (ps : List PollRec) (cur : PollRec) (s : Poll.State) : Prop where
  log : s.log = ps.flatMap PollRec.entries ++ cur.entries.take (pollDone s)
  begun : s.tk.begun = ps.map (·.begun.1) ++ (if s.tk.pc = .polling then [cur.begun.1] else [])
  start6 : pollDone s = 2 ∨ pollDone s = 3 → s.start = cur.asked6.1
  start4 : pollDone s = 6 ∨ pollDone s = 7 → s.start = cur.asked4.1
  res6 : 3 ≤ pollDone s → s.res6 = (cur.msgs6, cur.err6)
  res4 : 7 ≤ pollDone s → s.res4 = (cur.msgs4, cur.err4)
  t6 : 5 ≤ pollDone s → s.t6 = cur.read6.2
  t4 : 9 ≤ pollDone s → s.t4 = cur.read4.2

theorem pollDone_lt (s : Poll.State) : pollDone s < 10 := by
  unfold pollDone
  split
  · cases s.stage <;> decide
  · decide

theorem pollInv_init (t off : Int) (b : Bool) : PollInv [] default (Poll.init t off b) := by
  constructor <;> simp [Poll.init, Ticker.init, pollDone]

theorem ticker_run_begun {n : Int} {tk tk' : Ticker.State} (h : tk.run n = some tk') :
    (tk'.pc = .polling → tk'.begun = tk.begun ++ [tk.now] ∧ tk.pc = .check) ∧ (tk'.pc ≠ .polling → tk'.begun = tk.begun) ∧ tk'.now = tk.now := by
  unfold Ticker.State.run at h
  cases hp : tk.pc <;> rw [hp] at h <;> simp only at h
  · injection h with h; subst h; simp
  · split at h <;> injection h with h <;> subst h <;> simp
  · injection h with h; subst h; simp
  · injection h with h; subst h; simp
  · split at h
    · injection h with h; subst h; simp
    · simp at h
  · simp at h

/-- A step during which no poll makes progress. -/
theorem pollInv_same {ps : List PollRec} {cur : PollRec} {s s' : Poll.State} (h : PollInv ps cur s) (h1 : s'.log = s.log) (h2 : s'.tk.pc = s.tk.pc)
    (h3 : s'.tk.begun = s.tk.begun) (h4 : s'.stage = s.stage) (h5 : s'.start = s.start) (h6 : s'.res6 = s.res6) (h7 : s'.res4 = s.res4) (h8 : s'.t6 = s.t6)
    (h9 : s'.t4 = s.t4) : PollInv ps cur s' := by
  have hd : pollDone s' = pollDone s := by unfold pollDone; rw [h2, h4]
  exact { log := by rw [h1, hd]; exact h.log
          begun := by rw [h2, h3]; exact h.begun
          start6 := by rw [h5, hd]; exact h.start6
          start4 := by rw [h5, hd]; exact h.start4
          res6 := by rw [h6, hd]; exact h.res6
          res4 := by rw [h7, hd]; exact h.res4
          t6 := by rw [h8, hd]; exact h.t6
          t4 := by rw [h9, hd]; exact h.t4 }

theorem tick_same {tk tk' : Ticker.State} (h : tk.tick = some tk') : tk'.pc = tk.pc ∧ tk'.begun = tk.begun ∧ tk'.now = tk.now := by
  unfold Ticker.State.tick at h
  split at h
  · injection h with h; subst h; exact ⟨rfl, rfl, rfl⟩
  · simp at h

theorem pollInv_poll {cap : Nat} {n : Int} {ps : List PollRec} {cur : PollRec} {s s' : Poll.State} (h : PollInv ps cur s) (hp : s.tk.pc = .polling)
    (hs : s.poll cap n = some s') : ∃ ps' cur', PollInv ps' cur' s' := by
  have l10 : afLabel 10 = "ipv6" := by decide
  have l2 : afLabel 2 = "ipv4" := by decide
  obtain ⟨h1, h2, h3, h4, h5, h6, h7, h8⟩ := h
  unfold Poll.State.poll at hs
  cases hst : s.stage <;> rw [hst] at hs <;> simp only [Option.some.injEq, reduceCtorEq] at hs
  · subst hs
    refine ⟨ps, { cur with asked6 := (s.tk.now, s.tk.now + s.off) }, ?_⟩
    constructor <;> simp_all [pollDone, Poll.State.note, PollRec.entries]
  · subst hs
    refine ⟨ps, { cur with timed6 := (s.tk.now, s.tk.now + s.off) }, ?_⟩
    constructor <;> simp_all [pollDone, Poll.State.note, PollRec.entries]
  · subst hs
    refine ⟨ps, { cur with read6 := (s.tk.now, s.tk.now + s.off) }, ?_⟩
    constructor <;> simp_all [pollDone, Poll.State.note, PollRec.entries]
  · subst hs
    refine ⟨ps, { cur with asked4 := (s.tk.now, s.tk.now + s.off) }, ?_⟩
    constructor <;> simp_all [pollDone, Poll.State.note, PollRec.entries]
  · subst hs
    refine ⟨ps, { cur with timed4 := (s.tk.now, s.tk.now + s.off) }, ?_⟩
    constructor <;> simp_all [pollDone, Poll.State.note, PollRec.entries]
  · subst hs
    refine ⟨ps, { cur with read4 := (s.tk.now, s.tk.now + s.off) }, ?_⟩
    constructor <;> simp_all [pollDone, Poll.State.note, PollRec.entries]
  · split at hs
    · unfold Ticker.State.run at hs
      rw [hp] at hs
      simp only [Option.map_some, Option.some.injEq] at hs
      subst hs
      refine ⟨ps ++ [{ cur with sent := (s.tk.now, s.tk.now + s.off) }], default, ?_⟩
      have hb : collectBlock s.res6 s.t6 s.res4 s.t4 = cur.block := by
        rw [h5 (by simp [pollDone, hp, hst]), h6 (by simp [pollDone, hp, hst]), h7 (by simp [pollDone, hp, hst]), h8 (by simp [pollDone, hp, hst])]
        unfold collectBlock PollRec.block
        congr 1
        · cases cur.err4 <;> rfl
        · cases cur.err6 <;> rfl
      have hb' : ({ cur with sent := (s.tk.now, s.tk.now + s.off) } : PollRec).block = cur.block := rfl
      constructor <;> simp_all [pollDone, Poll.State.note, PollRec.entries]
    · simp at hs

theorem pollInv_step {cap : Nat} {n : Int} {c : Poll.Choice} {ps : List PollRec} {cur : PollRec} {s s' : Poll.State} (h : PollInv ps cur s)
    (hs : s.step cap n c = some s') : ∃ ps' cur', PollInv ps' cur' s' := by
  unfold Poll.State.step at hs
  cases c with
  | advance d => injection hs with hs; subst hs; exact ⟨ps, cur, pollInv_same h rfl rfl rfl rfl rfl rfl rfl rfl rfl⟩
  | cancel => injection hs with hs; subst hs; exact ⟨ps, cur, pollInv_same h rfl rfl rfl rfl rfl rfl rfl rfl rfl⟩
  | setClock off => injection hs with hs; subst hs; exact ⟨ps, cur, pollInv_same h rfl rfl rfl rfl rfl rfl rfl rfl rfl⟩
  | tick =>
    simp only at hs
    obtain ⟨tk, h1, rfl⟩ := Option.map_eq_some_iff.1 hs
    obtain ⟨e1, e2, -⟩ := tick_same h1
    exact ⟨ps, cur, pollInv_same h rfl e1 e2 rfl rfl rfl rfl rfl rfl⟩
  | take =>
    simp only at hs
    split at hs
    · simp at hs
    · injection hs with hs; subst hs; exact ⟨ps, cur, pollInv_same h rfl rfl rfl rfl rfl rfl rfl rfl rfl⟩
  | answer setup seq pid script =>
    simp only at hs
    unfold Poll.State.answer at hs
    obtain ⟨h1, h2, h3, h4, h5, h6, h7, h8⟩ := h
    split at hs
    · rename_i hp hst
      obtain ⟨r, -, rfl⟩ := Option.map_eq_some_iff.1 hs
      refine ⟨ps, { cur with answered6 := (s.tk.now, s.tk.now + s.off), msgs6 := r.1, err6 := r.2 }, ?_⟩
      constructor <;> simp_all [pollDone, Poll.State.note, PollRec.entries]
    · rename_i hp hst
      obtain ⟨r, -, rfl⟩ := Option.map_eq_some_iff.1 hs
      refine ⟨ps, { cur with answered4 := (s.tk.now, s.tk.now + s.off), msgs4 := r.1, err4 := r.2 }, ?_⟩
      constructor <;> simp_all [pollDone, Poll.State.note, PollRec.entries]
    · simp at hs
  | run =>
    simp only at hs
    unfold Poll.State.run at hs
    split at hs
    · rename_i hp; exact pollInv_poll h hp hs
    · rename_i hp
      obtain ⟨tk, h1, rfl⟩ := Option.map_eq_some_iff.1 hs
      obtain ⟨e1, e2, -⟩ := ticker_run_begun h1
      obtain ⟨h1, h2, h3, h4, h5, h6, h7, h8⟩ := h
      split
      · rename_i hq
        have e1 := (e1 hq).1
        refine ⟨ps, { cur with begun := (s.tk.now, s.tk.now + s.off) }, ?_⟩
        constructor <;> simp_all [pollDone, Poll.State.note, PollRec.entries]
      · rename_i hq
        have e2 := e2 hq
        refine ⟨ps, cur, ?_⟩
        constructor <;> simp_all [pollDone]

theorem pollInv_exec {cap : Nat} {n : Int} (cs : List Poll.Choice) : ∀ {ps : List PollRec} {cur : PollRec} {s s' : Poll.State}, PollInv ps cur s →
    s.exec cap n cs = some s' → ∃ ps' cur', PollInv ps' cur' s' := by
  induction cs with
  | nil => intro ps cur s s' h hs; injection hs with hs; subst hs; exact ⟨ps, cur, h⟩
  | cons c cs ih =>
    intro ps cur s s' h hs
    obtain ⟨s1, h1, h2⟩ := Option.bind_eq_some_iff.1 hs
    obtain ⟨ps1, cur1, h'⟩ := pollInv_step h h1
    exact ih h' h2

/-- What one step does to clocks and log. -/
theorem poll_step_log {cap : Nat} {n : Int} {c : Poll.Choice} {s s' : Poll.State} (hs : s.step cap n c = some s') :
    (s'.log = s.log ∨ ∃ e, s'.log = s.log ++ [⟨s.tk.now, s.tk.now + s.off, e⟩] ∧ s'.tk.now = s.tk.now) ∧ s.tk.now ≤ s'.tk.now
    ∧ ((∀ o, c ≠ .setClock o) → s'.off = s.off) := by
  unfold Poll.State.step at hs
  cases c with
  | advance d => injection hs with hs; subst hs; refine ⟨Or.inl rfl, ?_, fun _ => rfl⟩; simp only; omega
  | cancel => injection hs with hs; subst hs; exact ⟨Or.inl rfl, Int.le_refl _, fun _ => rfl⟩
  | setClock off => injection hs with hs; subst hs; exact ⟨Or.inl rfl, Int.le_refl _, fun h => absurd rfl (h off)⟩
  | tick =>
    simp only at hs
    obtain ⟨tk, h1, rfl⟩ := Option.map_eq_some_iff.1 hs
    obtain ⟨-, -, e⟩ := tick_same h1
    exact ⟨Or.inl rfl, by simp only [e]; exact Int.le_refl _, fun _ => rfl⟩
  | take =>
    simp only at hs
    split at hs
    · simp at hs
    · injection hs with hs; subst hs; exact ⟨Or.inl rfl, Int.le_refl _, fun _ => rfl⟩
  | answer setup seq pid script =>
    simp only at hs
    unfold Poll.State.answer at hs
    split at hs
    · obtain ⟨r, -, rfl⟩ := Option.map_eq_some_iff.1 hs
      exact ⟨Or.inr ⟨_, rfl, rfl⟩, Int.le_refl _, fun _ => rfl⟩
    · obtain ⟨r, -, rfl⟩ := Option.map_eq_some_iff.1 hs
      exact ⟨Or.inr ⟨_, rfl, rfl⟩, Int.le_refl _, fun _ => rfl⟩
    · simp at hs
  | run =>
    simp only at hs
    unfold Poll.State.run at hs
    split at hs
    · rename_i hp
      unfold Poll.State.poll at hs
      cases hst : s.stage <;> rw [hst] at hs <;> simp only [Option.some.injEq, reduceCtorEq] at hs
      all_goals first
        | (subst hs; exact ⟨Or.inr ⟨_, rfl, rfl⟩, Int.le_refl _, fun _ => rfl⟩)
        | skip
      split at hs
      · obtain ⟨tk, h1, rfl⟩ := Option.map_eq_some_iff.1 hs
        have e := (ticker_run_begun h1).2.2
        exact ⟨Or.inr ⟨_, rfl, e⟩, by simp only [e]; exact Int.le_refl _, fun _ => rfl⟩
      · simp at hs
    · obtain ⟨tk, h1, rfl⟩ := Option.map_eq_some_iff.1 hs
      have e := (ticker_run_begun h1).2.2
      split
      · exact ⟨Or.inr ⟨_, rfl, e⟩, by simp only [e]; exact Int.le_refl _, fun _ => rfl⟩
      · exact ⟨Or.inl rfl, by simp only [e]; exact Int.le_refl _, fun _ => rfl⟩

/-- Events are noted when they happen. -/
structure LogInv (t : Int) (s : Poll.State) : Prop where
  now : t ≤ s.tk.now
  within : ∀ e ∈ s.log, t ≤ e.mono ∧ e.mono ≤ s.tk.now
  sorted : s.log.Pairwise (fun e e' => e.mono ≤ e'.mono)

theorem logInv_step {cap : Nat} {n t : Int} {c : Poll.Choice} {s s' : Poll.State} (h : LogInv t s) (hs : s.step cap n c = some s') : LogInv t s' := by
  obtain ⟨h1, h2, -⟩ := poll_step_log hs
  have hn := h.now
  rcases h1 with h1 | ⟨e, h1, h3⟩
  · refine ⟨by omega, ?_, by rw [h1]; exact h.sorted⟩
    intro x hx
    rw [h1] at hx
    have := h.within x hx
    omega
  · refine ⟨by omega, ?_, ?_⟩
    · intro x hx
      rw [h1] at hx
      rcases List.mem_append.1 hx with hx | hx
      · have := h.within x hx; omega
      · rw [List.mem_singleton] at hx; subst hx; simp only; omega
    · rw [h1, List.pairwise_append]
      refine ⟨h.sorted, by simp, ?_⟩
      intro a ha b hb
      rw [List.mem_singleton] at hb; subst hb
      exact (h.within a ha).2

theorem logInv_exec {cap : Nat} {n t : Int} (cs : List Poll.Choice) : ∀ {s s' : Poll.State}, LogInv t s → s.exec cap n cs = some s' → LogInv t s' := by
  induction cs with
  | nil => intro s s' h hs; injection hs with hs; subst hs; exact h
  | cons c cs ih =>
    intro s s' h hs
    obtain ⟨s1, h1, h2⟩ := Option.bind_eq_some_iff.1 hs
    exact ih (logInv_step h h1) h2

theorem logInv_init (t off : Int) (b : Bool) : LogInv t (Poll.init t off b) := by
  constructor <;> simp [Poll.init, Ticker.init]

theorem poll_step_set {cap : Nat} {n : Int} {o : Int} {s s' : Poll.State} (hs : s.step cap n (.setClock o) = some s') :
    s'.log = s.log ∧ s'.tk = s.tk ∧ s'.off = o := by
  unfold Poll.State.step at hs
  injection hs with hs; subst hs; exact ⟨rfl, rfl, rfl⟩

/-- As long as nobody sets the wall clock back. -/
structure WallInv (off : Int) (s : Poll.State) : Prop where
  ahead : off ≤ s.off
  past : ∀ e ∈ s.log, e.mono + off ≤ e.wall ∧ e.wall ≤ e.mono + s.off ∧ e.wall ≤ s.tk.now + s.off
  sorted : s.log.Pairwise (fun e e' => e.wall ≤ e'.wall)

theorem wallInv_exec {cap : Nat} {n t : Int} (off : Int) (cs : List Poll.Choice) : ∀ {s s' : Poll.State}, NotSetBack s.off cs → LogInv t s → WallInv off s →
    s.exec cap n cs = some s' → WallInv off s' := by
  induction cs with
  | nil => intro s s' _ _ h hs; injection hs with hs; subst hs; exact h
  | cons c cs ih =>
    intro s s' hc hl h hs
    obtain ⟨s1, h1, h2⟩ := Option.bind_eq_some_iff.1 hs
    have hl1 := logInv_step hl h1
    obtain ⟨i1, i2, i3⟩ := h
    by_cases hset : ∃ o, c = .setClock o
    · obtain ⟨o, rfl⟩ := hset
      obtain ⟨g1, g2, g3⟩ := poll_step_set h1
      obtain ⟨c1, c2⟩ := hc
      refine ih (by rw [g3]; exact c2) hl1 ⟨by omega, ?_, by rw [g1]; exact i3⟩ h2
      rw [g1, g2, g3]
      intro e he
      have := i2 e he
      omega
    · obtain ⟨g1, g2, g3⟩ := poll_step_log h1
      have ho := g3 (fun o e => hset ⟨o, e⟩)
      have hc' : NotSetBack s1.off cs := by
        rw [ho]
        cases c <;> first | exact hc | exact absurd ⟨_, rfl⟩ hset
      rcases g1 with g1 | ⟨e, g1, g4⟩
      · refine ih hc' hl1 ⟨by omega, ?_, by rw [g1]; exact i3⟩ h2
        rw [g1, ho]
        intro x hx
        have := i2 x hx
        omega
      · refine ih hc' hl1 ⟨by omega, ?_, ?_⟩ h2
        · rw [g1, ho]
          intro x hx
          rcases List.mem_append.1 hx with hx | hx
          · have := i2 x hx; omega
          · rw [List.mem_singleton] at hx; subst hx; simp only; omega
        · rw [g1, List.pairwise_append]
          refine ⟨i3, by simp, ?_⟩
          intro a ha x hx
          rw [List.mem_singleton] at hx; subst hx
          exact (i2 a ha).2.2

theorem wallInv_init (t off : Int) (b : Bool) : WallInv off (Poll.init t off b) := by
  constructor <;> simp [Poll.init]

end TcpInfo
