import Verif.Model.Ticker
/-!
# C94: how often the connections are polled
-/

namespace TcpInfo
open Ticker

/-- Is a poll under way, or over while the next tick is awaited? -/
def inPoll : Ticker.PC → Nat
  | .start => 0
  | .check => 0
  | .done => 0
  | .polling => 1
  | .observe => 1
  | .waiting => 1

/-- What holds in every state of `Run`, called at time `t`. -/
structure TickInv (n : Int) (t : Int) (s : Ticker.State) : Prop where
  now : t ≤ s.now
  due : t + period * (s.ticks + 1) ≤ s.due
  early : s.due ≤ s.now + period
  ticks : s.ticks = s.loops + s.lost + s.pending.toNat
  begun : s.begun.length = s.loops + inPoll s.pc
  ended : s.ended.length = s.loops + (if s.pc = .waiting then 1 else 0)
  observed : s.observed.length = s.ended.length
  late : ∀ (k : Nat) (b : Int), s.begun[k]? = some b → t + period * k ≤ b
  before : ∀ b ∈ s.begun, b ≤ s.now
  reps : n ≠ 0 → s.begun.length ≤ n.toNat
  start : s.pc = .start → s.loops = 0
  lastNow : s.pc ≠ .start → s.lastCollectionTime ≤ s.now
  lastEnd : s.ended ≠ [] → s.ended.getLast? = some s.lastCollectionTime
  last0 : s.ended = [] → s.pc ≠ .start → t ≤ s.lastCollectionTime + period ∧ s.lastCollectionTime + period ≤ s.now
    ∧ ∀ b, s.begun[0]? = some b → s.lastCollectionTime + period ≤ b
  first : ∀ e b x, s.ended[0]? = some e → s.begun[0]? = some b → s.observed[0]? = some x → e - b + period ≤ x ∧ x ≤ e - t + period ∧ b ≤ e
  next : ∀ (k : Nat) e e' x, s.ended[k]? = some e → s.ended[k + 1]? = some e' → s.observed[k + 1]? = some x → x = e' - e ∧ e ≤ e'
  done : s.pc = .done → s.cancelled = true ∨ (n ≠ 0 ∧ s.begun.length = n.toNat)

theorem tickInv_init (n : Int) (t : Int) (b : Bool) : TickInv n t (Ticker.init t b) := by
  constructor <;> simp [Ticker.init, inPoll]

theorem tickInv_tick (n : Int) (t : Int) (s s' : Ticker.State) (h : TickInv n t s) (hs : s.tick = some s') : TickInv n t s' := by
  unfold Ticker.State.tick at hs
  split at hs
  · rename_i hd
    injection hs with hs
    subst hs
    have hq : 0 ≤ (s.now - s.due) / period := Int.ediv_nonneg (by omega) (by decide)
    have hq2 : period * ((s.now - s.due) / period) ≤ s.now - s.due := Int.mul_ediv_self_le (by decide)
    have hq3 : period * (1 + (s.now - s.due) / period) = period + period * ((s.now - s.due) / period) := by rw [Int.mul_add, Int.mul_one]
    have h1 := h.due
    have h2 : (0:Int) ≤ period * ((s.now - s.due) / period) := Int.mul_nonneg (by decide) hq
    refine { h with due := ?_, early := ?_, ticks := ?_ }
    · simp only [hq3]; push_cast; simp only [Int.mul_add] at h1 ⊢; omega
    · simp only [hq3]; omega
    · have := h.ticks
      simp only [Bool.toNat_true]
      cases hp : s.pending <;> rw [hp] at this <;> simp at this ⊢ <;> omega
  · simp at hs

theorem tickInv_step (n : Int) (t : Int) (c : Ticker.Choice) (s s' : Ticker.State) (h : TickInv n t s) (hs : s.step n c = some s') : TickInv n t s' := by
  unfold Ticker.State.step at hs
  cases c with
  | advance d =>
    simp only [Option.some.injEq] at hs
    subst hs
    refine { h with now := ?_, early := ?_, before := ?_, lastNow := ?_, last0 := ?_ }
    · have := h.now; simp only; omega
    · have := h.early; simp only; omega
    · intro b hb; have := h.before b hb; simp only; omega
    · intro hp; have := h.lastNow hp; simp only; omega
    · intro he hp; have := h.last0 he hp; refine ⟨this.1, ?_, this.2.2⟩; simp only; omega
  | cancel =>
    simp only [Option.some.injEq] at hs
    subst hs
    exact { h with done := fun _ => Or.inl rfl }
  | tick => exact tickInv_tick n t s s' h hs
  | run =>
    simp only at hs
    unfold Ticker.State.run at hs
    have hb := h.begun
    have he := h.ended
    cases hpc : s.pc with
    | start =>
      rw [hpc] at hs hb he
      simp only [Option.some.injEq] at hs
      subst hs
      have hl := h.start hpc
      simp only [inPoll, hl] at hb he
      have hbe : s.begun = [] := List.length_eq_zero_iff.1 (by omega)
      have hee : s.ended = [] := List.length_eq_zero_iff.1 (by simpa using he)
      refine { h with begun := ?_, ended := ?_, start := ?_, lastNow := ?_, lastEnd := ?_, last0 := ?_, done := ?_ }
      · simp only [inPoll]; omega
      · simp [hl, hee]
      · intro h; simp at h
      · intro _; have : (0:Int) ≤ period := by decide
        simp only; omega
      · intro h; exact absurd hee h
      · intro _ _
        refine ⟨by have := h.now; simp only; omega, by simp only; omega, ?_⟩
        intro b h; simp [hbe] at h
      · intro h; simp at h
    | check =>
      rw [hpc] at hs hb he
      simp only at hs
      simp only [inPoll] at hb
      split at hs
      · rename_i hc
        simp only [Option.some.injEq] at hs
        subst hs
        have hlen : s.begun.length = s.loops := by omega
        refine { h with begun := ?_, ended := ?_, late := ?_, before := ?_, reps := ?_, start := ?_, lastNow := ?_, last0 := ?_, first := ?_, done := ?_ }
        · simp [inPoll, hlen]
        · simpa using he
        · intro k b hk
          simp only at hk
          by_cases hkl : k < s.begun.length
          · rw [List.getElem?_append_left hkl] at hk; exact h.late k b hk
          · rw [List.getElem?_append_right (by omega)] at hk
            have hk0 : k - s.begun.length = 0 := by
              cases hh : k - s.begun.length with
              | zero => rfl
              | succ m => rw [hh] at hk; simp at hk
            rw [hk0] at hk
            simp only [List.getElem?_cons_zero, Option.some.injEq] at hk
            subst hk
            have hkk : k = s.loops := by omega
            have h1 := h.due; have h2 := h.early; have h3 := h.ticks
            have h4 : (k : Int) ≤ s.ticks := by omega
            have h5 : period * (k : Int) ≤ period * (s.ticks : Int) := Int.mul_le_mul_of_nonneg_left h4 (by decide)
            rw [Int.mul_add, Int.mul_one] at h1
            omega
        · intro b hbm
          simp only [List.mem_append, List.mem_singleton] at hbm
          rcases hbm with hbm | rfl
          · exact h.before b hbm
          · exact Int.le_refl _
        · intro hn
          have := hc.1
          simp [hlen]; omega
        · intro h; simp at h
        · intro _; exact h.lastNow (by rw [hpc]; simp)
        · intro hee _
          have h0 := h.last0 hee (by rw [hpc]; simp)
          refine ⟨h0.1, h0.2.1, ?_⟩
          intro b hbb
          simp only at hbb ⊢
          rw [hee] at he
          have : s.begun = [] := List.length_eq_zero_iff.1 (by simp at he; omega)
          rw [this] at hbb
          simp only [List.nil_append, List.getElem?_cons_zero, Option.some.injEq] at hbb
          subst hbb
          exact h0.2.1
        · intro e b x h1 h2 h3
          simp only at h1 h2 h3
          have hne : 0 < s.begun.length := by
            have : 0 < s.ended.length := by
              cases hh : s.ended with
              | nil => rw [hh] at h1; simp at h1
              | cons a l => simp
            simp at he; omega
          rw [List.getElem?_append_left hne] at h2
          exact h.first e b x h1 h2 h3
        · intro h; simp at h
      · rename_i hc
        simp only [Option.some.injEq] at hs
        subst hs
        refine { h with begun := ?_, ended := ?_, start := ?_, lastNow := ?_, last0 := ?_, done := ?_ }
        · simpa [inPoll] using hb
        · simpa using he
        · intro h; simp at h
        · intro _; exact h.lastNow (by rw [hpc]; simp)
        · intro h1 _; exact h.last0 h1 (by rw [hpc]; simp)
        · intro _
          cases hcc : s.cancelled with
          | true => exact Or.inl rfl
          | false =>
            refine Or.inr ?_
            have hn : n ≠ 0 := by intro hn; exact hc ⟨Or.inl hn, hcc⟩
            have hl : ¬ s.loops < n := by intro hl; exact hc ⟨Or.inr hl, hcc⟩
            have := h.reps hn
            exact ⟨hn, by simp only; omega⟩
    | polling =>
      rw [hpc] at hs hb he
      simp only [Option.some.injEq] at hs
      subst hs
      refine { h with begun := ?_, ended := ?_, start := ?_, lastNow := ?_, last0 := ?_, done := ?_ }
      · simpa [inPoll] using hb
      · simpa using he
      · intro h; simp at h
      · intro _; exact h.lastNow (by rw [hpc]; simp)
      · intro h1 _; exact h.last0 h1 (by rw [hpc]; simp)
      · intro h; simp at h
    | observe =>
      rw [hpc] at hs hb he
      simp only [Option.some.injEq] at hs
      subst hs
      have hlo := h.observed
      have hln := h.lastNow (by rw [hpc]; simp)
      simp only [inPoll] at hb
      refine { h with begun := ?_, ended := ?_, observed := ?_, start := ?_, lastNow := ?_, lastEnd := ?_, last0 := ?_, first := ?_, next := ?_, done := ?_ }
      · simpa [inPoll] using hb
      · simpa using he
      · simpa using hlo
      · intro h; simp at h
      · intro _; exact Int.le_refl _
      · intro _; simp
      · intro h; simp at h
      · intro e b x h1 h2 h3
        simp only at h1 h2 h3
        by_cases hne : s.ended = []
        · have hno : s.observed = [] := List.length_eq_zero_iff.1 (by rw [hlo, hne]; rfl)
          rw [hne] at h1; rw [hno] at h3
          simp at h1 h3
          subst h1 h3
          have h0 := h.last0 hne (by rw [hpc]; simp)
          have h5 := h0.2.2 b h2
          have h6 := h.before b (List.mem_of_getElem? h2)
          omega
        · have l1 : 0 < s.ended.length := List.length_pos_iff.2 hne
          rw [List.getElem?_append_left l1] at h1
          rw [List.getElem?_append_left (by omega)] at h3
          exact h.first e b x h1 h2 h3
      · intro k e e' x h1 h2 h3
        simp only at h1 h2 h3
        by_cases hk : k + 1 < s.ended.length
        · rw [List.getElem?_append_left hk] at h2
          rw [List.getElem?_append_left (by omega)] at h1 h3
          exact h.next k e e' x h1 h2 h3
        · have hk2 : k + 1 = s.ended.length := by
            have : k + 1 < (s.ended ++ [s.now]).length := (List.getElem?_eq_some_iff.1 h2).1
            simp at this; omega
          have hne : s.ended ≠ [] := by intro hh; rw [hh] at hk2; simp at hk2
          have hl := h.lastEnd hne
          rw [List.getElem?_append_left (by omega)] at h1
          rw [List.getElem?_append_right (by omega)] at h2 h3
          rw [hk2] at h2 h3
          simp [hlo] at h2 h3
          rw [List.getLast?_eq_getElem?, ← hk2, Nat.add_sub_cancel, h1] at hl
          injection hl with hl
          subst hl h2
          omega
      · intro h; simp at h
    | waiting =>
      rw [hpc] at hs hb he
      simp only at hs
      cases hp : s.pending with
      | false => rw [hp] at hs; simp at hs
      | true =>
        rw [hp] at hs
        simp only [if_true, Option.some.injEq] at hs
        subst hs
        have ht := h.ticks
        rw [hp] at ht
        refine { h with ticks := ?_, begun := ?_, ended := ?_, start := ?_, lastNow := ?_, last0 := ?_, done := ?_ }
        · simp at ht ⊢; omega
        · simpa [inPoll] using hb
        · simpa using he
        · intro h; simp at h
        · intro _; exact h.lastNow (by rw [hpc]; simp)
        · intro h1 _; exact h.last0 h1 (by rw [hpc]; simp)
        · intro h; simp at h
    | done => rw [hpc] at hs; simp at hs

theorem tickInv_exec (n : Int) (t : Int) (cs : List Ticker.Choice) : ∀ s s', TickInv n t s → s.exec n cs = some s' → TickInv n t s' := by
  induction cs with
  | nil => intro s s' h hs; simp only [Ticker.State.exec, Option.some.injEq] at hs; exact hs ▸ h
  | cons c cs ih =>
    intro s s' h hs
    simp only [Ticker.State.exec] at hs
    cases hc : s.step n c with
    | none => rw [hc] at hs; simp at hs
    | some s1 => rw [hc] at hs; exact ih s1 s' (tickInv_step n t c s s1 h hc) hs

theorem tickInv (n : Int) (t : Int) (s : Ticker.State) (h : Ticker.Reachable n t s) : TickInv n t s := by
  obtain ⟨b, cs, h⟩ := h
  exact tickInv_exec n t cs _ s (tickInv_init n t b) h

/-- C94. Poll number `k` (counted from 0) begins at least `k` times 10 ms after the start. -/
theorem C94_rate (n : Int) (t : Int) (s : Ticker.State) (h : Ticker.Reachable n t s) (k : Nat) (b : Int) (hb : s.begun[k]? = some b) : t + 10000000 * k ≤ b :=
  (tickInv n t s h).late k b hb

/-- Ticks and polls of a stretch of an execution. -/
structure WindowInv (s s' : Ticker.State) : Prop where
  now : s.now ≤ s'.now
  due : s'.ticks = s.ticks ∨ (s.ticks < s'.ticks ∧ s.now + period * ((s'.ticks : Int) - s.ticks - 1) < s'.due)
  ticks : s.ticks ≤ s'.ticks
  loops : s'.loops + s'.pending.toNat ≤ s.loops + s.pending.toNat + (s'.ticks - s.ticks)
  tick : s'.ticks = s.ticks ∨ s.now + period * ((s'.ticks : Int) - s.ticks - 2) < s'.now

theorem windowInv_step (n : Int) (c : Ticker.Choice) (s s1 s2 : Ticker.State) (h : WindowInv s s1) (hs : s1.step n c = some s2) : WindowInv s s2 := by
  unfold Ticker.State.step at hs
  cases c with
  | advance d =>
    simp only [Option.some.injEq] at hs
    subst hs
    refine { h with now := ?_, tick := ?_ }
    · have := h.now; simp only; omega
    · rcases h.tick with h | h
      · exact Or.inl h
      · right; simp only; omega
  | cancel => simp only [Option.some.injEq] at hs; subst hs; exact { h with }
  | run =>
    simp only at hs
    unfold Ticker.State.run at hs
    cases hpc : s1.pc <;> rw [hpc] at hs <;> simp only [Option.some.injEq] at hs
    · subst hs; exact { h with }
    · split at hs
      · simp only [Option.some.injEq] at hs; subst hs; exact { h with }
      · simp only [Option.some.injEq] at hs; subst hs; exact { h with }
    · subst hs; exact { h with }
    · subst hs; exact { h with }
    · cases hp : s1.pending with
      | false => rw [hp] at hs; simp at hs
      | true =>
        rw [hp] at hs
        simp only [if_true, Option.some.injEq] at hs
        subst hs
        refine { h with loops := ?_ }
        have := h.loops
        rw [hp] at this
        simp at this ⊢
        omega
    · simp at hs
  | tick =>
    simp only at hs
    unfold Ticker.State.tick at hs
    split at hs
    · rename_i hd
      injection hs with hs
      subst hs
      have hq : 0 ≤ (s1.now - s1.due) / period := Int.ediv_nonneg (by omega) (by decide)
      have hq2 : s1.now - s1.due < period * ((s1.now - s1.due) / period) + period := Int.lt_mul_ediv_self_add (by decide)
      have hq3 : period * (1 + (s1.now - s1.due) / period) = period + period * ((s1.now - s1.due) / period) := by rw [Int.mul_add, Int.mul_one]
      have h2 : (0:Int) ≤ period * ((s1.now - s1.due) / period) := Int.mul_nonneg (by decide) hq
      have h3 := h.now
      have h4 := h.ticks
      have h5 := h.loops
      refine { now := h.now, due := Or.inr ⟨by simp only; omega, ?_⟩, ticks := by simp only; omega, loops := ?_, tick := Or.inr ?_ }
      · simp only [hq3]
        rcases h.due with h6 | h6
        · rw [h6]; push_cast; rw [show (s.ticks : Int) + 1 - s.ticks - 1 = 0 by omega, Int.mul_zero]; omega
        · have := h6.2
          push_cast
          generalize period * ((s1.now - s1.due) / period) = q at *
          simp only [Int.mul_sub, Int.mul_add] at this ⊢
          omega
      · simp only [Bool.toNat_true]
        cases hp : s1.pending <;> rw [hp] at h5 <;> simp at h5 <;> omega
      · simp only
        rcases h.due with h6 | h6
        · rw [h6]; push_cast; rw [show (s.ticks : Int) + 1 - s.ticks - 2 = -1 by omega]; simp only [period]; omega
        · have := h6.2
          push_cast
          simp only [Int.mul_sub, Int.mul_add] at this ⊢
          omega
    · simp at hs

theorem windowInv_exec (n : Int) (s : Ticker.State) (cs : List Ticker.Choice) : ∀ s1 s', WindowInv s s1 → s1.exec n cs = some s' → WindowInv s s' := by
  induction cs with
  | nil => intro s1 s' h hs; simp only [Ticker.State.exec, Option.some.injEq] at hs; exact hs ▸ h
  | cons c cs ih =>
    intro s1 s' h hs
    simp only [Ticker.State.exec] at hs
    cases hc : s1.step n c with
    | none => rw [hc] at hs; simp at hs
    | some s2 => rw [hc] at hs; exact ih s2 s' (windowInv_step n c s s1 s2 h hc) hs

/-- C94. At any time and for any length of time: if `p` polls begin in the course of `d` nanoseconds, then `d` is more than `p - 4` times 10 ms, however late the
ticker is served and however long single polls take. (In one second: at most 103.) -/
theorem C94_window (n : Int) (t : Int) (s s' : Ticker.State) (h : Ticker.Reachable n t s) (cs : List Ticker.Choice) (he : s.exec n cs = some s') :
    10000000 * ((s'.begun.length : Int) - s.begun.length - 4) < s'.now - s.now := by
  have i := tickInv n t s h
  have i' := tickInv_exec n t cs s s' i he
  have w := windowInv_exec n s cs s s' ⟨Int.le_refl _, Or.inl rfl, Nat.le_refl _, by omega, Or.inl rfl⟩ he
  have h1 := i.begun; have h2 := i'.begun; have h3 := w.loops; have h4 := w.ticks; have h5 := w.now
  have hin : inPoll s'.pc ≤ 1 := by cases s'.pc <;> decide
  have hpe : s.pending.toNat ≤ 1 := Bool.toNat_le _
  have hbound : (s'.begun.length : Int) - s.begun.length ≤ ((s'.ticks : Int) - s.ticks) + 2 := by omega
  rcases w.tick with h6 | h6
  · omega
  · simp only [Int.mul_sub, period] at h6 ⊢
    omega

/-- C94. No tick is forgotten: while a poll is under way, or over and the next tick is awaited, each tick so far has led to a poll, is about to lead to one,
or came while an earlier one was still to be served. The first poll needs no tick. -/
theorem C94_ticks (n : Int) (t : Int) (s : Ticker.State) (h : Ticker.Reachable n t s) (hp : s.pc = .polling ∨ s.pc = .observe ∨ s.pc = .waiting) :
    s.begun.length + s.lost + (if s.pending then 1 else 0) = s.ticks + 1 := by
  have i := tickInv n t s h
  have h1 := i.begun
  have h2 := i.ticks
  have : inPoll s.pc = 1 := by rcases hp with h | h | h <;> rw [h] <;> rfl
  cases hq : s.pending <;> rw [hq] at h2 <;> simp at h2 ⊢ <;> omega

/-- C94. With a number of repetitions, not more polls than that (none if it is negative); `Run` ends when they are done or the context has been cancelled, and not before. -/
theorem C94_reps (n : Int) (t : Int) (s : Ticker.State) (h : Ticker.Reachable n t s) :
    (n ≠ 0 → s.begun.length ≤ n.toNat) ∧ (s.pc = .done → s.cancelled = true ∨ (n ≠ 0 ∧ s.begun.length = n.toNat)) :=
  ⟨(tickInv n t s h).reps, (tickInv n t s h).done⟩

/-- Steps that `Run` can still take once the context has been cancelled. -/
def stepsLeft : Ticker.PC → Nat
  | .start => 2
  | .check => 1
  | .polling => 4
  | .observe => 3
  | .waiting => 2
  | .done => 0

/-- C94. After the context has been cancelled no further poll begins, and `Run` takes at most four more steps (it finishes the poll under way and waits for one
tick). -/
theorem C94_cancel (n : Int) (cs : List Ticker.Choice) : ∀ s s' : Ticker.State, s.cancelled = true → s.exec n cs = some s' →
    s'.begun = s.begun ∧ s'.cancelled = true ∧ cs.count .run + stepsLeft s'.pc = stepsLeft s.pc ∧ cs.count .run ≤ 4 := by
  have le4 : ∀ pc, stepsLeft pc ≤ 4 := by intro pc; cases pc <;> decide
  induction cs with
  | nil => intro s s' hc hs; simp only [Ticker.State.exec, Option.some.injEq] at hs; subst hs; simp [hc]
  | cons c cs ih =>
    intro s s' hc hs
    simp only [Ticker.State.exec] at hs
    cases h1 : s.step n c with
    | none => rw [h1] at hs; simp at hs
    | some s1 =>
      rw [h1] at hs
      have key : s1.begun = s.begun ∧ s1.cancelled = true ∧ stepsLeft s1.pc + (if c = .run then 1 else 0) = stepsLeft s.pc := by
        unfold Ticker.State.step at h1
        cases c with
        | advance d => simp only [Option.some.injEq] at h1; subst h1; simp [hc]
        | cancel => simp only [Option.some.injEq] at h1; subst h1; simp
        | tick =>
          simp only at h1
          unfold Ticker.State.tick at h1
          split at h1
          · injection h1 with h1; subst h1; simp [hc]
          · simp at h1
        | run =>
          simp only at h1
          unfold Ticker.State.run at h1
          cases hpc : s.pc <;> rw [hpc] at h1 <;> simp only [Option.some.injEq, hc] at h1
          · subst h1; simp [stepsLeft, hc]
          · simp at h1; subst h1; simp [stepsLeft, hc]
          · subst h1; simp [stepsLeft, hc]
          · subst h1; simp [stepsLeft, hc]
          · split at h1
            · simp only [Option.some.injEq] at h1; subst h1; simp [stepsLeft, hc]
            · simp at h1
          · simp at h1
      obtain ⟨k1, k2, k3⟩ := key
      obtain ⟨j1, j2, j3, j4⟩ := ih s1 s' k2 hs
      have hcount : (c :: cs).count .run = cs.count .run + (if c = .run then 1 else 0) := by
        rw [List.count_cons]; simp
      have := le4 s.pc
      exact ⟨j1.trans k1, j2, by rw [hcount]; omega, by rw [hcount]; omega⟩

/-- C94. `Run` is never stuck: it can go on, or it waits for a tick, which comes when the ticker is due. -/
theorem C94_not_stuck (n : Int) (s : Ticker.State) (hp : s.pc ≠ .done) : (∃ s', s.step n .run = some s')
    ∨ (s.pc = .waiting ∧ ∀ d : Nat, s.due ≤ s.now + d → ∃ s', s.exec n [.advance d, .tick, .run] = some s' ∧ s'.pc = .check) := by
  unfold Ticker.State.step
  simp only
  unfold Ticker.State.run
  cases hpc : s.pc
  · exact Or.inl ⟨_, rfl⟩
  · left
    simp only
    split
    · exact ⟨_, rfl⟩
    · exact ⟨_, rfl⟩
  · exact Or.inl ⟨_, rfl⟩
  · exact Or.inl ⟨_, rfl⟩
  · right
    refine ⟨rfl, ?_⟩
    intro d hd
    simp only [Ticker.State.exec, Ticker.State.step, Option.bind_some, Ticker.State.tick, if_pos hd, Ticker.State.run, hpc, if_true]
    exact ⟨_, rfl, rfl⟩
  · exact absurd hpc hp

/-- C94. The histogram of polling intervals gets one value per poll: the time since the previous poll ended; for the first poll the time since the
start, 10 ms more. -/
theorem C94_histogram (n : Int) (t : Int) (s : Ticker.State) (h : Ticker.Reachable n t s) :
    s.observed.length = s.ended.length
    ∧ s.ended.length ≤ s.begun.length ∧ s.begun.length ≤ s.ended.length + 1
    ∧ (∀ (k : Nat) e e' x, s.ended[k]? = some e → s.ended[k + 1]? = some e' → s.observed[k + 1]? = some x → x = e' - e)
    ∧ (∀ e b x, s.ended[0]? = some e → s.begun[0]? = some b → s.observed[0]? = some x → e - b + 10000000 ≤ x ∧ x ≤ e - t + 10000000) := by
  have i := tickInv n t s h
  have h1 := i.begun
  have h2 := i.ended
  refine ⟨i.observed, ?_, ?_, ?_, ?_⟩
  · cases hpc : s.pc <;> rw [hpc] at h1 h2 <;> simp [inPoll] at h1 h2 <;> omega
  · cases hpc : s.pc <;> rw [hpc] at h1 h2 <;> simp [inPoll] at h1 h2 <;> omega
  · intro k e e' x a b c; exact (i.next k e e' x a b c).1
  · intro e b x a c d; have := i.first e b x a c d; exact ⟨this.1, this.2.1⟩

/-! ## Examples -/

/-- A poll of 3 ms, the tick after 10 ms, a poll of 33 ms during which three ticks come, and at once the next poll, of 1 ms. -/
def exTicks : List Ticker.Choice :=
  [.run, .run, .advance 3000000, .run, .run, .advance 7000000, .tick, .run, .run, .advance 11000000, .tick, .advance 10000000, .tick, .advance 12000000, .tick,
   .run, .run, .run, .run, .advance 1000000, .run, .run]

def exTicksEnd : Option (List Int × List Int × List Int × Nat × Nat × Bool) :=
  ((Ticker.init 0 false).exec 0 exTicks).map (fun s => (s.begun, s.ended, s.observed, s.ticks, s.lost, s.pending))

example : exTicksEnd = some ([0, 10000000, 43000000], [3000000, 43000000, 44000000], [13000000, 40000000, 1000000], 4, 2, false) := by decide +kernel

/-- The ticker is served late, the poll after that begins 1 ns later. -/
def exBurst : List Ticker.Choice :=
  [.run, .run, .run, .run, .advance 19999999, .tick, .run]

example : ((Ticker.init 0 false).exec 0 (exBurst ++ [.run, .run, .run, .tick])) = none := by decide +kernel
example : (((Ticker.init 0 false).exec 0 (exBurst ++ [.run, .run, .run, .advance 1, .tick, .run, .run])).map (fun s => (s.begun, s.due)))
    = some ([0, 19999999, 20000000], 30000000) := by decide +kernel
example : (((Ticker.init 0 false).exec 2 (exTicks.take 11 ++ [.run, .run, .run, .run])).map (fun s => (s.begun.length, s.pc))) = some (2, .done) := by decide +kernel
example : (((Ticker.init 0 false).exec 0 [.run, .run, .cancel, .run, .run, .advance 10000000, .tick, .run, .run]).map (fun s => (s.begun.length, s.pc)))
    = some (1, .done) := by decide +kernel

end TcpInfo
