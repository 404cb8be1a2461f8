import Verif.Lemmas.PollTimes
import Verif.Props.RecoverArchive
import Verif.Props.Collector
/-!
# C107: what happens in a poll, and which times its records carry
-/

namespace TcpInfo
open Spec

/-- C107. In every execution, what has happened so far is a sequence of complete polls, one after the other, and the beginning of one more; times never run backwards. -/
theorem C107_polls (cap : Nat) (n t off : Int) (b : Bool) (cs : List Poll.Choice) (s : Poll.State) (h : (Poll.init t off b).exec cap n cs = some s) :
    (∃ (ps : List PollRec) (cur : PollRec) (k : Nat), k < 10 ∧ s.log = ps.flatMap PollRec.entries ++ cur.entries.take k)
    ∧ s.log.Pairwise (fun e e' => e.mono ≤ e'.mono) ∧ ∀ e ∈ s.log, t ≤ e.mono ∧ e.mono ≤ s.tk.now := by
  obtain ⟨ps, cur, i⟩ := pollInv_exec cs (pollInv_init t off b) h
  have j := logInv_exec cs (logInv_init t off b) h
  exact ⟨⟨ps, cur, pollDone s, pollDone_lt s, i.log⟩, j.sorted, j.within⟩

theorem submitted_append (a b : List Poll.Entry) : submitted (a ++ b) = submitted a ++ submitted b := List.filterMap_append

theorem submitted_take (p : PollRec) (k : Nat) (hk : k < 10) : submitted (p.entries.take k) = [] := by
  have : ∀ k, k < 10 → submitted (p.entries.take k) = [] := by
    intro k hk
    match k, hk with
    | 0, _ | 1, _ | 2, _ | 3, _ | 4, _ | 5, _ | 6, _ | 7, _ | 8, _ | 9, _ => rfl
  exact this k hk

theorem submitted_flatMap (ps : List PollRec) : submitted (ps.flatMap PollRec.entries) = ps.map PollRec.block := by
  induction ps with
  | nil => rfl
  | cons p ps ih => rw [List.flatMap_cons, submitted_append, ih]; rfl

theorem submitted_log {ps : List PollRec} {cur : PollRec} {s : Poll.State} (i : PollInv ps cur s) : submitted s.log = ps.map PollRec.block := by
  rw [i.log, submitted_append, submitted_flatMap, submitted_take _ _ (pollDone_lt s), List.append_nil]

/-- C107. Every block comes out of the poll directly before: it has what the kernel answered in that poll, IPv6 first, and each family has the time that the wall
clock showed after its own answer; nothing else is submitted. -/
theorem C107_block (cap : Nat) (n t off : Int) (b : Bool) (cs : List Poll.Choice) (s : Poll.State) (h : (Poll.init t off b).exec cap n cs = some s)
    (k : Nat) (blk : MessageBlock) (hb : (submitted s.log)[k]? = some blk) :
    ∃ (p : PollRec) (before after : List Poll.Entry), s.log = before ++ p.entries ++ after ∧ (submitted before).length = k ∧ blk = p.block := by
  obtain ⟨ps, cur, i⟩ := pollInv_exec cs (pollInv_init t off b) h
  rw [submitted_log i, List.getElem?_map] at hb
  obtain ⟨p, hp, rfl⟩ := Option.map_eq_some_iff.1 hb
  obtain ⟨hk, rfl⟩ := List.getElem?_eq_some_iff.1 hp
  refine ⟨ps[k], (ps.take k).flatMap PollRec.entries, (ps.drop (k + 1)).flatMap PollRec.entries ++ cur.entries.take (pollDone s), ?_, ?_, rfl⟩
  · rw [i.log]
    have e : ps = ps.take k ++ ps[k] :: ps.drop (k + 1) := by rw [← List.drop_eq_getElem_cons hk, List.take_append_drop]
    have e' : ps.flatMap PollRec.entries = (ps.take k).flatMap PollRec.entries ++ (ps[k].entries ++ (ps.drop (k + 1)).flatMap PollRec.entries) := by
      rw [← List.flatMap_cons, ← List.flatMap_append, ← e]
    rw [e']
    simp only [List.append_assoc]
  · rw [submitted_flatMap, List.length_map, List.length_take]; omega

/-- C107. The saver gets all blocks in their order; at most `cap` of them wait. -/
theorem C107_channel (cap : Nat) (n t off : Int) (b : Bool) (cs : List Poll.Choice) (s : Poll.State) (h : (Poll.init t off b).exec cap n cs = some s) :
    submitted s.log = s.taken ++ s.chan ∧ s.chan.length ≤ cap := by
  have key : ∀ (cs : List Poll.Choice) (s s' : Poll.State), submitted s.log = s.taken ++ s.chan ∧ s.chan.length ≤ cap → s.exec cap n cs = some s' →
      submitted s'.log = s'.taken ++ s'.chan ∧ s'.chan.length ≤ cap := by
    intro cs
    induction cs with
    | nil => intro s s' h hs; injection hs with hs; subst hs; exact h
    | cons c cs ih =>
      intro s s' h hs
      obtain ⟨s1, h1, h2⟩ := Option.bind_eq_some_iff.1 hs
      refine ih s1 s' ?_ h2
      clear ih h2 hs
      unfold Poll.State.step at h1
      cases c with
      | advance d => injection h1 with h1; subst h1; exact h
      | cancel => injection h1 with h1; subst h1; exact h
      | setClock off => injection h1 with h1; subst h1; exact h
      | tick =>
        simp only at h1
        obtain ⟨tk, -, rfl⟩ := Option.map_eq_some_iff.1 h1
        exact h
      | take =>
        simp only at h1
        split at h1
        · simp at h1
        · rename_i blk bs hc
          injection h1 with h1; subst h1
          rw [hc] at h
          simp only [List.length_cons] at h
          exact ⟨by rw [h.1]; simp, by simp only; omega⟩
      | answer setup seq pid script =>
        simp only at h1
        unfold Poll.State.answer at h1
        split at h1
        · obtain ⟨r, -, rfl⟩ := Option.map_eq_some_iff.1 h1
          exact ⟨by simp only [Poll.State.note, submitted_append]; rw [h.1]; simp [submitted], h.2⟩
        · obtain ⟨r, -, rfl⟩ := Option.map_eq_some_iff.1 h1
          exact ⟨by simp only [Poll.State.note, submitted_append]; rw [h.1]; simp [submitted], h.2⟩
        · simp at h1
      | run =>
        simp only at h1
        unfold Poll.State.run at h1
        split at h1
        · unfold Poll.State.poll at h1
          cases hst : s.stage <;> rw [hst] at h1 <;> simp only [Option.some.injEq, reduceCtorEq] at h1
          all_goals first
            | (subst h1; exact ⟨by simp only [Poll.State.note, submitted_append]; rw [h.1]; simp [submitted], h.2⟩)
            | skip
          split at h1
          · rename_i hlt
            obtain ⟨tk, -, rfl⟩ := Option.map_eq_some_iff.1 h1
            refine ⟨?_, ?_⟩
            · simp only [Poll.State.note, submitted_append]; rw [h.1]; simp [submitted]
            · simp only [List.length_append, List.length_singleton]; omega
          · simp at h1
        · obtain ⟨tk, -, rfl⟩ := Option.map_eq_some_iff.1 h1
          split
          · exact ⟨by simp only [Poll.State.note, submitted_append]; rw [h.1]; simp [submitted], h.2⟩
          · exact h
  exact key cs _ s ⟨rfl, Nat.zero_le _⟩ h

theorem ticker_reachable_step {n t : Int} {tk tk' : Ticker.State} (h : Ticker.Reachable n t tk) (c : Ticker.Choice) (hs : tk.step n c = some tk') : Ticker.Reachable n t tk' := by
  obtain ⟨b, cs, h⟩ := h
  refine ⟨b, cs ++ [c], ?_⟩
  have key : ∀ (cs : List Ticker.Choice) (a x y : Ticker.State), a.exec n cs = some x → x.step n c = some y → a.exec n (cs ++ [c]) = some y := by
    intro cs
    induction cs with
    | nil => intro a x y h1 h2; injection h1 with h1; subst h1; simp [Ticker.State.exec, h2]
    | cons d cs ih =>
      intro a x y h1 h2
      obtain ⟨a1, e1, e2⟩ := Option.bind_eq_some_iff.1 h1
      simp only [List.cons_append, Ticker.State.exec, e1, Option.bind_some]
      exact ih a1 x y e2 h2
  exact key cs _ _ _ h hs

/-- C107. Polls begin and end as in C94, whatever happens within a poll: every execution here is one of the executions there. -/
theorem C107_ticks (cap : Nat) (n t off : Int) (b : Bool) (cs : List Poll.Choice) (s : Poll.State) (h : (Poll.init t off b).exec cap n cs = some s) :
    Ticker.Reachable n t s.tk := by
  have key : ∀ (cs : List Poll.Choice) (s s' : Poll.State), Ticker.Reachable n t s.tk → s.exec cap n cs = some s' → Ticker.Reachable n t s'.tk := by
    intro cs
    induction cs with
    | nil => intro s s' h hs; injection hs with hs; subst hs; exact h
    | cons c cs ih =>
      intro s s' h hs
      obtain ⟨s1, h1, h2⟩ := Option.bind_eq_some_iff.1 hs
      refine ih s1 s' ?_ h2
      clear ih h2 hs
      unfold Poll.State.step at h1
      cases c with
      | advance d => injection h1 with h1; subst h1; exact ticker_reachable_step h (.advance d) rfl
      | cancel => injection h1 with h1; subst h1; exact ticker_reachable_step h .cancel rfl
      | setClock off => injection h1 with h1; subst h1; exact h
      | tick =>
        simp only at h1
        obtain ⟨tk, e, rfl⟩ := Option.map_eq_some_iff.1 h1
        exact ticker_reachable_step h .tick e
      | take =>
        simp only at h1
        split at h1
        · simp at h1
        · injection h1 with h1; subst h1; exact h
      | answer setup seq pid script =>
        simp only at h1
        unfold Poll.State.answer at h1
        split at h1
        · obtain ⟨r, -, rfl⟩ := Option.map_eq_some_iff.1 h1; exact h
        · obtain ⟨r, -, rfl⟩ := Option.map_eq_some_iff.1 h1; exact h
        · simp at h1
      | run =>
        simp only at h1
        unfold Poll.State.run at h1
        split at h1
        · unfold Poll.State.poll at h1
          cases hst : s.stage <;> rw [hst] at h1 <;> simp only [Option.some.injEq, reduceCtorEq] at h1
          all_goals first
            | (subst h1; exact h)
            | skip
          split at h1
          · obtain ⟨tk, e, rfl⟩ := Option.map_eq_some_iff.1 h1
            exact ticker_reachable_step h .run e
          · simp at h1
        · obtain ⟨tk, e, rfl⟩ := Option.map_eq_some_iff.1 h1
          split
          · exact ticker_reachable_step h .run e
          · exact ticker_reachable_step h .run e
  exact key cs _ s ⟨b, [], rfl⟩ h

/-- C107. While a poll is under way, it goes on unless it waits for the kernel or for room in the channel; each answer that `OneType` comes to lets it go on. -/
theorem C107_not_stuck (cap : Nat) (n : Int) (s : Poll.State) (hp : s.tk.pc = .polling) :
    (∃ s', s.step cap n .run = some s') ∨ cap ≤ s.chan.length
    ∨ ∀ setup seq pid script, oneType setup seq pid script ≠ none → ∃ s', s.step cap n (.answer setup seq pid script) = some s' := by
  unfold Poll.State.step Poll.State.run
  simp only [hp, if_pos]
  unfold Poll.State.poll
  cases hst : s.stage
  case dump6 =>
    right; right
    intro setup seq pid script ho
    obtain ⟨r, hr⟩ := Option.ne_none_iff_exists'.1 ho
    exact ⟨_, by unfold Poll.State.answer; rw [hp, hst, hr]; rfl⟩
  case dump4 =>
    right; right
    intro setup seq pid script ho
    obtain ⟨r, hr⟩ := Option.ne_none_iff_exists'.1 ho
    exact ⟨_, by unfold Poll.State.answer; rw [hp, hst, hr]; rfl⟩
  case send =>
    by_cases hc : s.chan.length < cap
    · left
      simp only [hc, if_pos]
      unfold Ticker.State.run
      rw [hp]
      exact ⟨_, rfl⟩
    · right; left; omega
  all_goals exact Or.inl ⟨_, rfl⟩

theorem latencies_append (a b : List Poll.Entry) : latencies (a ++ b) = latencies a ++ latencies b := List.filterMap_append

theorem sum_append_int (a b : List Int) : (a ++ b).sum = a.sum + b.sum := by
  induction a with
  | nil => simp
  | cons x a ih => simp only [List.cons_append, List.sum_cons, ih]; omega

/-- A dump is under way. -/
def dumping (s : Poll.State) : Bool :=
  decide (s.tk.pc = .polling) && (match s.stage with | .dump6 | .defer6 | .dump4 | .defer4 => true | _ => false)

structure SumInv (t : Int) (s : Poll.State) : Prop where
  nonneg : ∀ d ∈ latencies s.log, 0 ≤ d
  start : dumping s = true → s.start ≤ s.tk.now
  sum : (latencies s.log).sum + (if dumping s then s.tk.now - s.start else 0) ≤ s.tk.now - t

theorem sumInv_step {cap : Nat} {n t : Int} {c : Poll.Choice} {s s' : Poll.State} (h : SumInv t s) (hs : s.step cap n c = some s') : SumInv t s' := by
  obtain ⟨i1, i2, i3⟩ := h
  unfold Poll.State.step at hs
  cases c with
  | advance d =>
    injection hs with hs; subst hs
    refine ⟨i1, fun hd => ?_, ?_⟩
    · have := i2 hd; simp only; omega
    · show (latencies s.log).sum + (if dumping s then s.tk.now + d - s.start else 0) ≤ s.tk.now + d - t
      cases e : dumping s <;> rw [e] at i3 <;> simp at i3 ⊢ <;> omega
  | cancel => injection hs with hs; subst hs; exact ⟨i1, i2, i3⟩
  | setClock off => injection hs with hs; subst hs; exact ⟨i1, i2, i3⟩
  | tick =>
    simp only at hs
    obtain ⟨tk, h1, rfl⟩ := Option.map_eq_some_iff.1 hs
    obtain ⟨e1, -, e⟩ := tick_same h1
    have ed : dumping { s with tk := tk } = dumping s := by unfold dumping; rw [e1]
    refine ⟨i1, ?_, ?_⟩
    · rw [ed]; simp only [e]; exact i2
    · rw [ed]; simp only [e]; exact i3
  | take =>
    simp only at hs
    split at hs
    · simp at hs
    · injection hs with hs; subst hs; exact ⟨i1, i2, i3⟩
  | answer setup seq pid script =>
    simp only at hs
    unfold Poll.State.answer at hs
    split at hs
    all_goals first
      | (simp at hs; done)
      | skip
    all_goals
      rename_i hp hst
      obtain ⟨r, -, rfl⟩ := Option.map_eq_some_iff.1 hs
      have ed : dumping s = true := by simp [dumping, hp, hst]
      refine ⟨?_, fun _ => i2 ed, ?_⟩
      · intro d hd; apply i1 d; simpa [Poll.State.note, latencies] using hd
      · rw [if_pos ed] at i3
        simp only [dumping, Poll.State.note, hp, latencies_append, sum_append_int]
        simp [latencies] at i3 ⊢
        omega
  | run =>
    simp only at hs
    unfold Poll.State.run at hs
    split at hs
    · rename_i hp
      unfold Poll.State.poll at hs
      cases hst : s.stage <;> rw [hst] at hs <;> simp only [Option.some.injEq, reduceCtorEq] at hs
      case begin6 | begin4 =>
        subst hs
        have ed : dumping s = false := by simp [dumping, hp, hst]
        rw [ed] at i3
        refine ⟨?_, fun _ => Int.le_refl _, ?_⟩
        · intro d hd; apply i1 d; simpa [Poll.State.note, latencies] using hd
        · simp only [dumping, Poll.State.note, hp, latencies_append, sum_append_int]
          simp [latencies] at i3 ⊢
          omega
      case defer6 | defer4 =>
        subst hs
        have ed : dumping s = true := by simp [dumping, hp, hst]
        rw [if_pos ed] at i3
        have := i2 ed
        refine ⟨?_, ?_, ?_⟩
        · intro d hd
          simp only [Poll.State.note, latencies_append] at hd
          rcases List.mem_append.1 hd with hd | hd
          · exact i1 d hd
          · simp [latencies] at hd; omega
        · intro e; simp [dumping] at e
        · simp only [dumping, Poll.State.note, hp, latencies_append, sum_append_int]
          simp [latencies] at i3 ⊢
          omega
      case stamp6 | stamp4 =>
        subst hs
        have ed : dumping s = false := by simp [dumping, hp, hst]
        rw [ed] at i3
        refine ⟨?_, ?_, ?_⟩
        · intro d hd; apply i1 d; simpa [Poll.State.note, latencies] using hd
        · intro e; simp [dumping] at e
        · simp only [dumping, Poll.State.note, hp, latencies_append, sum_append_int]
          simp [latencies] at i3 ⊢
          omega
      case send =>
        split at hs
        · obtain ⟨tk, h1, rfl⟩ := Option.map_eq_some_iff.1 hs
          have e := (ticker_run_begun h1).2.2
          have ed : dumping s = false := by simp [dumping, hp, hst]
          rw [ed] at i3
          refine ⟨?_, ?_, ?_⟩
          · intro d hd; apply i1 d; simpa [Poll.State.note, latencies] using hd
          · intro e; simp [dumping, Poll.State.note, hst] at e
          · simp only [dumping, Poll.State.note, latencies_append, sum_append_int, hst, e]
            simp [latencies] at i3 ⊢
            omega
        · simp at hs
    · rename_i hp
      obtain ⟨tk, h1, rfl⟩ := Option.map_eq_some_iff.1 hs
      have e := (ticker_run_begun h1).2.2
      have ed : dumping s = false := by simp [dumping, hp]
      rw [ed] at i3
      split
      · refine ⟨?_, ?_, ?_⟩
        · intro d hd; apply i1 d; simpa [Poll.State.note, latencies] using hd
        · intro e; simp [dumping] at e
        · simp only [dumping, Poll.State.note, latencies_append, sum_append_int, e]
          simp [latencies] at i3 ⊢
          omega
      · rename_i hq
        refine ⟨i1, ?_, ?_⟩
        · intro e; simp [dumping, hq] at e
        · simp only [dumping, e]
          simp [hq] at i3 ⊢
          omega

/-- C107. The durations in the histogram of dumps are not negative, and in sum not more than the time that has passed since the start: dumps do not overlap. -/
theorem C107_latency (cap : Nat) (n t off : Int) (b : Bool) (cs : List Poll.Choice) (s : Poll.State) (h : (Poll.init t off b).exec cap n cs = some s) :
    (∀ d ∈ latencies s.log, 0 ≤ d) ∧ (latencies s.log).sum ≤ s.tk.now - t := by
  have key : ∀ (cs : List Poll.Choice) (s s' : Poll.State), SumInv t s → s.exec cap n cs = some s' → SumInv t s' := by
    intro cs
    induction cs with
    | nil => intro s s' h hs; injection hs with hs; subst hs; exact h
    | cons c cs ih =>
      intro s s' h hs
      obtain ⟨s1, h1, h2⟩ := Option.bind_eq_some_iff.1 hs
      exact ih s1 s' (sumInv_step h h1) h2
  have i := key cs _ s ⟨by simp [Poll.init, latencies], by simp [dumping, Poll.init, Ticker.init], by simp [Poll.init, latencies, dumping, Ticker.init]⟩ h
  refine ⟨i.nonneg, ?_⟩
  have h1 := i.sum
  have h2 := i.start
  split at h1
  · rename_i e; have := h2 e; omega
  · omega

theorem sublist_flatMap_mem {α β : Type} {f : α → List β} {l : List α} {a : α} (h : a ∈ l) : (f a).Sublist (l.flatMap f) := by
  obtain ⟨x, y, rfl⟩ := List.append_of_mem h
  rw [List.flatMap_append, List.flatMap_cons]
  exact (List.sublist_append_left _ _).trans (List.sublist_append_right _ _)

/-- Each block has its times one after the other. -/
def blockTimes (bs : List MessageBlock) : List Int := bs.flatMap (fun b => [b.v6Time, b.v4Time])

theorem blockTimes_sublist {ps : List PollRec} {cur : PollRec} {s : Poll.State} (i : PollInv ps cur s) : (blockTimes (submitted s.log)).Sublist (s.log.map (·.wall)) := by
  rw [submitted_log i, i.log, List.map_append]
  refine List.Sublist.trans ?_ (List.sublist_append_left _ _)
  clear i
  unfold blockTimes
  induction ps with
  | nil => simp
  | cons p ps ih =>
    rw [List.map_cons, List.flatMap_cons, List.flatMap_cons, List.map_append]
    refine List.Sublist.append ?_ ih
    show [p.read6.2, p.read4.2].Sublist [p.begun.2, p.asked6.2, p.answered6.2, p.timed6.2, p.read6.2, p.asked4.2, p.answered4.2, p.timed4.2, p.read4.2, p.sent.2]
    exact .cons _ (.cons _ (.cons _ (.cons _ (.cons_cons _ (.cons _ (.cons _ (.cons _ (.cons_cons _ (.cons _ .slnil)))))))))

/-- C107 (partial: as long as nobody sets the clock back, see `C107_violated`). The times of the records increase from family to family and from poll to poll. -/
theorem C107_increasing_partial (cap : Nat) (n t off : Int) (b : Bool) (cs : List Poll.Choice) (hc : NotSetBack off cs) (s : Poll.State)
    (h : (Poll.init t off b).exec cap n cs = some s) : (blockTimes (submitted s.log)).Pairwise (· ≤ ·) := by
  obtain ⟨ps, cur, i⟩ := pollInv_exec cs (pollInv_init t off b) h
  have w := wallInv_exec off cs hc (logInv_init t off b) (wallInv_init t off b) h
  refine List.Pairwise.sublist (blockTimes_sublist i) ?_
  rw [List.pairwise_map]
  exact w.sorted

/-- C107 (partial, as above). So two different polls have different times (`Later`, as C86 takes for granted) if only the clock has advanced between them. -/
theorem C107_later_partial (cap : Nat) (n t off : Int) (b : Bool) (cs : List Poll.Choice) (hc : NotSetBack off cs) (s : Poll.State)
    (h : (Poll.init t off b).exec cap n cs = some s) (ha : (submitted s.log).Pairwise (fun x y => x.v4Time ≠ y.v6Time)) : (submitted s.log).Pairwise Later := by
  have hi := C107_increasing_partial cap n t off b cs hc s h
  generalize submitted s.log = l at hi ha
  induction l with
  | nil => exact .nil
  | cons x l ih =>
    rw [List.pairwise_cons] at ha
    unfold blockTimes at hi
    rw [List.flatMap_cons, List.pairwise_append] at hi
    obtain ⟨g1, g2, g3⟩ := hi
    rw [List.pairwise_cons]
    refine ⟨fun y hy => ?_, ih g2 ha.2⟩
    have hl : ∀ z ∈ [y.v6Time, y.v4Time], z ∈ List.flatMap (fun b : MessageBlock => [b.v6Time, b.v4Time]) l := fun z hz => List.mem_flatMap.2 ⟨y, hy, hz⟩
    have a1 := g3 x.v4Time (by simp) y.v6Time (hl _ (by simp))
    have a2 : x.v6Time ≤ x.v4Time := by simpa using g1
    have a3 : y.v6Time ≤ y.v4Time := by
      have := g2.sublist (sublist_flatMap_mem hy)
      simpa using this
    have a4 := ha.1 y hy
    unfold Later
    omega

/-- C107 (partial, as above). Block number `k` (from 0) does not have times before `k` times 10 ms after the start. -/
theorem C107_rate_partial (cap : Nat) (n t off : Int) (b : Bool) (cs : List Poll.Choice) (hc : NotSetBack off cs) (s : Poll.State)
    (h : (Poll.init t off b).exec cap n cs = some s) (k : Nat) (blk : MessageBlock) (hb : (submitted s.log)[k]? = some blk) :
    t + off + 10000000 * k ≤ blk.v6Time ∧ blk.v6Time ≤ blk.v4Time ∧ blk.v4Time ≤ s.tk.now + s.off := by
  obtain ⟨ps, cur, i⟩ := pollInv_exec cs (pollInv_init t off b) h
  have j := logInv_exec cs (logInv_init t off b) h
  have w := wallInv_exec off cs hc (logInv_init t off b) (wallInv_init t off b) h
  rw [submitted_log i, List.getElem?_map] at hb
  obtain ⟨p, hp, rfl⟩ := Option.map_eq_some_iff.1 hb
  have hbg : s.tk.begun[k]? = some p.begun.1 := by
    obtain ⟨hk, rfl⟩ := List.getElem?_eq_some_iff.1 hp
    rw [i.begun, List.getElem?_append_left (by simpa using hk)]
    simp [hk]
  have hr := C94_rate n t s.tk (C107_ticks cap n t off b cs s h) k _ hbg
  have hpm : p ∈ ps := List.mem_of_getElem? hp
  have hsub : p.entries.Sublist s.log := by
    rw [i.log]
    exact (sublist_flatMap_mem hpm).trans (List.sublist_append_left _ _)
  have hsort := j.sorted.sublist hsub
  have hsort' := w.sorted.sublist hsub
  have e6 := w.past ⟨p.read6.1, p.read6.2, .clock⟩ (hsub.subset (by simp [PollRec.entries]))
  have e4 := w.past ⟨p.read4.1, p.read4.2, .clock⟩ (hsub.subset (by simp [PollRec.entries]))
  simp only at e4 e6
  have s1 : [(⟨p.begun.1, p.begun.2, .poll⟩ : Poll.Entry), ⟨p.read6.1, p.read6.2, .clock⟩, ⟨p.read4.1, p.read4.2, .clock⟩].Sublist p.entries :=
    .cons_cons _ (.cons _ (.cons _ (.cons _ (.cons_cons _ (.cons _ (.cons _ (.cons _ (.cons_cons _ (.cons _ .slnil)))))))))
  have hs1 := hsort.sublist s1
  have hs2 := hsort'.sublist s1
  simp only [List.pairwise_cons, List.mem_cons, List.not_mem_nil, or_false, forall_eq_or_imp, forall_eq] at hs1 hs2
  show _ ≤ p.read6.2 ∧ p.read6.2 ≤ p.read4.2 ∧ p.read4.2 ≤ _
  omega

/-- C107. Every record that is saved carries the time which the wall clock showed when it was read for the first time after the answer with this record's message, while no other dump
had begun. -/
theorem C107_recorded (cap : Nat) (n t off : Int) (b : Bool) (cs : List Poll.Choice) (s : Poll.State) (h : (Poll.init t off b).exec cap n cs = some s)
    (env : Env) (sv : Saver) (hr : runSaver env s.taken = some sv) (r : ArchivalRecord) (hm : r ∈ written sv.trace) :
    ∃ (before after : List Poll.Entry) (family : UInt8) (msgs : List NetlinkMessage) (m : NetlinkMessage) (x y z : Poll.Entry),
      s.log = before ++ [x, y, z] ++ after ∧ x.ev = .reply family msgs none ∧ m ∈ msgs ∧ (∃ d, y.ev = .latency (if family = 2 then "ipv4" else "ipv6") d) ∧ z.ev = .clock
      ∧ r.timestamp = z.wall ∧ ∃ r0, makeArchivalRecord m env.exclude = .ok (some r0) ∧ r = { r0 with timestamp := z.wall } := by
  have hch := (C107_channel cap n t off b cs s h).1
  obtain ⟨blk, hblk, hrep⟩ := List.mem_flatMap.1 ((runSaver_written_reported env _ sv hr).subset hm)
  have hsub : blk ∈ submitted s.log := by rw [hch]; exact List.mem_append_left _ hblk
  obtain ⟨k, hk⟩ := List.mem_iff_getElem?.1 hsub
  obtain ⟨p, before, after, hlog, -, rfl⟩ := C107_block cap n t off b cs s h k blk hk
  have rep : ∀ (T : Int) (ms : List NetlinkMessage), r ∈ (ms.map some).filterMap (reportOf env.exclude T) →
      ∃ m ∈ ms, r.timestamp = T ∧ ∃ r0, makeArchivalRecord m env.exclude = .ok (some r0) ∧ r = { r0 with timestamp := T } := by
    intro T ms hx
    obtain ⟨o, ho, hx⟩ := List.mem_filterMap.1 hx
    obtain ⟨m, hm, rfl⟩ := List.mem_map.1 ho
    refine ⟨m, hm, reportOf_time hx, ?_⟩
    unfold reportOf at hx
    simp only at hx
    split at hx
    · rename_i r0 e
      injection hx with hx
      exact ⟨r0, e, hx.symm⟩
    · simp at hx
  unfold reports at hrep
  rcases List.mem_append.1 hrep with hx | hx
  · have hx : r ∈ (if p.err4 = none then p.msgs4.map some else []).filterMap (reportOf env.exclude p.read4.2) := hx
    split at hx
    · rename_i he
      obtain ⟨m, a1, a2, a3⟩ := rep _ _ hx
      refine ⟨before ++ p.entries.take 6, p.entries.drop 9 ++ after, 2, p.msgs4, m, ⟨p.answered4.1, p.answered4.2, .reply 2 p.msgs4 p.err4⟩, ⟨p.timed4.1, p.timed4.2, .latency "ipv4" (p.timed4.1 - p.asked4.1)⟩,
        ⟨p.read4.1, p.read4.2, .clock⟩, ?_, by rw [he], a1, ⟨_, rfl⟩, rfl, a2, a3⟩
      rw [hlog]; simp [PollRec.entries]
    · simp at hx
  · have hx : r ∈ (if p.err6 = none then p.msgs6.map some else []).filterMap (reportOf env.exclude p.read6.2) := hx
    split at hx
    · rename_i he
      obtain ⟨m, a1, a2, a3⟩ := rep _ _ hx
      refine ⟨before ++ p.entries.take 2, p.entries.drop 5 ++ after, 10, p.msgs6, m, ⟨p.answered6.1, p.answered6.2, .reply 10 p.msgs6 p.err6⟩, ⟨p.timed6.1, p.timed6.2, .latency "ipv6" (p.timed6.1 - p.asked6.1)⟩,
        ⟨p.read6.1, p.read6.2, .clock⟩, ?_, by rw [he], a1, ⟨_, rfl⟩, rfl, a2, a3⟩
      rw [hlog]; simp [PollRec.entries]
    · simp at hx

/-- C86 (partial as `C86_archive_partial`), with the blocks that the collector has made: as long as nobody sets the clock back and the clock has advanced between polls, every poll
whose block the saver has taken can be looked up in the archive. That the blocks are in the order of time need not be assumed. -/
theorem C86_polled_partial (cap : Nat) (n t off : Int) (b : Bool) (cs : List Poll.Choice) (hc : NotSetBack off cs) (s : Poll.State) (h : (Poll.init t off b).exec cap n cs = some s)
    (ha : (submitted s.log).Pairwise (fun x y => x.v4Time ≠ y.v6Time)) (zone : Int → Int) (hz : ∀ t, (zone t).natAbs < 24 * 60) (anon : Anonymizer) (env : Env) (hf : NoFaults env)
    (hv : ViewOK env) (hm' : env.marshallers < 2 ^ 64) (hi : ShortInput env s.taken) (hI : ∀ b ∈ s.taken, AllInfoOK env.exclude b)
    (hk : ∀ b ∈ s.taken, ∀ r ∈ reports env.exclude b, ck r ≠ 0 ∧ (Spec.byte (r.rawIDM.getD []) 0 = 2 ∨ Spec.byte (r.rawIDM.getD []) 0 = 10))
    (h1 : ∀ b ∈ s.taken, OneFamily env.exclude b) (ps : List PChoice) (p : Proc) (hr : runProc (jsonEnv zone anon) env s.taken ps = some p) (hp : p.pc = .returned)
    (b : MessageBlock) (hb : b ∈ s.taken) (k : UInt64) (r : ArchivalRecord) (hl : lastFor k (reports env.exclude b) = some r) (v : Bytes) (hvl : attrVal r 2 = some v) :
    ∃ w T, T ≤ r.timestamp
      ∧ (∀ out, Loaded p w out → ∃ y ∈ out, y.timestamp = T ∧ ck y = k ∧ stateByte y = stateByte r
          ∧ ∃ u, attrVal y 2 = some u ∧ ∀ c ∈ earlyCounters, fieldOf tcp_info c u = fieldOf tcp_info c v)
      ∧ ∀ w' out', Loaded p w' out' → ∀ y' ∈ out', ck y' = k → y'.timestamp ≤ r.timestamp → y'.timestamp ≤ T := by
  have hL := C107_later_partial cap n t off _ cs hc s h ha
  rw [(C107_channel cap n t off _ cs s h).1] at hL
  exact C86_archive_partial zone hz anon env hf hv hm' s.taken hi hI hk (hL.sublist (List.sublist_append_left _ _)) h1 ps p hr hp b hb k r hl v hvl

/-! ## Examples -/

/-- A message as the kernel sends it, from a socket of family AF_INET6. -/
def exMsg6 (cookie x sent : UInt8) : Option NetlinkMessage := (exMsg cookie x sent).map (fun m => { m with data := m.data.set 0 10 })

/-- A poll: one IPv6 and one IPv4 connection are reported; the dumps take 3 ms and 1 ms. -/
def exPoll (x : UInt8) : List Poll.Choice :=
  [.run, .run, .advance 3000000, .answer none 0 0 [.ok (exMsg6 3 x x).toList], .run, .advance 1000, .run, .run, .advance 1000000,
   .answer none 0 0 [.ok (exMsg 1 x x).toList], .run, .run, .run, .run]

/-- Until the next tick has been received. -/
def exWait : List Poll.Choice := [.advance 10000000, .tick, .run]

/-- Two polls, of which the saver has taken the first, and a third one that has begun; `set` happens after the first poll. -/
def exTwoPolls (set : List Poll.Choice) : Option Poll.State :=
  (Poll.init 5 1600000000000000000 false).exec 2 0 ([.run] ++ exPoll 1 ++ exWait ++ set ++ exPoll 2 ++ exWait ++ [.take, .take, .run, .run])

example : (exTwoPolls []).map (fun s => (blockTimes (submitted s.log), latencies s.log, s.log.length, s.taken.length, s.chan.length))
    = some ([1600000000003001005, 1600000000004001005, 1600000000017002005, 1600000000018002005], [3000000, 1000000, 3000000, 1000000], 22, 2, 0) := by decide +kernel
example : (exTwoPolls []).map (fun s => ((submitted s.log).map (fun b => (b.v6Messages.length, b.v4Messages.length)))) = some [(1, 1), (1, 1)] := by decide +kernel
-- the hypotheses of `C107_recorded`, `C107_later_partial` and of the end-to-end theorem of C86 hold: two connections, both with two records
example : (exTwoPolls []).map (fun s => (runSaver exEnv s.taken).map (fun v => (written v.trace).map (fun r => (ck r, r.timestamp))))
    = some (some [(1, 1600000000004001005), (3, 1600000000003001005), (1, 1600000000018002005), (3, 1600000000017002005)]) := by decide +kernel
example : (exTwoPolls []).map (fun s => decide ((submitted s.log).Pairwise (fun x y => x.v4Time ≠ y.v6Time) ∧ (submitted s.log).Pairwise Later)) = some true := by decide +kernel
example : ∀ s, exTwoPolls [] = some s → ∀ b ∈ s.taken, OneFamily none b := by
  have h : (exTwoPolls []).map (fun s => s.taken.all (fun b => ((b.v4Messages.filterMap (reportOf none b.v4Time)).all (fun r =>
      (b.v6Messages.filterMap (reportOf none b.v6Time)).all (fun r' => decide (ck r ≠ ck r')))))) = some true := by decide +kernel
  intro s hs b hb r hr r' hr'
  rw [hs] at h
  simp only [Option.map_some, Option.some.injEq, List.all_eq_true, decide_eq_true_eq] at h
  exact h b hb r hr r' hr'
-- and the other hypotheses of `C86_polled_partial`: `main` returns, messages and times are ordinary, every report has a tcp_info, a cookie and a family
example : (exTwoPolls []).map (fun s => (runProc exJsonEnv exEnv s.taken (procSkip exJsonEnv exEnv exTurns (procInit s.taken 3)).1).map (fun p => p.pc)) = some (some .returned) := by
  decide +kernel
example : (exTwoPolls []).map (fun s => s.taken.all (fun b => (reports none b).length == 2 && (reports none b).all (fun r => decide (InfoOK r) && (attrVal r 2).isSome && ck r != 0
      && (Spec.byte (r.rawIDM.getD []) 0 == 2 || Spec.byte (r.rawIDM.getD []) 0 == 10))
    && decide (year0 + 86400 * 1000000000 ≤ b.v6Time ∧ b.v4Time < year10000 - 86400 * 1000000000)
    && (b.v4Messages ++ b.v6Messages).all (fun m => decide ((m.map (fun m => m.data.length)).getD 0 ≤ 48000)))) = some true := by decide +kernel
-- the clock may be set forward
example : NotSetBack 1600000000000000000 ([.run] ++ exPoll 1 ++ exWait ++ [.setClock 1600086400000000000] ++ exPoll 2 ++ exWait ++ [.take, .take, .run, .run]) := by
  simp [NotSetBack, exPoll, exWait]
example : (exTwoPolls [.setClock 1600086400000000000]).map (fun s => blockTimes (submitted s.log))
    = some [1600000000003001005, 1600000000004001005, 1600086400017002005, 1600086400018002005] := by decide +kernel
-- a full channel holds up the poll
example : ((Poll.init 5 0 false).exec 2 0 ([.run] ++ exPoll 1 ++ exWait ++ exPoll 2 ++ exWait ++ (exPoll 3).dropLast)).map (fun s => ((s.tk.pc, s.stage), s.chan.length))
    = none := by decide +kernel
example : ((Poll.init 5 0 false).exec 2 0 ([.run] ++ exPoll 1 ++ exWait ++ exPoll 2 ++ exWait ++ (exPoll 3).dropLast.dropLast)).map
    (fun s => ((s.tk.pc, s.stage), s.chan.length, (s.step 2 0 .run).isSome, ((s.step 2 0 .take).bind (fun s => s.step 2 0 .run)).isSome))
    = some ((.polling, .send), 2, false, true) := by decide +kernel
-- a failing dump is timed as well, and its messages are left out
example : ((Poll.init 0 0 false).exec 2 0 ([.run, .run, .run, .advance 7, .answer none 0 0 [.ok [exMore], .error .read], .run, .run, .run, .advance 5,
    .answer (some .read) 0 0 [], .run, .run, .run])).map (fun s => (latencies s.log, (submitted s.log).map (fun b => (b.v6Messages.length, b.v4Messages.length, b.v6Time, b.v4Time))))
    = some ([7, 5], [(0, 0, 7, 12)]) := by decide +kernel

/-- C107 violated when the clock is set back by two days between two polls: the second record of each connection is earlier than the first. -/
theorem C107_violated : (exTwoPolls [.setClock (1600000000000000000 - 172800000000000)]).map (fun s => (runSaver exEnv s.taken).map (fun v => (written v.trace).map (fun r => (ck r, r.timestamp))))
    = some (some [(1, 1600000000004001005), (3, 1600000000003001005), (1, 1599827200018002005), (3, 1599827200017002005)]) := by decide +kernel

end TcpInfo
