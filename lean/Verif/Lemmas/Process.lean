import Verif.Model.Process
import Verif.Props.Marshal
/-!
# The whole process runs the saver's program
-/

namespace TcpInfo
open Spec

/-- More work for the saver. -/
def MState.more (st : MState) (F : List Action) : MState := { st with rem := st.rem ++ F }

theorem more_nil (st : MState) : st.more [] = st := by unfold MState.more; simp

theorem workerStep_more (me : MEnv) (st : MState) (i : Nat) (F : List Action) :
    (st.more F).workerStep me i = (st.workerStep me i).map (fun st' => st'.more F) := by
  obtain ⟨rem, ws, files, cl, wg, cr⟩ := st
  unfold MState.workerStep MState.more
  simp only
  cases ws[i]? with
  | none => rfl
  | some wk =>
    obtain ⟨q, pc⟩ := wk
    cases pc with
    | idle =>
      cases q with
      | nil => cases cl <;> rfl
      | cons t ts => rfl
    | got t =>
      obtain ⟨m, w⟩ := t
      cases m with
      | none => cases w <;> rfl
      | some r =>
        cases w with
        | none => rfl
        | some w =>
          simp only
          cases anonymizeRecord me.anon r <;> rfl
    | write1 w b => rfl
    | write2 w => rfl
    | exited => rfl

theorem saverStep_more (me : MEnv) (st st' : MState) (F : List Action) (h : st.saverStep me = some st') :
    (st.more F).saverStep me = some (st'.more F) := by
  obtain ⟨rem, ws, files, cl, wg, cr⟩ := st
  cases rem with
  | nil => simp [MState.saverStep] at h
  | cons a rem =>
    unfold MState.saverStep at h ⊢
    unfold MState.more
    simp only [List.cons_append] at h ⊢
    cases a with
    | openFile w n hd => simp only [Option.some.injEq] at h ⊢; subst h; rfl
    | send q t =>
      simp only at h ⊢
      cases hq : ws[q]? with
      | none => simp only [hq, Option.some.injEq] at h ⊢; subst h; rfl
      | some wk =>
        simp only [hq] at h ⊢
        cases cl with
        | true => simp only [if_true, Option.some.injEq] at h ⊢; subst h; rfl
        | false =>
          simp only [Bool.false_eq_true, if_false] at h ⊢
          split at h
          · rename_i hl
            rw [if_pos hl]
            simp only [Option.some.injEq] at h ⊢; subst h; rfl
          · simp at h
    | closeChans =>
      simp only at h ⊢
      cases cl with
      | true => simp only [if_true, Option.some.injEq] at h ⊢; subst h; rfl
      | false => simp only [Bool.false_eq_true, if_false, Option.some.injEq] at h ⊢; subst h; rfl
    | flowCreated _ _ _ => simp only [Option.some.injEq] at h ⊢; subst h; rfl
    | flowDeleted _ _ => simp only [Option.some.injEq] at h ⊢; subst h; rfl
    | observeSent _ => simp only [Option.some.injEq] at h ⊢; subst h; rfl
    | observeReceived _ => simp only [Option.some.injEq] at h ⊢; subst h; rfl

theorem blocked_more (me : MEnv) (st : MState) (a : Action) (rem F : List Action) (hr : st.rem = a :: rem) (hsv : st.saverStep me = none) :
    (st.more F).saverStep me = none := by
  obtain ⟨rem', ws, files, cl, wg, cr⟩ := st
  simp only at hr; subst hr
  unfold MState.more
  unfold MState.saverStep at hsv ⊢
  simp only [List.cons_append] at hsv ⊢
  cases a with
  | send q t =>
    simp only at hsv ⊢
    cases hq : ws[q]? with
    | none => simp [hq] at hsv
    | some wk =>
      simp only [hq] at hsv ⊢
      split at hsv
      · simp at hsv
      · rename_i h1
        split at hsv
        · simp at hsv
        · rename_i h2
          rw [if_neg h1, if_neg h2]
  | closeChans => simp only at hsv; split at hsv <;> simp at hsv
  | openFile _ _ _ => simp at hsv
  | flowCreated _ _ _ => simp at hsv
  | flowDeleted _ _ => simp at hsv
  | observeSent _ => simp at hsv
  | observeReceived _ => simp at hsv

theorem step_more (me : MEnv) (st st' : MState) (c : Choice) (F : List Action) (h : st.step me c = some st') :
    (st.more F).step me c = some (st'.more F) := by
  unfold MState.step at h ⊢
  show (if st.crashed = true then none else _) = _
  split at h
  · simp at h
  · rename_i hc
    rw [if_neg hc]
    cases c with
    | saver => exact saverStep_more me st st' F h
    | worker i => simp only at h ⊢; rw [workerStep_more, h]; rfl

theorem exec_more (me : MEnv) (cs : List Choice) (st st' : MState) (F : List Action) (h : MState.exec me cs st = some st') :
    MState.exec me cs (st.more F) = some (st'.more F) := by
  induction cs generalizing st with
  | nil => simp only [MState.exec] at h ⊢; injection h with h; subst h; rfl
  | cons c cs ih =>
    simp only [MState.exec] at h ⊢
    obtain ⟨st1, h1, h2⟩ := Option.bind_eq_some_iff.1 h
    rw [step_more me st st1 c F h1]
    exact ih st1 h2

theorem mInit_more (prog F : List Action) (n : Nat) : (mInit prog n).more F = mInit (prog ++ F) n := rfl

theorem mexec_snoc (me : MEnv) (cs : List Choice) (c : Choice) (st st1 st2 : MState) (h : MState.exec me cs st = some st1) (h2 : st1.step me c = some st2) :
    MState.exec me (cs ++ [c]) st = some st2 := by
  rw [exec_append, h]; simp [MState.exec, h2]

/-! ## Counting marshallers, for any program -/

/-- What holds whatever the program is. -/
structure Loose (prog : List Action) (st : MState) : Prop where
  wg : st.wg = running st.workers + (if st.closed then 0 else 1)
  rest : ∃ d, prog = d ++ st.rem ∧ (st.closed = true → .closeChans ∈ d)

theorem loose_init (prog : List Action) (n : Nat) : Loose prog (mInit prog n) :=
  ⟨by simp [mInit, running_replicate], [], rfl, by simp [mInit]⟩

theorem loose_step {me : MEnv} {prog : List Action} {st st' : MState} (hi : Loose prog st) (c : Choice) (h : st.step me c = some st') : Loose prog st' := by
  obtain ⟨rem, ws, files, cl, wg, cr⟩ := st
  obtain ⟨hwg, d, hd, hcl⟩ := hi
  simp only at hwg hd hcl
  unfold MState.step at h
  split at h
  · simp at h
  cases c with
  | saver =>
    simp only at h
    unfold MState.saverStep at h
    cases rem with
    | nil => simp at h
    | cons a rem =>
      have hd' : prog = (d ++ [a]) ++ rem := by rw [hd]; simp
      have hcl' : cl = true → .closeChans ∈ d ++ [a] := fun h => List.mem_append.2 (Or.inl (hcl h))
      cases a with
      | openFile w n hd => simp only [Option.some.injEq] at h; subst h; exact ⟨hwg, _, hd', hcl'⟩
      | send q t =>
        simp only at h
        cases hq : ws[q]? with
        | none => simp only [hq, Option.some.injEq] at h; subst h; exact ⟨hwg, d, hd, hcl⟩
        | some wk =>
          simp only [hq] at h
          split at h
          · simp only [Option.some.injEq] at h; subst h; exact ⟨hwg, d, hd, hcl⟩
          · split at h
            · simp only [Option.some.injEq] at h; subst h
              refine ⟨?_, _, hd', hcl'⟩
              have := running_set ws q { wk with queue := wk.queue ++ [t] } wk hq
              simp only at this ⊢
              rw [hwg]
              have e : running (ws.set q { wk with queue := wk.queue ++ [t] }) = running ws := by omega
              rw [e]
            · simp at h
      | closeChans =>
        simp only at h
        split at h
        · simp only [Option.some.injEq] at h; subst h; exact ⟨hwg, d, hd, hcl⟩
        · rename_i hc
          simp only [Option.some.injEq] at h; subst h
          refine ⟨?_, _, hd', fun _ => by simp⟩
          simp [hc] at hwg ⊢
          omega
      | flowCreated _ _ _ => simp only [Option.some.injEq] at h; subst h; exact ⟨hwg, _, hd', hcl'⟩
      | flowDeleted _ _ => simp only [Option.some.injEq] at h; subst h; exact ⟨hwg, _, hd', hcl'⟩
      | observeSent _ => simp only [Option.some.injEq] at h; subst h; exact ⟨hwg, _, hd', hcl'⟩
      | observeReceived _ => simp only [Option.some.injEq] at h; subst h; exact ⟨hwg, _, hd', hcl'⟩
  | worker i =>
    simp only at h
    unfold MState.workerStep at h
    simp only at h
    cases hq : ws[i]? with
    | none => simp [hq] at h
    | some wk =>
      simp only [hq] at h
      obtain ⟨q, pc⟩ := wk
      have hrun := fun wk' => running_set ws i wk' ⟨q, pc⟩ hq
      have same : ∀ wk' : Worker, wk'.pc.exitedB = pc.exitedB → running (ws.set i wk') = running ws := by
        intro wk' he
        have := hrun wk'
        simp only [he] at this
        omega
      cases pc with
      | idle =>
        cases q with
        | nil =>
          simp only at h
          split at h
          · rename_i hc
            simp only [Option.some.injEq] at h; subst h
            refine ⟨?_, d, hd, hcl⟩
            have := hrun ⟨[], .exited⟩
            simp [PC.exitedB, hc] at this hwg ⊢
            omega
          · simp at h
        | cons t ts =>
          simp only [Option.some.injEq] at h; subst h
          exact ⟨by simp only; rw [same _ rfl]; exact hwg, d, hd, hcl⟩
      | got t =>
        obtain ⟨m, w⟩ := t
        cases m with
        | none =>
          cases w with
          | none => simp only [Option.some.injEq] at h; subst h; exact ⟨hwg, d, hd, hcl⟩
          | some w =>
            simp only [Option.some.injEq] at h; subst h
            exact ⟨by simp only [MState.op]; rw [same _ rfl]; exact hwg, d, hd, hcl⟩
        | some r =>
          cases w with
          | none => simp only [Option.some.injEq] at h; subst h; exact ⟨hwg, d, hd, hcl⟩
          | some w =>
            simp only at h
            cases hr : anonymizeRecord me.anon r with
            | none =>
              simp only [hr, Option.some.injEq] at h; subst h
              exact ⟨by simp only; rw [same _ rfl]; exact hwg, d, hd, hcl⟩
            | some r' =>
              simp only [hr, Option.some.injEq] at h; subst h
              exact ⟨by simp only; rw [same _ rfl]; exact hwg, d, hd, hcl⟩
      | write1 w b =>
        simp only [Option.some.injEq] at h; subst h
        exact ⟨by simp only [MState.op]; rw [same _ rfl]; exact hwg, d, hd, hcl⟩
      | write2 w =>
        simp only [Option.some.injEq] at h; subst h
        exact ⟨by simp only [MState.op]; rw [same _ rfl]; exact hwg, d, hd, hcl⟩
      | exited => simp at h

theorem loose_exec {me : MEnv} {prog : List Action} (cs : List Choice) {st st' : MState} (hi : Loose prog st) (h : MState.exec me cs st = some st') :
    Loose prog st' := by
  induction cs generalizing st with
  | nil => simp only [MState.exec] at h; injection h with h; subst h; exact hi
  | cons c cs ih =>
    simp only [MState.exec] at h
    obtain ⟨st1, h1, h2⟩ := Option.bind_eq_some_iff.1 h
    exact ih (loose_step hi c h1) h2

/-! ## Queues -/

theorem queue_set {ws : List Worker} {i : Nat} {wk' : Worker} (h : ∀ wk ∈ ws, wk.queue.length ≤ 100) (h' : wk'.queue.length ≤ 100) :
    ∀ wk ∈ ws.set i wk', wk.queue.length ≤ 100 := by
  intro wk hwk
  rcases List.mem_or_eq_of_mem_set hwk with h1 | rfl
  · exact h wk h1
  · exact h'

theorem queue_step {me : MEnv} {st st' : MState} (hi : ∀ wk ∈ st.workers, wk.queue.length ≤ 100) (c : Choice) (h : st.step me c = some st') :
    ∀ wk ∈ st'.workers, wk.queue.length ≤ 100 := by
  obtain ⟨rem, ws, files, cl, wg, cr⟩ := st
  simp only at hi
  unfold MState.step at h
  split at h
  · simp at h
  cases c with
  | saver =>
    simp only at h
    unfold MState.saverStep at h
    cases rem with
    | nil => simp at h
    | cons a rem =>
      cases a with
      | send q t =>
        simp only at h
        cases hq : ws[q]? with
        | none => simp only [hq, Option.some.injEq] at h; subst h; exact hi
        | some wk =>
          simp only [hq] at h
          split at h
          · simp only [Option.some.injEq] at h; subst h; exact hi
          · split at h
            · simp only [Option.some.injEq] at h; subst h
              exact queue_set hi (by simp; omega)
            · simp at h
      | closeChans => simp only at h; split at h <;> (simp only [Option.some.injEq] at h; subst h; exact hi)
      | openFile _ _ _ => simp only [Option.some.injEq] at h; subst h; exact hi
      | flowCreated _ _ _ => simp only [Option.some.injEq] at h; subst h; exact hi
      | flowDeleted _ _ => simp only [Option.some.injEq] at h; subst h; exact hi
      | observeSent _ => simp only [Option.some.injEq] at h; subst h; exact hi
      | observeReceived _ => simp only [Option.some.injEq] at h; subst h; exact hi
  | worker i =>
    simp only at h
    unfold MState.workerStep at h
    simp only at h
    cases hq : ws[i]? with
    | none => simp [hq] at h
    | some wk =>
      simp only [hq] at h
      have hwk := hi wk (List.mem_of_getElem? hq)
      obtain ⟨q, pc⟩ := wk
      simp only at hwk
      cases pc with
      | idle =>
        cases q with
        | nil =>
          simp only at h
          split at h
          · simp only [Option.some.injEq] at h; subst h; exact queue_set hi (by simp)
          · simp at h
        | cons t ts =>
          simp only [Option.some.injEq] at h; subst h
          exact queue_set hi (by simp at hwk ⊢; omega)
      | got t =>
        obtain ⟨m, w⟩ := t
        cases m with
        | none =>
          cases w with
          | none => simp only [Option.some.injEq] at h; subst h; exact hi
          | some w => simp only [Option.some.injEq] at h; subst h; exact queue_set hi hwk
        | some r =>
          cases w with
          | none => simp only [Option.some.injEq] at h; subst h; exact hi
          | some w =>
            simp only at h
            cases hr : anonymizeRecord me.anon r with
            | none => simp only [hr, Option.some.injEq] at h; subst h; exact queue_set hi hwk
            | some r' => simp only [hr, Option.some.injEq] at h; subst h; exact queue_set hi hwk
      | write1 w b => simp only [Option.some.injEq] at h; subst h; exact queue_set hi hwk
      | write2 w => simp only [Option.some.injEq] at h; subst h; exact queue_set hi hwk
      | exited => simp at h

theorem queue_bound {me : MEnv} (cs : List Choice) {st st' : MState} (hi : ∀ wk ∈ st.workers, wk.queue.length ≤ 100) (h : MState.exec me cs st = some st') :
    ∀ wk ∈ st'.workers, wk.queue.length ≤ 100 := by
  induction cs generalizing st with
  | nil => simp only [MState.exec] at h; injection h with h; subst h; exact hi
  | cons c cs ih =>
    simp only [MState.exec] at h
    obtain ⟨st1, h1, h2⟩ := Option.bind_eq_some_iff.1 h
    exact ih (queue_step hi c h1) h2

/-! ## Growing traces -/

theorem steps_prefix {env : Env} {s t : Saver} (h : Steps env s t) : s.trace <+: t.trace := by
  refine h.inv (P := fun u => s.trace <+: u.trace) ?_ (List.prefix_refl _)
  have snoc : ∀ (u : Saver) (x : Action), s.trace <+: u.trace → s.trace <+: (u.emit x).trace :=
    fun u x hu => hu.trans (List.prefix_append _ _)
  intro u v hst hi
  cases hst with
  | other h1 h2 h3 h4 h5 => rw [h3]; exact hi
  | clock => exact hi
  | observe a ha => exact snoc _ _ hi
  | create k idm ts hn hk0 hk => exact snoc _ _ hi
  | closeExpired k c w hk hw hexp => exact snoc _ _ hi
  | touch k c hk => exact hi
  | rotate k c dir hk hw hd0 hd1 => exact snoc _ _ hi
  | write k c w msg idm hk hw hp hck hexp => exact snoc _ _ hi
  | endClose k c w hk hw => exact snoc _ _ (snoc _ _ hi)
  | endGone k hg => exact snoc _ _ hi

theorem close_steps {env : Env} {s s' : Saver} (h : s.close env = some s') : ∃ s1, s' = s1.emit .closeChans ∧ Steps env s s1 := by
  unfold Saver.close at h
  obtain ⟨s1, h1, rfl⟩ := Option.map_eq_some_iff.1 h
  refine ⟨s1, rfl, ?_⟩
  refine Steps.trans ?_ (steps_endAll env _ _ _ h1)
  exact .single (.other rfl rfl rfl rfl (by simp))

theorem close_prefix {env : Env} {s s' : Saver} (h : s.close env = some s') : s.trace <+: s'.trace ∧ s.trace.length < s'.trace.length := by
  obtain ⟨s1, rfl, hs⟩ := close_steps h
  have := steps_prefix hs
  refine ⟨this.trans (List.prefix_append _ _), ?_⟩
  have := this.length_le
  simp [Saver.emit]; omega

theorem newActions_append {s s' : Saver} (h : s.trace <+: s'.trace) : program s' = program s ++ newActions s s' := by
  obtain ⟨t, ht⟩ := h
  unfold program newActions
  rw [← ht]; simp

theorem newActions_length (s s' : Saver) : (newActions s s').length = s'.trace.length - s.trace.length := by simp [newActions]

theorem loop_append (env : Env) (a b : List MessageBlock) (l : LoopState) :
    LoopState.blocks env (a ++ b) l = (LoopState.blocks env a l).bind (LoopState.blocks env b) := by
  induction a generalizing l with
  | nil => rfl
  | cons x a ih =>
    simp only [List.cons_append, LoopState.blocks]
    cases l.block env x with
    | none => rfl
    | some l1 => exact ih l1

/-! ## The process -/

/-- What holds in every reachable state of the process. -/
structure PInv (me : MEnv) (env : Env) (bs : List MessageBlock) (p : Proc) : Prop where
  chan : p.chan.length ≤ 2
  open_ : p.chanClosed = true ↔ p.pc ≠ .collecting
  polls : p.chanClosed = true → p.polls = []
  ended : p.ended = true → p.chan = [] ∧ p.chanClosed = true
  back : p.pc = .returned → p.m.wg = 0 ∧ p.m.crashed = false
  seen : p.m.crashed = false → ∃ seen l, bs = seen ++ p.chan ++ p.polls ∧ runBlocks env seen = some l
    ∧ (p.ended = false → p.loop = l) ∧ (p.ended = true → l.svr.close env = some p.loop.svr)
  sim : p.m.crashed = false → ∃ cs, MState.exec me cs (mInit (program p.loop.svr) env.marshallers) = some p.m

theorem pinv_init (me : MEnv) (env : Env) (bs : List MessageBlock) : PInv me env bs (procInit bs env.marshallers) where
  chan := by simp [procInit]
  open_ := by simp [procInit]
  polls := by simp [procInit]
  ended := by simp [procInit]
  back := by simp [procInit]
  seen := fun _ => ⟨[], newLoop, rfl, rfl, fun _ => rfl, by simp [procInit]⟩
  sim := fun _ => ⟨[], rfl⟩

theorem mstep_live {me : MEnv} {st st' : MState} {c : Choice} (h : st.step me c = some st') : st.crashed = false := by
  unfold MState.step at h
  split at h
  · simp at h
  · rename_i hc; simpa using hc

theorem sim_snoc {me : MEnv} {prog : List Action} {n : Nat} {st st' : MState} (c : Choice) (h : ∃ cs, MState.exec me cs (mInit prog n) = some st)
    (hs : st.step me c = some st') : ∃ cs, MState.exec me cs (mInit prog n) = some st' := by
  obtain ⟨cs, h⟩ := h
  exact ⟨cs ++ [c], mexec_snoc me cs c _ _ _ h hs⟩

theorem pinv_step {me : MEnv} {env : Env} {bs : List MessageBlock} {p p' : Proc} (hi : PInv me env bs p) (c : PChoice) (h : p.step me env c = some p') :
    PInv me env bs p' := by
  unfold Proc.step at h
  split at h
  · simp at h
  rename_i hlive
  have hlive : p.m.crashed = false ∧ p.pc ≠ .returned := by
    constructor
    · cases hc : p.m.crashed with
      | false => rfl
      | true => exact absurd (Or.inl hc) hlive
    · exact fun hr => hlive (Or.inr hr)
  have mmove : ∀ (m' : MState) (c' : Choice), p.m.step me c' = some m' → PInv me env bs { p with m := m' } := by
    intro m' c' hs
    exact ⟨hi.chan, hi.open_, hi.polls, hi.ended, fun hr => absurd hr hlive.2, fun _ => hi.seen hlive.1, fun _ => sim_snoc c' (hi.sim hlive.1) hs⟩
  cases c with
  | worker i =>
    simp only at h
    obtain ⟨m', hm, rfl⟩ := Option.map_eq_some_iff.1 h
    exact mmove m' (.worker i) (by unfold MState.step; rw [hlive.1]; exact hm)
  | main =>
    simp only at h
    unfold Proc.mainStep at h
    cases hpc : p.pc with
    | collecting =>
      simp only [hpc] at h
      have hcc : p.chanClosed = false := by
        cases hc : p.chanClosed with
        | false => rfl
        | true => exact absurd hpc (hi.open_.1 hc)
      have hne : p.ended = false := by
        cases he : p.ended with
        | false => rfl
        | true => rw [(hi.ended he).2] at hcc; simp at hcc
      obtain ⟨seen, l, h1, h2, h3, h4⟩ := hi.seen hlive.1
      cases hp : p.polls with
      | nil =>
        simp only [hp, Option.some.injEq] at h; subst h
        exact ⟨hi.chan, by simp, fun _ => rfl, fun he => by simp [hne] at he, by simp, fun _ => ⟨seen, l, by rw [h1, hp], h2, h3, h4⟩, hi.sim⟩
      | cons b rest =>
        simp only [hp] at h
        split at h
        · simp only [Option.some.injEq] at h; subst h
          refine ⟨by simp; omega, by simp [hcc], fun hc => by simp [hcc] at hc, fun he => by simp [hne] at he, by simp,
            fun _ => ⟨seen, l, by rw [h1, hp]; simp, h2, h3, h4⟩, hi.sim⟩
        · simp at h
    | waiting =>
      simp only [hpc] at h
      split at h
      · rename_i hw
        simp only [Option.some.injEq] at h; subst h
        refine ⟨hi.chan, ?_, hi.polls, hi.ended, fun _ => ⟨hw, hlive.1⟩, hi.seen, hi.sim⟩
        have := hi.open_.2 (by rw [hpc]; simp)
        simp [this]
      · simp at h
    | returned => exact absurd hpc hlive.2
  | saver =>
    simp only at h
    unfold Proc.saverStep at h
    cases hr : p.m.rem with
    | cons a rem =>
      simp only [hr] at h
      obtain ⟨m', hm, rfl⟩ := Option.map_eq_some_iff.1 h
      exact mmove m' .saver (by unfold MState.step; rw [hlive.1]; exact hm)
    | nil =>
      simp only [hr] at h
      split at h
      · simp at h
      rename_i hne
      have hne : p.ended = false := by simpa using hne
      obtain ⟨seen, l, h1, h2, h3, -⟩ := hi.seen hlive.1
      obtain ⟨cs, hcs⟩ := hi.sim hlive.1
      have hl := h3 hne
      have grow : ∀ s', p.loop.svr.trace <+: s'.trace →
          MState.exec me cs (mInit (program s') env.marshallers) = some { p.m with rem := newActions p.loop.svr s' } := by
        intro s' hpre
        rw [newActions_append hpre, ← mInit_more, exec_more me cs _ _ _ hcs]
        unfold MState.more
        rw [hr]; rfl
      cases hch : p.chan with
      | cons b rest =>
        simp only [hch] at h
        have hlen := hi.chan
        rw [hch, List.length_cons] at hlen
        cases hb : p.loop.block env b with
        | none =>
          simp only [hb, Option.some.injEq] at h; subst h
          exact ⟨by simp only; omega, hi.open_, hi.polls, fun he => by simp [hne] at he, fun hp => absurd hp hlive.2, by simp, by simp⟩
        | some l' =>
          simp only [hb, Option.some.injEq] at h; subst h
          refine ⟨by simp only; omega, hi.open_, hi.polls, fun he => by simp [hne] at he, fun hp => absurd hp hlive.2, fun _ => ?_, fun _ => ?_⟩
          · refine ⟨seen ++ [b], l', by rw [h1, hch]; simp, ?_, fun _ => rfl, fun he => by simp [hne] at he⟩
            unfold runBlocks at h2 ⊢
            rw [loop_append, h2]
            simp only [Option.bind_some, LoopState.blocks]
            rw [← hl, hb]; rfl
          · exact ⟨cs, grow l'.svr (steps_prefix (steps_block env _ b l' hb))⟩
      | nil =>
        simp only [hch] at h
        split at h
        · rename_i hcc
          cases hb : p.loop.svr.close env with
          | none =>
            simp only [hb, Option.some.injEq] at h; subst h
            exact ⟨by simp, hi.open_, hi.polls, fun _ => ⟨rfl, hcc⟩, fun hp => absurd hp hlive.2, by simp, by simp⟩
          | some s' =>
            simp only [hb, Option.some.injEq] at h; subst h
            refine ⟨by simp, hi.open_, hi.polls, fun _ => ⟨rfl, hcc⟩, fun hp => absurd hp hlive.2, fun _ => ?_, fun _ => ?_⟩
            · exact ⟨seen, l, by rw [h1, hch], h2, by simp, fun _ => by rw [← hl]; exact hb⟩
            · exact ⟨cs, grow s' (close_prefix hb).1⟩
        · simp at h

theorem pinv_exec {me : MEnv} {env : Env} {bs : List MessageBlock} (cs : List PChoice) {p p' : Proc} (hi : PInv me env bs p)
    (h : Proc.exec me env cs p = some p') : PInv me env bs p' := by
  induction cs generalizing p with
  | nil => simp only [Proc.exec] at h; injection h with h; subst h; exact hi
  | cons c cs ih =>
    simp only [Proc.exec] at h
    obtain ⟨p1, h1, h2⟩ := Option.bind_eq_some_iff.1 h
    exact ih (pinv_step hi c h1) h2

/-- State of the process after schedule `cs` when the collector submits the blocks `bs`. -/
def runProc (me : MEnv) (env : Env) (bs : List MessageBlock) (cs : List PChoice) : Option Proc :=
  Proc.exec me env cs (procInit bs env.marshallers)

theorem runProc_inv {me : MEnv} {env : Env} {bs : List MessageBlock} {cs : List PChoice} {p : Proc} (h : runProc me env bs cs = some p) :
    PInv me env bs p := pinv_exec cs (pinv_init me env bs) h

/-- If the whole input can be processed, the saver's trace so far is a prefix of the complete one. -/
theorem loop_prefix {me : MEnv} {env : Env} {bs : List MessageBlock} {p : Proc} (hi : PInv me env bs p) {s : Saver} (h : runSaver env bs = some s)
    (hc : p.m.crashed = false) :
    p.loop.svr.trace <+: s.trace ∧ (p.ended = true → p.loop.svr = s) ∧ (p.ended = false → p.loop.svr.trace.length < s.trace.length) := by
  obtain ⟨seen, l, h1, h2, h3, h4⟩ := hi.seen hc
  obtain ⟨lf, hf, hcl⟩ := Option.bind_eq_some_iff.1 h
  have hrest : LoopState.blocks env (p.chan ++ p.polls) l = some lf := by
    unfold runBlocks at hf h2
    rw [h1, List.append_assoc, loop_append, h2] at hf
    exact hf
  have g1 := steps_prefix (steps_blocks env _ _ _ hrest)
  have g2 := close_prefix hcl
  cases he : p.ended with
  | false =>
    rw [h3 he]
    exact ⟨g1.trans g2.1, by simp, fun _ => Nat.lt_of_le_of_lt g1.length_le g2.2⟩
  | true =>
    obtain ⟨e1, e2⟩ := hi.ended he
    rw [e1, hi.polls e2] at hrest
    simp only [List.append_nil, LoopState.blocks, Option.some.injEq] at hrest
    have := h4 he
    rw [hrest, hcl] at this
    injection this with this
    rw [this]
    exact ⟨List.prefix_refl _, fun _ => rfl, by simp⟩

/-- The state of the marshallers, with all remaining work of the saver. -/
theorem sim_full {me : MEnv} {env : Env} {bs : List MessageBlock} {p : Proc} (hi : PInv me env bs p) {s : Saver} (h : runSaver env bs = some s)
    (hc : p.m.crashed = false) : ∃ cs, runProcess me env s cs = some (p.m.more (newActions p.loop.svr s)) := by
  obtain ⟨cs, hcs⟩ := hi.sim hc
  refine ⟨cs, ?_⟩
  unfold runProcess
  rw [newActions_append (loop_prefix hi h hc).1, ← mInit_more]
  exact exec_more me cs _ _ _ hcs

def MainPC.left : MainPC → Nat
  | .collecting => 2
  | .waiting => 1
  | .returned => 0

/-- Decreases with every step. -/
def pcost (total : Nat) (p : Proc) : Nat :=
  cost p.m + 6 * (total - p.loop.svr.trace.length) + 2 * p.polls.length + p.chan.length + p.pc.left + (if p.ended then 0 else 1)

/-- A process whose input can be processed does not crash. -/
theorem pstep_ok {me : MEnv} {env : Env} {bs : List MessageBlock} {p p' : Proc} (hi : PInv me env bs p) {s : Saver} (h : runSaver env bs = some s)
    (hm : 0 < env.marshallers) (hm' : env.marshallers < 2 ^ 64) (c : PChoice) (hs : p.step me env c = some p') :
    p'.m.crashed = false ∧ pcost s.trace.length p' < pcost s.trace.length p := by
  have hi' := pinv_step hi c hs
  unfold Proc.step at hs
  split at hs
  · simp at hs
  rename_i hlive
  have hlive : p.m.crashed = false ∧ p.pc ≠ .returned := by
    constructor
    · cases hc : p.m.crashed with
      | false => rfl
      | true => exact absurd (Or.inl hc) hlive
    · exact fun hr => hlive (Or.inr hr)
  have hle := (loop_prefix hi h hlive.1).1.length_le
  have mmove : ∀ (m' : MState) (c' : Choice), p.m.step me c' = some m' → m'.crashed = false ∧ cost m' < cost p.m := by
    intro m' c' hst
    refine ⟨?_, cost_step me _ _ c' hst⟩
    obtain ⟨cs, hcs⟩ := sim_full hi h hlive.1
    have := mexec_snoc me cs c' _ _ _ hcs (step_more me _ _ c' (newActions p.loop.svr s) hst)
    obtain ⟨done, hinv⟩ := process_inv me env bs s h hm hm' _ _ this
    exact hinv.crash
  cases c with
  | worker i =>
    simp only at hs
    obtain ⟨m', hm, rfl⟩ := Option.map_eq_some_iff.1 hs
    obtain ⟨a, b⟩ := mmove m' (.worker i) (by unfold MState.step; rw [hlive.1]; exact hm)
    refine ⟨a, ?_⟩
    unfold pcost; simp only; omega
  | main =>
    simp only at hs
    unfold Proc.mainStep at hs
    cases hpc : p.pc with
    | collecting =>
      simp only [hpc] at hs
      cases hp : p.polls with
      | nil =>
        simp only [hp, Option.some.injEq] at hs; subst hs
        refine ⟨hlive.1, ?_⟩
        unfold pcost; simp [hpc, hp, MainPC.left]
      | cons b rest =>
        simp only [hp] at hs
        split at hs
        · simp only [Option.some.injEq] at hs; subst hs
          refine ⟨hlive.1, ?_⟩
          unfold pcost; simp [hpc, hp, MainPC.left]; omega
        · simp at hs
    | waiting =>
      simp only [hpc] at hs
      split at hs
      · simp only [Option.some.injEq] at hs; subst hs
        refine ⟨hlive.1, ?_⟩
        unfold pcost; simp [hpc, MainPC.left]
      · simp at hs
    | returned => exact absurd hpc hlive.2
  | saver =>
    simp only at hs
    unfold Proc.saverStep at hs
    cases hr : p.m.rem with
    | cons a rem =>
      simp only [hr] at hs
      obtain ⟨m', hm, rfl⟩ := Option.map_eq_some_iff.1 hs
      obtain ⟨a, b⟩ := mmove m' .saver (by unfold MState.step; rw [hlive.1]; exact hm)
      refine ⟨a, ?_⟩
      unfold pcost; simp only; omega
    | nil =>
      simp only [hr] at hs
      split at hs
      · simp at hs
      rename_i hne
      have hne : p.ended = false := by simpa using hne
      obtain ⟨seen, l, h1, h2, h3, -⟩ := hi.seen hlive.1
      have hl := h3 hne
      obtain ⟨lf, hf, hcl⟩ := Option.bind_eq_some_iff.1 h
      have hrest : LoopState.blocks env (p.chan ++ p.polls) p.loop = some lf := by
        unfold runBlocks at hf h2
        rw [h1, List.append_assoc, loop_append, h2] at hf
        rw [hl]; exact hf
      cases hch : p.chan with
      | cons b rest =>
        simp only [hch] at hs
        rw [hch, List.cons_append, LoopState.blocks] at hrest
        cases hb : p.loop.block env b with
        | none => rw [hb] at hrest; simp at hrest
        | some l' =>
          simp only [hb, Option.some.injEq] at hs; subst hs
          refine ⟨hlive.1, ?_⟩
          have g1 := (loop_prefix hi' h hlive.1).1.length_le
          have g2 := (steps_prefix (steps_block env _ b l' hb)).length_le
          simp only at g1
          unfold pcost cost
          simp only [newActions_length, hch, hr, List.length_cons, List.length_nil]
          omega
      | nil =>
        simp only [hch] at hs
        split at hs
        · rename_i hcc
          rw [hch, hi.polls hcc] at hrest
          simp only [List.append_nil, LoopState.blocks, Option.some.injEq] at hrest
          rw [← hrest] at hcl
          simp only [hcl, Option.some.injEq] at hs; subst hs
          refine ⟨hlive.1, ?_⟩
          have g2 := close_prefix hcl
          unfold pcost cost
          simp only [newActions_length, hch, hr, List.length_nil, hne, if_true, Bool.false_eq_true, if_false]
          omega
        · simp at hs

theorem pexec_ok {me : MEnv} {env : Env} {bs : List MessageBlock} {s : Saver} (h : runSaver env bs = some s) (hm : 0 < env.marshallers)
    (hm' : env.marshallers < 2 ^ 64) (cs : List PChoice) {p p' : Proc} (hi : PInv me env bs p) (hc : p.m.crashed = false)
    (hr : Proc.exec me env cs p = some p') : p'.m.crashed = false ∧ cs.length + pcost s.trace.length p' ≤ pcost s.trace.length p := by
  induction cs generalizing p with
  | nil => simp only [Proc.exec] at hr; injection hr with hr; subst hr; exact ⟨hc, by simp⟩
  | cons c cs ih =>
    simp only [Proc.exec] at hr
    obtain ⟨p1, h1, h2⟩ := Option.bind_eq_some_iff.1 hr
    obtain ⟨a, b⟩ := pstep_ok hi h hm hm' c h1
    obtain ⟨a', b'⟩ := ih (pinv_step hi c h1) a h2
    exact ⟨a', by simp only [List.length_cons]; omega⟩

/-- If no goroutine can move, `main` has returned. -/
theorem pstuck {me : MEnv} {env : Env} {bs : List MessageBlock} {p : Proc} (hi : PInv me env bs p) {s : Saver} (h : runSaver env bs = some s)
    (hm : 0 < env.marshallers) (hm' : env.marshallers < 2 ^ 64) (hc : p.m.crashed = false) (hn : ∀ c, p.step me env c = none) : p.pc = .returned := by
  apply Classical.byContradiction
  intro hpc
  have hstep : ∀ c : PChoice, (match c with | .main => p.mainStep | .saver => p.saverStep me env | .worker i => (p.m.workerStep me i).map (fun m => { p with m := m })) = none := by
    intro c
    have := hn c
    unfold Proc.step at this
    rw [if_neg (by simp [hc, hpc])] at this
    exact this
  have hmain := hstep .main
  have hsaver := hstep .saver
  have hw : ∀ i, p.m.workerStep me i = none := by
    intro i
    have := hstep (.worker i)
    simpa using this
  simp only at hmain hsaver
  obtain ⟨cs, hcs⟩ := sim_full hi h hc
  have hdone : (p.m.more (newActions p.loop.svr s)).saverStep me = none → (p.m.more (newActions p.loop.svr s)).rem = []
      ∧ (p.m.more (newActions p.loop.svr s)).wg = 0 := by
    intro hsv
    have := (C42_terminates me env bs s h hm hm' cs _ hcs).2 (by
      intro c
      unfold MState.step
      split
      · rfl
      · cases c with
        | saver => exact hsv
        | worker i => simp only; rw [workerStep_more, hw i]; rfl)
    exact ⟨this.1, this.2.2.2⟩
  cases hr : p.m.rem with
  | cons a rem =>
    have hsv : p.m.saverStep me = none := by
      unfold Proc.saverStep at hsaver
      rw [hr] at hsaver
      simpa using hsaver
    have : (p.m.more (newActions p.loop.svr s)).saverStep me = none := blocked_more me p.m a rem _ hr hsv
    have := (hdone this).1
    unfold MState.more at this
    rw [hr] at this
    simp at this
  | nil =>
    unfold Proc.saverStep at hsaver
    simp only [hr] at hsaver
    cases he : p.ended with
    | false =>
      simp only [he, Bool.false_eq_true, if_false] at hsaver
      cases hch : p.chan with
      | cons b rest =>
        simp only [hch] at hsaver
        split at hsaver <;> simp at hsaver
      | nil =>
        simp only [hch] at hsaver
        cases hcc : p.chanClosed with
        | true =>
          simp only [hcc, if_true] at hsaver
          split at hsaver <;> simp at hsaver
        | false =>
          have hcol : p.pc = .collecting := by
            apply Classical.byContradiction
            intro hx
            rw [hi.open_.2 hx] at hcc; simp at hcc
          unfold Proc.mainStep at hmain
          simp only [hcol, hch] at hmain
          split at hmain <;> simp at hmain
    | true =>
      have hs := (loop_prefix hi h hc).2.1 he
      have hnew : newActions p.loop.svr s = [] := by rw [hs]; simp [newActions]
      rw [hnew, more_nil] at hdone
      have hwg := (hdone (by unfold MState.saverStep; rw [hr])).2
      have hnc := hi.open_.1 (hi.ended he).2
      unfold Proc.mainStep at hmain
      cases hp : p.pc with
      | collecting => exact hnc hp
      | waiting => simp [hp, hwg] at hmain
      | returned => exact hpc hp

/-- When `main` has returned everything has been processed, whatever was assumed about the input. -/
theorem returned_all {me : MEnv} {env : Env} {bs : List MessageBlock} {p : Proc} (hi : PInv me env bs p) (hr : p.pc = .returned) :
    ∃ s cs, runSaver env bs = some s ∧ runProcess me env s cs = some p.m ∧ p.m.wg = 0 ∧ p.m.rem = [] ∧ p.chan = [] ∧ p.polls = [] ∧ p.loop.svr = s := by
  obtain ⟨hwg, hc⟩ := hi.back hr
  obtain ⟨seen, l, h1, h2, h3, h4⟩ := hi.seen hc
  obtain ⟨cs, hcs⟩ := hi.sim hc
  obtain ⟨lw, d, hd, hcl⟩ := loose_exec cs (loose_init _ _) hcs
  have hclosed : p.m.closed = true := by
    cases hx : p.m.closed with
    | true => rfl
    | false => rw [hx] at lw; simp at lw; omega
  have hmem := hcl hclosed
  have he : p.ended = true := by
    cases hx : p.ended with
    | true => rfl
    | false =>
      exfalso
      have hin : Action.closeChans ∈ program p.loop.svr := by rw [hd]; simp [hmem]
      obtain ⟨a, ha, hact⟩ := List.mem_map.1 hin
      rw [h3 hx] at ha
      exact noClose_run (steps_run env seen l h2) a ha hact
  obtain ⟨e1, e2⟩ := hi.ended he
  have e3 := hi.polls e2
  rw [e1, e3, List.append_nil, List.append_nil] at h1
  subst h1
  have hrun : runSaver env bs = some p.loop.svr := by unfold runSaver; rw [h2]; exact h4 he
  refine ⟨p.loop.svr, cs, hrun, hcs, hwg, ?_, e1, e3, rfl⟩
  obtain ⟨s1, hs1, hst⟩ := close_steps (h4 he)
  have hprog : program p.loop.svr = program s1 ++ [.closeChans] := by rw [hs1]; simp [program, Saver.emit]
  have hno : Action.closeChans ∉ program s1 := by
    intro hin
    obtain ⟨a, ha, hact⟩ := List.mem_map.1 hin
    exact noClose_run ((steps_run env bs l h2).trans hst) a ha hact
  rw [hprog] at hd
  obtain ⟨x, y, rfl⟩ := List.append_of_mem hmem
  apply Classical.byContradiction
  intro hne
  have hlast : p.m.rem = p.m.rem.dropLast ++ [p.m.rem.getLast hne] := (List.dropLast_concat_getLast hne).symm
  rw [hlast, ← List.append_assoc] at hd
  have := List.append_inj_left' hd rfl
  apply hno; rw [this]; simp

end TcpInfo
