import Verif.Model.Whole
import Verif.Lemmas.Process
import Verif.Props.EventSocket
/-!
# The process with its event server: projections and invariants
-/

namespace TcpInfo
open EventSocket (FlowEvent Reachable)

/-- More events to come. -/
def EventSocket.State.more (s : EventSocket.State) (F : List FlowEvent) : EventSocket.State := { s with todo := s.todo ++ F }

theorem evStep_more {senv : EventSocket.Env} {s s' : EventSocket.State} {c : EventSocket.Choice} (F : List FlowEvent) (h : s.step senv c = some s') :
    (s.more F).step senv c = some (s'.more F) := by
  obtain ⟨td, em, q, cl, cr, ca, npc, spc, cls, rmv, dist, kn, reg, fa, del⟩ := s
  unfold EventSocket.State.step EventSocket.State.more at *
  simp only at h ⊢
  cases cr with
  | true => simp at h
  | false =>
    simp only [Bool.false_eq_true, if_false] at h ⊢
    cases c with
    | produce =>
      simp only [EventSocket.State.produce] at h ⊢
      cases td with
      | nil => simp at h
      | cons e td =>
        simp only [List.cons_append] at h ⊢
        cases cl with
        | true => simp only [if_true, Option.some.injEq] at h ⊢; subst h; rfl
        | false =>
          simp only [Bool.false_eq_true, if_false] at h ⊢
          split at h
          · rename_i hl; rw [if_pos hl]; simp only [Option.some.injEq] at h ⊢; subst h; rfl
          · simp at h
    | notify =>
      simp only [EventSocket.State.notify] at h ⊢
      cases npc with
      | check => simp only [Option.some.injEq] at h ⊢; subst h; rfl
      | recv =>
        simp only at h ⊢
        cases q with
        | cons e q => simp only [Option.some.injEq] at h ⊢; subst h; rfl
        | nil =>
          cases cl with
          | true => simp only [if_true, Option.some.injEq] at h ⊢; subst h; rfl
          | false => simp at h
      | got e =>
        simp only at h ⊢
        cases hm : senv.marshal e with
        | none => simp only [hm, Option.some.injEq] at h ⊢; subst h; rfl
        | some b => simp only [hm, Option.some.injEq] at h ⊢; subst h; rfl
      | send b r =>
        cases r with
        | nil => simp only [Option.some.injEq] at h ⊢; subst h; rfl
        | cons c r => simp at h
      | exited => simp at h
    | cancel =>
      simp only at h ⊢; split at h
      · simp at h
      · rename_i hc; rw [if_neg hc]; simp only [Option.some.injEq] at h ⊢; subst h; rfl
    | cleanup =>
      simp only at h ⊢; split at h
      · rename_i hc; rw [if_pos hc]; simp only [Option.some.injEq] at h ⊢; subst h; rfl
      · simp at h
    | accept c =>
      simp only at h ⊢; split at h
      · rename_i hc; rw [if_pos hc]; simp only [Option.some.injEq] at h ⊢; subst h; rfl
      · simp at h
    | serve =>
      simp only [EventSocket.State.locked] at h ⊢
      cases spc with
      | accept =>
        simp only at h ⊢; split at h
        · rename_i hc; rw [if_pos hc]; simp only [Option.some.injEq] at h ⊢; subst h; rfl
        · simp at h
      | adding c =>
        cases npc with
        | send b r => simp at h
        | _ => simp only [Bool.false_eq_true, if_false, Option.some.injEq] at h ⊢; subst h; rfl
      | exited => simp at h
    | remove c =>
      simp only [EventSocket.State.locked] at h ⊢
      cases npc with
      | send b r => simp at h
      | _ =>
        simp only at h ⊢
        simp only [and_true] at h ⊢
        by_cases hc : c ∈ rmv
        · rw [if_pos hc] at h ⊢; simp only [Option.some.injEq] at h ⊢; subst h; rfl
        · rw [if_neg hc] at h; simp at h
    | write c =>
      cases npc with
      | send b r =>
        simp only at h ⊢; split at h
        · rename_i hc; rw [if_pos hc]; simp only [Option.some.injEq] at h ⊢; subst h; rfl
        · simp at h
      | _ => simp at h
    | fail c k =>
      cases npc with
      | send b r =>
        simp only at h ⊢
        split at h
        · rename_i hc
          rw [if_pos hc]
          cases hf : fa c with
          | some j => simp only [hf, Option.some.injEq] at h ⊢; subst h; rfl
          | none =>
            simp only [hf] at h ⊢
            split at h
            · rename_i hl; rw [if_pos hl]; simp only [Option.some.injEq] at h ⊢; subst h; rfl
            · simp at h
        · simp at h
      | _ => simp at h

theorem evExec_more {senv : EventSocket.Env} (F : List FlowEvent) : ∀ (cs : List EventSocket.Choice) {s s' : EventSocket.State}, s.exec senv cs = some s' →
    (s.more F).exec senv cs = some (s'.more F)
  | [], s, s', h => by simp only [EventSocket.State.exec, Option.some.injEq] at h ⊢; subst h; rfl
  | c :: cs, s, s', h => by
    simp only [EventSocket.State.exec] at h ⊢
    obtain ⟨s1, h1, h2⟩ := Option.bind_eq_some_iff.1 h
    rw [evStep_more F h1]
    exact evExec_more F cs h2

/-- A state reached when the saver emits `es` is reached with more to come. -/
theorem reachable_more {senv : EventSocket.Env} {es : List FlowEvent} {s : EventSocket.State} (h : Reachable senv es s) (F : List FlowEvent) :
    Reachable senv (es ++ F) (s.more F) := by
  obtain ⟨cs, h⟩ := h
  exact ⟨cs, evExec_more F cs h⟩

theorem reachable_step {senv : EventSocket.Env} {es : List FlowEvent} {s s' : EventSocket.State} {c : EventSocket.Choice} (h : Reachable senv es s)
    (hs : s.step senv c = some s') : Reachable senv es s' := by
  obtain ⟨cs, h⟩ := h
  exact ⟨cs ++ [c], exec_snoc cs h hs⟩

theorem evStep_frame {senv : EventSocket.Env} {s s' : EventSocket.State} {c : EventSocket.Choice} (hc : c ≠ .produce) (h : s.step senv c = some s') :
    s'.todo = s.todo ∧ s'.emitted = s.emitted ∧ s'.crashed = s.crashed ∧ (c ≠ .cancel → s'.cancelled = s.cancelled) := by
  unfold EventSocket.State.step EventSocket.State.notify at h
  cases c <;> grind

theorem produce_one {senv : EventSocket.Env} {s s' : EventSocket.State} {e : FlowEvent} (hcl : s.closed = false)
    (h : EventSocket.State.step senv .produce { s with todo := [e] } = some s') :
    s' = { s with todo := [], emitted := s.emitted ++ [e], queue := s.queue ++ [e] } ∧ s.crashed = false ∧ s.queue.length < EventSocket.chanCap := by
  unfold EventSocket.State.step EventSocket.State.produce at h
  simp only [hcl, Bool.false_eq_true, if_false] at h
  split at h
  · simp at h
  · rename_i hcr
    split at h
    · rename_i hl
      injection h with h
      exact ⟨by rw [← h, ← hcl], by simpa using hcr, hl⟩
    · simp at h

/-! ## The saver's actions and the events -/

/-- The events of a list of actions. -/
def actionEvents (as : List Action) : List FlowEvent := as.filterMap eventOfAction

theorem saverEvents_actions (tr : List Stamped) : saverEvents tr = actionEvents (tr.map (·.act)) := by
  unfold saverEvents actionEvents
  rw [List.filterMap_map]
  congr 1

/-- What one step does to the saver's remaining actions. -/
theorem proc_rem {me : MEnv} {env : Env} {p p' : Proc} (c : PChoice) (h : p.step me env c = some p')
    (hc : p'.m.crashed = false) :
    (p'.loop = p.loop ∧ p'.m.rem = p.m.rem ∧ c ≠ .saver) ∨ (c = .saver ∧ ∃ a, p.m.rem = a :: p'.m.rem ∧ p'.loop = p.loop)
      ∨ (c = .saver ∧ p.m.rem = [] ∧ program p'.loop.svr = program p.loop.svr ++ p'.m.rem) := by
  unfold Proc.step at h
  split at h
  · simp at h
  cases c with
  | main =>
    left
    simp only at h
    unfold Proc.mainStep at h
    split at h
    · split at h
      · split at h
        · injection h with h; subst h; exact ⟨rfl, rfl, by simp⟩
        · simp at h
      · injection h with h; subst h; exact ⟨rfl, rfl, by simp⟩
    · split at h
      · injection h with h; subst h; exact ⟨rfl, rfl, by simp⟩
      · simp at h
    · simp at h
  | worker i =>
    left
    simp only at h
    obtain ⟨m, hm, e⟩ := Option.map_eq_some_iff.1 h
    subst e
    refine ⟨rfl, ?_, by simp⟩
    simp only
    unfold MState.workerStep MState.op at hm
    grind
  | saver =>
    right
    simp only at h
    unfold Proc.saverStep at h
    split at h
    · rename_i a rem hr
      left
      obtain ⟨m, hm, e⟩ := Option.map_eq_some_iff.1 h
      subst e
      refine ⟨rfl, a, ?_, rfl⟩
      simp only at hc ⊢
      unfold MState.saverStep MState.op at hm
      rw [hr] at hm ⊢
      cases a <;> grind
    · rename_i hr
      right
      refine ⟨rfl, hr, ?_⟩
      split at h
      · simp at h
      · split at h
        · rename_i b rest hch
          split at h
          · injection h with h; subst h; simp at hc
          · rename_i l hl
            injection h with h; subst h
            simp only
            exact newActions_append (steps_prefix (steps_blocks env [b] p.loop l (by simp [LoopState.blocks, hl])))
        · split at h
          · split at h
            · injection h with h; subst h; simp at hc
            · rename_i s hs
              injection h with h; subst h
              exact newActions_append (close_prefix hs).1
          · simp at h

/-! ## The invariant -/

/-- What holds in every reachable state. -/
structure WInv (me : MEnv) (env : Env) (senv : EventSocket.Env) (bs : List MessageBlock) (w : Whole) : Prop where
  proc : ∃ cs, runProc me env bs cs = some w.proc
  srv : Reachable senv w.srv.emitted w.srv
  todo : w.srv.todo = []
  alive : w.srv.crashed = false
  cancelled : w.srv.cancelled = true → w.proc.pc = .returned
  events : w.proc.m.crashed = false → saverEvents w.proc.loop.svr.trace = w.srv.emitted ++ actionEvents w.proc.m.rem

theorem winv_init (me : MEnv) (env : Env) (senv : EventSocket.Env) (bs : List MessageBlock) : WInv me env senv bs (wholeInit bs env.marshallers) where
  proc := ⟨[], rfl⟩
  srv := ⟨[], rfl⟩
  todo := rfl
  alive := rfl
  cancelled := by simp [wholeInit, EventSocket.init]
  events := fun _ => rfl

theorem runProc_snoc {me : MEnv} {env : Env} {bs : List MessageBlock} {p p' : Proc} {c : PChoice} (h : ∃ cs, runProc me env bs cs = some p)
    (hs : p.step me env c = some p') : ∃ cs, runProc me env bs cs = some p' := by
  obtain ⟨cs, h⟩ := h
  refine ⟨cs ++ [c], ?_⟩
  have key : ∀ (cs : List PChoice) (p0 : Proc), Proc.exec me env cs p0 = some p → Proc.exec me env (cs ++ [c]) p0 = some p' := by
    intro cs
    induction cs with
    | nil => intro p0 h; simp only [Proc.exec, Option.some.injEq] at h; subst h; simp [Proc.exec, hs]
    | cons d cs ih =>
      intro p0 h
      simp only [Proc.exec, List.cons_append] at h ⊢
      obtain ⟨p1, h1, h2⟩ := Option.bind_eq_some_iff.1 h
      rw [h1]
      exact ih p1 h2
  exact key cs _ h

theorem winv_proc {me : MEnv} {env : Env} {senv : EventSocket.Env} {bs : List MessageBlock} {w : Whole} (hi : WInv me env senv bs w) {c : PChoice} {p : Proc}
    (hs : w.proc.step me env c = some p) (hne : c = .saver → w.proc.m.rem.head?.bind eventOfAction = none) (hlive : w.proc.m.crashed = false) :
    WInv me env senv bs { w with proc := p } := by
  obtain ⟨cs, hcs⟩ := hi.proc
  have hret : w.proc.pc ≠ .returned := by
    intro h; unfold Proc.step at hs; simp [h] at hs
  refine ⟨runProc_snoc hi.proc hs, hi.srv, hi.todo, hi.alive, fun h => absurd (hi.cancelled h) hret, ?_⟩
  intro hc
  rcases proc_rem c hs hc with ⟨h1, h2, -⟩ | ⟨h0, a, h1, h2⟩ | ⟨-, h1, h2⟩
  · simp only; rw [h1, h2]; exact hi.events hlive
  · simp only; rw [h2, hi.events hlive, h1]
    have := hne h0
    rw [h1] at this
    simp only [List.head?_cons, Option.bind_some] at this
    simp [actionEvents, this]
  · simp only
    have he := hi.events hlive
    rw [h1] at he
    simp only [saverEvents_actions] at he ⊢
    have e : p.loop.svr.trace.map (·.act) = w.proc.loop.svr.trace.map (·.act) ++ p.m.rem := h2
    rw [e]
    unfold actionEvents at he ⊢
    rw [List.filterMap_append, he]
    simp

theorem winv_srv {me : MEnv} {env : Env} {senv : EventSocket.Env} {bs : List MessageBlock} {w : Whole} (hi : WInv me env senv bs w) {c : EventSocket.Choice}
    {s : EventSocket.State} (hc : c ≠ .produce) (hs : w.srv.step senv c = some s) (hcan : c = .cancel → w.proc.pc = .returned) :
    WInv me env senv bs { w with srv := s } := by
  obtain ⟨h1, h2, h3, h4⟩ := evStep_frame hc hs
  refine ⟨hi.proc, ?_, ?_, ?_, ?_, ?_⟩
  · simp only; rw [h2]; exact reachable_step hi.srv hs
  · simp only; rw [h1]; exact hi.todo
  · simp only; rw [h3]; exact hi.alive
  · simp only
    intro h
    by_cases e : c = .cancel
    · exact hcan e
    · rw [h4 e] at h; exact hi.cancelled h
  · simp only; rw [h2]; exact hi.events

theorem winv_emit {me : MEnv} {env : Env} {senv : EventSocket.Env} {bs : List MessageBlock} {w w' : Whole} (hi : WInv me env senv bs w) {e : FlowEvent}
    (he : w.proc.m.rem.head?.bind eventOfAction = some e) (hlive : w.proc.m.crashed = false) (h : w.emit me env senv e = some w') :
    WInv me env senv bs w' ∧ ∃ p, w.proc.step me env .saver = some p ∧ w'.proc = p ∧ w.srv.queue.length < EventSocket.chanCap
      ∧ w'.srv = { w.srv with emitted := w.srv.emitted ++ [e], queue := w.srv.queue ++ [e] } := by
  obtain ⟨cs, hcs⟩ := hi.proc
  have hrem : ∃ a rest, w.proc.m.rem = a :: rest ∧ eventOfAction a = some e := by
    cases hr : w.proc.m.rem with
    | nil => rw [hr] at he; simp at he
    | cons a rest => rw [hr] at he; exact ⟨a, rest, rfl, by simpa using he⟩
  obtain ⟨a, rest, hr, ha⟩ := hrem
  have hret : w.proc.pc ≠ .returned := by
    intro hpc
    obtain ⟨_, _, _, _, _, h6, _⟩ := returned_all (runProc_inv hcs) hpc
    rw [h6] at hr; simp at hr
  have hcl : w.srv.closed = false := by
    cases hcl : w.srv.closed with
    | false => rfl
    | true => exact absurd (hi.cancelled ((EventSocket.inv_reachable hi.srv).closed hcl)) hret
  unfold Whole.emit at h
  cases hp : EventSocket.State.step senv .produce { w.srv with todo := [e] } with
  | none => rw [hp] at h; simp at h
  | some srv =>
    rw [hp] at h
    simp only at h
    obtain ⟨hsrv, hcr, hcap⟩ := produce_one hcl hp
    rw [if_neg (by rw [hsrv]; simp [hcr])] at h
    obtain ⟨p, hps, e'⟩ := Option.map_eq_some_iff.1 h
    subst e'
    have hreach : Reachable senv (w.srv.emitted ++ [e]) srv := by
      have h1 := reachable_more hi.srv [e]
      have h2 : w.srv.more [e] = { w.srv with todo := [e] } := by unfold EventSocket.State.more; rw [hi.todo]; rfl
      rw [h2] at h1
      exact reachable_step h1 hp
    refine ⟨⟨runProc_snoc hi.proc hps, ?_, ?_, ?_, ?_, ?_⟩, p, hps, rfl, hcap, ?_⟩
    · rw [hsrv] at hreach ⊢; exact hreach
    · rw [hsrv]
    · rw [hsrv]; exact hcr
    · rw [hsrv]; exact fun h => absurd (hi.cancelled h) hret
    · intro hc
      simp only
      rcases proc_rem .saver hps hc with ⟨-, -, h0⟩ | ⟨-, a', h1, h2⟩ | ⟨-, h1, -⟩
      · simp at h0
      · rw [h2, hi.events hlive, hsrv, hr]
        rw [hr] at h1
        injection h1 with h1 h3
        subst h1 h3
        simp [actionEvents, ha]
      · rw [hr] at h1; simp at h1
    · rw [hsrv]; simp only; congr 1; exact hi.todo.symm

theorem winv_step {me : MEnv} {env : Env} {senv : EventSocket.Env} {bs : List MessageBlock} {w w' : Whole} (hi : WInv me env senv bs w) (c : WChoice)
    (h : w.step me env senv c = some w') : WInv me env senv bs w' := by
  unfold Whole.step at h
  split at h
  · simp at h
  rename_i hlive
  have hlive : w.proc.m.crashed = false := by
    cases hc : w.proc.m.crashed with
    | false => rfl
    | true => simp [hc] at hlive
  split at h
  · split at h
    · rename_i e he
      exact (winv_emit hi he hlive h).1
    · rename_i he
      obtain ⟨p, hp, e⟩ := Option.map_eq_some_iff.1 h
      subst e
      exact winv_proc hi hp (fun _ => he) hlive
  · rename_i c hc
    obtain ⟨p, hp, e⟩ := Option.map_eq_some_iff.1 h
    subst e
    exact winv_proc hi hp (fun e => absurd e (by intro e; exact hc (by rw [e]))) hlive
  · simp at h
  · split at h
    · rename_i hr
      obtain ⟨s, hs, e⟩ := Option.map_eq_some_iff.1 h
      subst e
      exact winv_srv hi (by simp) hs (fun _ => hr)
    · simp at h
  · rename_i c h1 h2
    obtain ⟨s, hs, e⟩ := Option.map_eq_some_iff.1 h
    subst e
    exact winv_srv hi (by intro e; exact h1 (by rw [e])) hs (fun e => absurd e (by intro e; exact h2 (by rw [e])))

theorem winv_exec {me : MEnv} {env : Env} {senv : EventSocket.Env} {bs : List MessageBlock} (cs : List WChoice) {w w' : Whole} (hi : WInv me env senv bs w)
    (h : Whole.exec me env senv cs w = some w') : WInv me env senv bs w' := by
  induction cs generalizing w with
  | nil => simp only [Whole.exec, Option.some.injEq] at h; subst h; exact hi
  | cons c cs ih =>
    simp only [Whole.exec] at h
    obtain ⟨w1, h1, h2⟩ := Option.bind_eq_some_iff.1 h
    exact ih (winv_step hi c h1) h2

end TcpInfo

namespace TcpInfo
open EventSocket (FlowEvent Reachable)

/-- State after schedule `cs` when the collector submits the blocks `bs`. -/
def runWhole (me : MEnv) (env : Env) (senv : EventSocket.Env) (bs : List MessageBlock) (cs : List WChoice) : Option Whole :=
  Whole.exec me env senv cs (wholeInit bs env.marshallers)

theorem runWhole_inv {me : MEnv} {env : Env} {senv : EventSocket.Env} {bs : List MessageBlock} {cs : List WChoice} {w : Whole}
    (h : runWhole me env senv bs cs = some w) : WInv me env senv bs w := winv_exec cs (winv_init me env senv bs) h

theorem whole_append (me : MEnv) (env : Env) (senv : EventSocket.Env) (cs cs' : List WChoice) (w : Whole) :
    Whole.exec me env senv (cs ++ cs') w = (Whole.exec me env senv cs w).bind (Whole.exec me env senv cs') := by
  induction cs generalizing w with
  | nil => rfl
  | cons c cs ih =>
    simp only [List.cons_append, Whole.exec]
    cases w.step me env senv c with
    | none => rfl
    | some w1 => exact ih w1

/-- The server's view: what it has been given is the beginning of the events of the run. -/
theorem whole_reachable {me : MEnv} {env : Env} {senv : EventSocket.Env} {bs : List MessageBlock} {w : Whole} (hi : WInv me env senv bs w) {s : Saver}
    (h : runSaver env bs = some s) (hc : w.proc.m.crashed = false) :
    ∃ rest, saverEvents s.trace = w.srv.emitted ++ rest ∧ Reachable senv (saverEvents s.trace) (w.srv.more rest) := by
  obtain ⟨cs, hcs⟩ := hi.proc
  obtain ⟨⟨tl, htl⟩, -, -⟩ := loop_prefix (runProc_inv hcs) h hc
  have he : saverEvents s.trace = w.srv.emitted ++ (actionEvents w.proc.m.rem ++ saverEvents tl) := by
    rw [← htl, ← List.append_assoc, ← hi.events hc]
    unfold saverEvents
    rw [List.filterMap_append]
  exact ⟨_, he, by rw [he]; exact reachable_more hi.srv _⟩

/-! ## Draining the channel -/

theorem exited_cancelled {senv : EventSocket.Env} {es : List FlowEvent} {s : EventSocket.State} (h : Reachable senv es s) (hx : s.npc = .exited) :
    s.cancelled = true := by
  obtain ⟨cs, h⟩ := h
  have key : ∀ (cs : List EventSocket.Choice) (s0 s : EventSocket.State), (s0.npc = .exited → s0.cancelled = true) → s0.exec senv cs = some s →
      (s.npc = .exited → s.cancelled = true) := by
    intro cs
    induction cs with
    | nil => intro s0 s h0 h; simp only [EventSocket.State.exec, Option.some.injEq] at h; subst h; exact h0
    | cons c cs ih =>
      intro s0 s h0 h
      simp only [EventSocket.State.exec, Option.bind_eq_some_iff] at h
      obtain ⟨s1, h1, h2⟩ := h
      refine ih s1 s ?_ h2
      unfold EventSocket.State.step EventSocket.State.notify EventSocket.State.produce at h1
      cases c <;> grind
  exact key cs _ s (by simp [EventSocket.init]) h hx

/-- The choices of `notifyClients`. -/
def Notifying (ch : EventSocket.Choice) : Prop := ch = .notify ∨ ∃ c, ch = .write c ∨ ch = .fail c 0

/-- What draining does not touch. -/
structure Quiet (s s' : EventSocket.State) : Prop where
  todo : s'.todo = s.todo
  emitted : s'.emitted = s.emitted
  cancelled : s'.cancelled = s.cancelled
  crashed : s'.crashed = s.crashed

theorem finish_send (senv : EventSocket.Env) (hst : ∀ c, senv.stalled c = false) : ∀ (n : Nat) (s : EventSocket.State) (b : Bytes) (rem : List Nat),
    s.npc = .send b rem → rem.length = n → s.crashed = false →
    ∃ cs s', (∀ ch ∈ cs, Notifying ch) ∧ s.exec senv cs = some s' ∧ s'.npc = .check ∧ s'.queue = s.queue ∧ Quiet s s' := by
  intro n
  induction n with
  | zero =>
    intro s b rem hn hl hcr
    have : rem = [] := List.length_eq_zero_iff.1 hl
    subst this
    refine ⟨[.notify], { s with npc := .check }, by simp [Notifying], ?_, rfl, rfl, ⟨rfl, rfl, rfl, rfl⟩⟩
    simp [EventSocket.State.exec, EventSocket.State.step, EventSocket.State.notify, hcr, hn]
  | succ n ih =>
    intro s b rem hn hl hcr
    cases rem with
    | nil => simp at hl
    | cons c rem =>
      simp only [List.length_cons, Nat.add_right_cancel_iff] at hl
      have hstep : ∃ ch s1, Notifying ch ∧ s.step senv ch = some s1 ∧ s1.npc = .send b rem ∧ s1.queue = s.queue ∧ Quiet s s1 := by
        cases hf : s.failedAt c with
        | none =>
          exact ⟨.write c, { s with npc := .send b rem, delivered := EventSocket.upd s.delivered c (s.delivered c ++ EventSocket.line b) }, by simp [Notifying],
            by simp [EventSocket.State.step, hcr, hn, hf, hst c], rfl, rfl, ⟨rfl, rfl, rfl, rfl⟩⟩
        | some j =>
          exact ⟨.fail c 0, { s with npc := .send b rem, removing := s.removing ++ [c] }, by simp [Notifying],
            by simp [EventSocket.State.step, hcr, hn, hf], rfl, rfl, ⟨rfl, rfl, rfl, rfl⟩⟩
      obtain ⟨ch, s1, h1, h2, h3, h4, h5⟩ := hstep
      obtain ⟨cs, s', g1, g2, g3, g4, g5⟩ := ih s1 b rem h3 hl (by rw [h5.crashed]; exact hcr)
      refine ⟨ch :: cs, s', ?_, by simp [EventSocket.State.exec, h2, g2], g3, by rw [g4, h4],
        ⟨by rw [g5.todo, h5.todo], by rw [g5.emitted, h5.emitted], by rw [g5.cancelled, h5.cancelled], by rw [g5.crashed, h5.crashed]⟩⟩
      intro x hx
      rcases List.mem_cons.1 hx with rfl | hx
      · exact h1
      · exact g1 x hx

theorem Quiet.trans {a b c : EventSocket.State} (h : Quiet a b) (g : Quiet b c) : Quiet a c :=
  ⟨by rw [g.todo, h.todo], by rw [g.emitted, h.emitted], by rw [g.cancelled, h.cancelled], by rw [g.crashed, h.crashed]⟩

theorem evExec_append (senv : EventSocket.Env) : ∀ (cs cs' : List EventSocket.Choice) (s : EventSocket.State),
    s.exec senv (cs ++ cs') = (s.exec senv cs).bind (EventSocket.State.exec senv cs')
  | [], cs', s => rfl
  | c :: cs, cs', s => by
    simp only [List.cons_append, EventSocket.State.exec]
    cases s.step senv c with
    | none => rfl
    | some s1 => exact evExec_append senv cs cs' s1

theorem to_check (senv : EventSocket.Env) (hst : ∀ c, senv.stalled c = false) (s : EventSocket.State) (hcr : s.crashed = false) (hx : s.npc ≠ .exited)
    (hr : s.npc ≠ .recv) :
    ∃ cs s', (∀ ch ∈ cs, Notifying ch) ∧ s.exec senv cs = some s' ∧ s'.npc = .check ∧ s'.queue = s.queue ∧ Quiet s s' := by
  cases hn : s.npc with
  | exited => exact absurd hn hx
  | recv => exact absurd hn hr
  | check => exact ⟨[], s, by simp, rfl, hn, rfl, ⟨rfl, rfl, rfl, rfl⟩⟩
  | send b rem => exact finish_send senv hst _ s b rem hn rfl hcr
  | got e =>
    cases hm : senv.marshal e with
    | none =>
      exact ⟨[.notify], { s with npc := .check }, by simp [Notifying],
        by simp [EventSocket.State.exec, EventSocket.State.step, EventSocket.State.notify, hcr, hn, hm], rfl, rfl, ⟨rfl, rfl, rfl, rfl⟩⟩
    | some b =>
      obtain ⟨cs, s', g1, g2, g3, g4, g5⟩ := finish_send senv hst _ { s with npc := .send b s.clients, distributed := s.distributed ++ [e] } b s.clients rfl rfl hcr
      refine ⟨.notify :: cs, s', ?_, ?_, g3, g4, ⟨g5.todo, g5.emitted, g5.cancelled, g5.crashed⟩⟩
      · intro x hx
        rcases List.mem_cons.1 hx with rfl | hx
        · exact Or.inl rfl
        · exact g1 x hx
      · have h1 : s.step senv .notify = some { s with npc := .send b s.clients, distributed := s.distributed ++ [e] } := by
          unfold EventSocket.State.step EventSocket.State.notify
          rw [if_neg (by simp [hcr])]
          simp only [hn, hm]
        rw [EventSocket.State.exec, h1]
        exact g2

/-- Unless a client stalls, the server makes room in its channel. -/
theorem drain (senv : EventSocket.Env) (hst : ∀ c, senv.stalled c = false) (s : EventSocket.State) (hcr : s.crashed = false) (hca : s.cancelled = false)
    (hx : s.npc ≠ .exited) (hq : s.queue ≠ []) :
    ∃ cs s', (∀ ch ∈ cs, Notifying ch) ∧ s.exec senv cs = some s' ∧ s'.queue.length < s.queue.length ∧ Quiet s s' := by
  have recv : ∀ t : EventSocket.State, t.npc = .recv → t.crashed = false → t.queue ≠ [] →
      ∃ t', t.exec senv [.notify] = some t' ∧ t'.queue.length < t.queue.length ∧ Quiet t t' := by
    intro t ht hc hq
    cases hqq : t.queue with
    | nil => exact absurd hqq hq
    | cons e q =>
      exact ⟨{ t with npc := .got e, queue := q }, by simp [EventSocket.State.exec, EventSocket.State.step, EventSocket.State.notify, hc, ht, hqq], by simp,
        ⟨rfl, rfl, rfl, rfl⟩⟩
  by_cases hr : s.npc = .recv
  · obtain ⟨t', h1, h2, h3⟩ := recv s hr hcr hq
    exact ⟨_, t', by simp [Notifying], h1, h2, h3⟩
  · obtain ⟨cs, s', g1, g2, g3, g4, g5⟩ := to_check senv hst s hcr hx hr
    obtain ⟨t', h1, h2, h3⟩ := recv { s' with npc := .recv } rfl (by show s'.crashed = false; rw [g5.crashed]; exact hcr) (by show s'.queue ≠ []; rw [g4]; exact hq)
    refine ⟨cs ++ [.notify, .notify], t', ?_, ?_, ?_, g5.trans ⟨h3.todo, h3.emitted, h3.cancelled, h3.crashed⟩⟩
    · intro x hx
      rcases List.mem_append.1 hx with hx | hx
      · exact g1 x hx
      · simp at hx; exact Or.inl hx
    · rw [evExec_append, g2]
      have : s'.step senv .notify = some { s' with npc := .recv } := by
        simp [EventSocket.State.step, EventSocket.State.notify, g3, g5.crashed, hcr, g5.cancelled, hca]
      simp only [Option.bind_some, EventSocket.State.exec, this] at h1 ⊢
      exact h1
    · rw [← g4]; exact h2

/-- The server's steps are steps of the whole. -/
theorem lift_srv (me : MEnv) (env : Env) (senv : EventSocket.Env) : ∀ (cs : List EventSocket.Choice) (w : Whole) (s' : EventSocket.State),
    (∀ ch ∈ cs, Notifying ch) → w.proc.m.crashed = false → w.srv.exec senv cs = some s' →
    Whole.exec me env senv (cs.map .srv) w = some { w with srv := s' }
  | [], w, s', _, _, h => by simp only [EventSocket.State.exec, Option.some.injEq] at h; subst h; rfl
  | c :: cs, w, s', hn, hc, h => by
    simp only [EventSocket.State.exec] at h
    obtain ⟨s1, h1, h2⟩ := Option.bind_eq_some_iff.1 h
    have hcr : w.srv.crashed = false := by
      cases hx : w.srv.crashed with
      | false => rfl
      | true => simp [EventSocket.State.step, hx] at h1
    have hstep : w.step me env senv (.srv c) = some { w with srv := s1 } := by
      unfold Whole.step
      rw [if_neg (by simp [hcr, hc])]
      rcases hn c (by simp) with rfl | ⟨x, rfl | rfl⟩ <;> simp [h1]
    simp only [List.map_cons, Whole.exec, hstep, Option.bind_some]
    exact lift_srv me env senv cs { w with srv := s1 } s' (fun ch hch => hn ch (by simp [hch])) hc h2

end TcpInfo
