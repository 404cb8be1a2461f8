import Verif.Lemmas.Zstd
/-!
# C58, C59: the zstd writer
-/

namespace TcpInfo
open Zstd (Reachable ZState beforeClose)

/-- C58. In every schedule, when `Close` has returned nil the compressor process is over. -/
theorem C58_exited (cap : Nat) (ops : List Zstd.Op) (s : ZState) (h : Reachable cap ops s) (hc : .closed true ∈ s.rets) :
    ∃ ok, s.child = .exited ok := by
  have hi := Zstd.inv_reachable h
  have := (hi.wg).1 (hi.closed hc).1
  exact hi.run (by rw [this]; simp)

/-- C58. At any moment of any schedule, whatever fails, the compressor has been given a prefix of the data written before `Close`: nothing is reordered,
repeated or left out in the middle. -/
theorem C58_order (cap : Nat) (ops : List Zstd.Op) (s : ZState) (h : Reachable cap ops s) : s.consumed <+: beforeClose ops := by
  have hi := Zstd.inv_reachable h
  have h1 : s.consumed <+: s.accepted := by rw [← hi.pipe]; exact List.prefix_append _ _
  refine h1.trans ?_
  rcases hi.flow with hf | hf
  · rw [← hf, List.append_assoc]; exact List.prefix_append _ _
  · exact hf.2.2

/-- C58 (partial: the compressor was started and exits successfully; its failure is logged but not returned, `C58_violated`). In every schedule, when
`Close` has returned nil the file has the complete compressed form of exactly the data written before `Close`. -/
theorem C58_on_disk_partial (cap : Nat) (ops : List Zstd.Op) (s : ZState) (h : Reachable cap ops s) (hc : .closed true ∈ s.rets)
    (hok : s.child ≠ .exited false) : s.disk = some (beforeClose ops) := by
  obtain ⟨ok, he⟩ := C58_exited cap ops s h hc
  have hi := Zstd.inv_reachable h
  have ht : s.child = .exited true := by cases ok with | true => exact he | false => exact absurd he hok
  obtain ⟨hp, hw, hd⟩ := hi.ok ht
  have hpc : s.cur = [] := by
    unfold ZState.cur
    cases hpc : s.pc with
    | out => rfl
    | waiting => rfl
    | writing a r => have := hi.writing a r hpc; rw [hw] at this; simp at this
  rcases hi.flow with hf | hf
  · rw [hpc, hw] at hf
    have h1 := hi.pipe
    rw [hp, List.append_nil] at h1
    simp at hf
    rw [hd, h1, hf]
  · rw [hf.2.1] at ht; simp at ht

/-- C58. The calls cannot get stuck: while one is not finished, some step other than a failure of the compressor is possible. -/
theorem C58_no_deadlock (cap : Nat) (hcap : 0 < cap) (ops : List Zstd.Op) (s : ZState) (h : Reachable cap ops s) (hn : ¬ s.userDone) :
    ∃ c s', c ≠ .crash ∧ c ≠ .gor false ∧ s.step cap c = some s' := by
  have hi := Zstd.inv_reachable h
  obtain ⟨ops', pc, wO, rO, fO, pipe, child, gpc, wg, acc, con, disk, rets⟩ := s
  have hgor : gpc ≠ .finished → child ≠ .running → ∃ c s', c ≠ .crash ∧ c ≠ .gor false
      ∧ ZState.step cap c ⟨ops', pc, wO, rO, fO, pipe, child, gpc, wg, acc, con, disk, rets⟩ = some s' := by
    intro h1 h2
    refine ⟨.gor true, ?_⟩
    cases gpc with
    | run => cases child with
      | notStarted => simp [ZState.step, ZState.gorStep]
      | running => exact absurd rfl h2
      | exited ok => simp [ZState.step, ZState.gorStep]
    | closeR => simp [ZState.step, ZState.gorStep]
    | done => simp [ZState.step, ZState.gorStep]
    | finished => exact absurd rfl h1
  cases pc with
  | out =>
    cases ops' with
    | nil => simp [ZState.userDone] at hn
    | cons o ops' =>
      refine ⟨.user 0, ?_⟩
      cases o <;> cases wO <;> simp [ZState.step, ZState.userStep]
  | writing all rest =>
    by_cases hr : rest = []
    · subst hr; exact ⟨.user 0, by simp [ZState.step, ZState.userStep]⟩
    · have hlen : 0 < rest.length := List.length_pos_iff.2 hr
      by_cases hh : ZState.hasReader ⟨ops', .writing all rest, wO, rO, fO, pipe, child, gpc, wg, acc, con, disk, rets⟩ = true
      · by_cases hfull : pipe.length + 1 ≤ cap
        · refine ⟨.user 1, ?_⟩
          simp only [ZState.step, ZState.userStep, if_neg hr, hh]
          simp [hfull]; omega
        · by_cases hrun : child = .running
          · subst hrun
            refine ⟨.read 1, ?_⟩
            simp only [ZState.step]
            rw [if_pos ⟨trivial, by omega, by omega⟩]
            simp
          · apply hgor _ hrun
            intro hg
            have h3 := hi.rOpen
            simp [ZState.hasReader, hrun] at hh
            simp [hg, hh] at h3
      · refine ⟨.user 0, ?_⟩
        simp only [ZState.step, ZState.userStep, if_neg hr, hh]
        simp
  | waiting =>
    have hw := hi.waiting rfl
    simp only at hw
    subst hw
    cases wg with
    | true => exact ⟨.user 0, by simp [ZState.step, ZState.userStep]⟩
    | false =>
      by_cases hrun : child = .running
      · subst hrun
        by_cases hp : pipe = []
        · exact ⟨.finish, by simp [ZState.step, hp]⟩
        · refine ⟨.read 1, ?_⟩
          have : 0 < pipe.length := List.length_pos_iff.2 hp
          simp only [ZState.step]
          rw [if_pos ⟨trivial, by omega, by omega⟩]
          simp
      · apply hgor _ hrun
        intro hg
        have := hi.wg
        simp [hg] at this

/-- C58. And no schedule is infinite: the number of steps is bounded by the number of calls and bytes. So `Close` returns. -/
theorem C58_terminates (cap : Nat) (ops : List Zstd.Op) (s0 s : ZState) (cs : List Zstd.Choice) (h0 : Zstd.newWriter true true ops = .ok s0)
    (h : s0.exec cap cs = some s) : cs.length ≤ Zstd.opWork ops + 5 := by
  have key : ∀ (cs : List Zstd.Choice) (s0 s : ZState), s0.exec cap cs = some s → cs.length + s.work ≤ s0.work := by
    intro cs
    induction cs with
    | nil => intro s0 s h; simp [ZState.exec] at h; simp [h]
    | cons c cs ih =>
      intro s0 s h
      simp only [ZState.exec, Option.bind_eq_some_iff] at h
      obtain ⟨s1, h1, h2⟩ := h
      have := Zstd.work_step h1
      have := ih s1 s h2
      simp only [List.length_cons]; omega
  have hk := key cs s0 s h
  have : s0.work = Zstd.opWork ops + 5 := by
    simp only [Zstd.newWriter] at h0
    injection h0 with h0
    rw [← h0]; simp [ZState.work]
  omega

/-- A user that writes two pieces and closes. -/
def zOps : List Zstd.Op := [.write [1, 2, 3], .write [4], .close]

/-- Run a schedule from `NewWriter`. -/
def zRun (cap : Nat) (ops : List Zstd.Op) (cs : List Zstd.Choice) : Option ZState :=
  match Zstd.newWriter true true ops with
  | .ok s => s.exec cap cs
  | .err .. => none

theorem zRun_reachable {cap : Nat} {ops : List Zstd.Op} {cs : List Zstd.Choice} {s : ZState} (h : zRun cap ops cs = some s) : Reachable cap ops s := by
  unfold zRun at h
  cases hn : Zstd.newWriter true true ops with
  | ok s0 => rw [hn] at h; exact ⟨s0, cs, hn, h⟩
  | err a b c => rw [hn] at h; simp at h

/-- A schedule with a pipe of two bytes and a successful compressor. -/
def zGood : List Zstd.Choice :=
  [.user 0, .user 2, .gor true, .read 1, .user 1, .user 0, .read 2, .user 0, .user 1, .user 0, .user 0, .read 1, .finish, .gor true, .gor true, .gor true, .user 0]

example : (zRun 2 zOps zGood).map (fun s => (s.rets, s.child, s.disk))
    = some ([.wrote [1, 2, 3] true, .wrote [4] true, .closed true], .exited true, some [1, 2, 3, 4]) := by decide +kernel

/-- A schedule in which the compressor is killed after one byte. -/
def zBad : List Zstd.Choice :=
  [.user 0, .user 3, .gor true, .read 1, .crash, .user 0, .user 0, .user 1, .user 0, .user 0, .gor true, .gor true, .gor true, .user 0]

/-- C58 violated: the compressor dies, yet all calls succeed, `Close` included, and the data is lost. -/
theorem C58_violated : ∃ cap ops s, Reachable cap ops s ∧ s.rets = [.wrote [1, 2, 3] true, .wrote [4] true, .closed true] ∧ s.consumed = [1]
    ∧ s.disk = none := by
  have h : (zRun 100 zOps zBad).any (fun s => s.rets == [.wrote [1, 2, 3] true, .wrote [4] true, .closed true] && s.consumed == [1] && s.disk == none)
      = true := by decide +kernel
  cases hr : zRun 100 zOps zBad with
  | none => rw [hr] at h; simp at h
  | some s =>
    rw [hr] at h
    simp at h
    exact ⟨100, zOps, s, zRun_reachable hr, h.1.1, h.1.2, h.2⟩

/-- C58, exactly when it holds: when `Close` has returned nil, the file has the data written before, all of it, if the compressor exited successfully, and otherwise not. -/
theorem C58_exact (cap : Nat) (ops : List Zstd.Op) (s : ZState) (h : Reachable cap ops s) (hc : .closed true ∈ s.rets) :
    (s.child = .exited true ∧ s.disk = some (beforeClose ops)) ∨ (s.child = .exited false ∧ s.disk = none) := by
  obtain ⟨ok, he⟩ := C58_exited cap ops s h hc
  cases ok with
  | true => exact Or.inl ⟨he, C58_on_disk_partial cap ops s h hc (by rw [he]; simp)⟩
  | false =>
    refine Or.inr ⟨he, ?_⟩
    cases hd : s.disk with
    | none => rfl
    | some d => have := (Zstd.inv_reachable h).disk d hd; rw [he] at this; simp at this

/-- What the user is told. -/
structure Told (s : ZState) : Prop where
  waited : s.pc = .out → s.wOpen = false → .closed true ∈ s.rets
  first : s.rets.find? (fun r => match r with | .closed _ => true | _ => false) ≠ some (.closed false)
  errs : s.wOpen = true → ∀ b, .wrote b false ∈ s.rets → s.child = .exited false

theorem told_step {cap : Nat} {ops : List Zstd.Op} {s s' : ZState} {c : Zstd.Choice} (hi : Zstd.Inv ops s) (ht : Told s) (h : s.step cap c = some s') : Told s' := by
  obtain ⟨ops', pc, wO, rO, fO, pipe, child, gpc, wg, acc, con, disk, rets⟩ := s
  obtain ⟨h1, h2, h3⟩ := ht
  simp only at h1 h2 h3
  cases c with
  | user k =>
    simp only [ZState.step, ZState.userStep] at h
    cases pc with
    | out =>
      cases ops' with
      | nil => simp at h
      | cons o ops' =>
        cases o with
        | write b =>
          simp only at h
          split at h
          · simp only [Option.some.injEq] at h; subst h
            exact ⟨by simp, h2, h3⟩
          · rename_i hw
            simp only [Option.some.injEq] at h; subst h
            have hw : wO = false := by simpa using hw
            refine ⟨fun _ _ => List.mem_append_left _ (h1 rfl hw), ?_, by simp [hw]⟩
            simp only [List.find?_append, ne_eq]
            revert h2
            cases rets.find? _ <;> simp
        | close =>
          simp only at h
          split at h
          · simp only [Option.some.injEq] at h; subst h
            exact ⟨by simp, h2, by simp⟩
          · rename_i hw
            simp only [Option.some.injEq] at h; subst h
            have hw : wO = false := by simpa using hw
            have hm := h1 rfl hw
            refine ⟨fun _ _ => List.mem_append_left _ hm, ?_, by simp [hw]⟩
            simp only [List.find?_append, ne_eq]
            cases hf : rets.find? (fun r => match r with | .closed _ => true | _ => false) with
            | none => have := List.find?_eq_none.1 hf _ hm; simp at this
            | some r => rw [hf] at h2; simpa using h2
    | writing all rest =>
      have hwo := hi.writing all rest rfl
      simp only at hwo h
      split at h
      · simp only [Option.some.injEq] at h; subst h
        refine ⟨by simp [hwo], ?_, ?_⟩
        · simp only [List.find?_append, ne_eq]
          revert h2
          cases rets.find? _ <;> simp
        · intro hw b hb
          exact h3 hw b (by simpa using hb)
      · split at h
        · rename_i hr
          simp only [Option.some.injEq] at h; subst h
          refine ⟨by simp [hwo], ?_, ?_⟩
          · simp only [List.find?_append, ne_eq]
            revert h2
            cases rets.find? _ <;> simp
          · intro _ b _
            have hr2 : rO = false ∧ child ≠ .running := by simpa [ZState.hasReader] using hr
            have hg : gpc ≠ .run := by
              intro e
              have := hi.rOpen
              simp [e, hr2.1] at this
            obtain ⟨ok, hok⟩ := hi.run hg
            simp only at hok
            cases ok with
            | false => exact hok
            | true => have := (hi.ok hok).2.1; simp only at this; rw [hwo] at this; simp at this
        · split at h
          · simp only [Option.some.injEq] at h; subst h
            exact ⟨by simp, h2, h3⟩
          · simp at h
    | waiting =>
      have hwo := hi.waiting rfl
      simp only at hwo h
      split at h
      · simp only [Option.some.injEq] at h; subst h
        refine ⟨fun _ _ => by simp, ?_, by simp [hwo]⟩
        simp only [List.find?_append, ne_eq]
        revert h2
        cases rets.find? _ <;> simp
      · simp at h
  | gor ok =>
    simp only [ZState.step, ZState.gorStep] at h
    cases gpc with
    | run =>
      cases child with
      | notStarted =>
        simp only [Option.some.injEq] at h; subst h
        exact ⟨h1, h2, fun hw b hb => by have := h3 hw b hb; simp at this⟩
      | running => simp at h
      | exited o => simp only [Option.some.injEq] at h; subst h; exact ⟨h1, h2, h3⟩
    | closeR => simp only [Option.some.injEq] at h; subst h; exact ⟨h1, h2, h3⟩
    | done => simp only [Option.some.injEq] at h; subst h; exact ⟨h1, h2, h3⟩
    | finished => simp at h
  | read k =>
    simp only [ZState.step] at h
    split at h
    · simp only [Option.some.injEq] at h; subst h; exact ⟨h1, h2, h3⟩
    · simp at h
  | finish =>
    simp only [ZState.step] at h
    split at h
    · rename_i hx
      simp only [Option.some.injEq] at h; subst h
      exact ⟨h1, h2, fun hw b hb => by have := h3 hw b hb; rw [hx.1] at this; simp at this⟩
    · simp at h
  | crash =>
    simp only [ZState.step] at h
    split at h
    · simp only [Option.some.injEq] at h; subst h; exact ⟨h1, h2, fun _ _ _ => rfl⟩
    · simp at h

theorem told_reachable {cap : Nat} {ops : List Zstd.Op} {s : ZState} (h : Reachable cap ops s) : Told s := by
  obtain ⟨s0, cs, h0, h1⟩ := h
  have hi := Zstd.inv_init h0
  have ht : Told s0 := by
    simp only [Zstd.newWriter] at h0
    injection h0 with h0
    subst h0
    exact ⟨by simp, by simp, by simp⟩
  clear h0
  induction cs generalizing s0 with
  | nil => simp only [ZState.exec, Option.some.injEq] at h1; subst h1; exact ht
  | cons c cs ih =>
    simp only [ZState.exec] at h1
    obtain ⟨s1, h2, h3⟩ := Option.bind_eq_some_iff.1 h1
    exact ih s1 h3 (Zstd.inv_step hi h2) (told_step hi ht h2)

/-- C58. An error of `Write` before `Close` is no false alarm: the compressor has failed or could not be started. -/
theorem C58_write_error (cap : Nat) (ops : List Zstd.Op) (s : ZState) (h : Reachable cap ops s) (hw : s.wOpen = true) (b : Bytes) (hb : .wrote b false ∈ s.rets) :
    s.child = .exited false := (told_reachable h).errs hw b hb

/-- C58 violated, in general: whatever has happened to the compressor, the first call of `Close` returns nil if it returns. -/
theorem C58_violated_always (cap : Nat) (ops : List Zstd.Op) (s : ZState) (h : Reachable cap ops s) :
    s.rets.find? (fun r => match r with | .closed _ => true | _ => false) ≠ some (.closed false) := (told_reachable h).first

/-- The compressor dies before the second piece is written and its end of the pipe is closed: the second `Write` fails. -/
example : (zRun 100 zOps [.user 0, .user 3, .gor true, .read 1, .crash, .gor true, .gor true, .user 0, .user 0, .user 0]).map (fun s => (s.rets, s.wOpen, s.child))
    = some ([.wrote [1, 2, 3] true, .wrote [4] false], true, .exited false) := by decide +kernel

/-! ## C59 -/

/-- C59 (partial: the pipe; the file stays open, `C59_violated_file`). After `Close` has returned nil, both ends of the pipe are closed. -/
theorem C59_pipe_partial (cap : Nat) (ops : List Zstd.Op) (s : ZState) (h : Reachable cap ops s) (hc : .closed true ∈ s.rets) :
    s.rOpen = false ∧ s.wOpen = false := by
  have hi := Zstd.inv_reachable h
  have hw := hi.closed hc
  refine ⟨?_, hw.2⟩
  have hg := hi.wg.1 hw.1
  have := hi.rOpen
  rw [hg] at this
  simpa using this

/-- C59. If the pipe cannot be made, nothing is left open. -/
theorem C59_no_pipe (createOk : Bool) (ops : List Zstd.Op) : Zstd.newWriter false createOk ops = .err false false false := rfl

/-- C59 violated: in every schedule, the descriptor of the output file is never closed (unless a finalizer does it later). -/
theorem C59_violated_file (cap : Nat) (ops : List Zstd.Op) (s : ZState) (h : Reachable cap ops s) : s.fOpen = true := (Zstd.inv_reachable h).fOpen

/-- C59 violated: if the file cannot be created, both ends of the pipe stay open (unless a finalizer closes them later). -/
theorem C59_violated_create (ops : List Zstd.Op) : Zstd.newWriter true false ops = .err true true false := rfl

example : (zRun 2 zOps zGood).map (fun s => (s.rOpen, s.wOpen, s.fOpen)) = some (false, false, true) := by decide +kernel

end TcpInfo
