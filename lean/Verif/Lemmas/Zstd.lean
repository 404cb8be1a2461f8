import Verif.Spec.Zstd
/-!
# Invariants of the zstd writer
-/

namespace TcpInfo.Zstd
open TcpInfo

/-- Rest of the current `Write`. -/
def ZState.cur (s : ZState) : Bytes := match s.pc with | .writing _ rest => rest | _ => []

/-- Relations among the parts of the state. -/
structure Inv (ops : List Op) (s : ZState) : Prop where
  pipe : s.consumed ++ s.pipe = s.accepted
  run : s.gpc ≠ .run → ∃ ok, s.child = .exited ok
  rOpen : s.rOpen = true ↔ s.gpc = .run ∨ s.gpc = .closeR
  wg : s.wgDone = true ↔ s.gpc = .finished
  closed : .closed true ∈ s.rets → s.wgDone = true ∧ s.wOpen = false
  waiting : s.pc = .waiting → s.wOpen = false
  writing : ∀ a r, s.pc = .writing a r → s.wOpen = true
  ok : s.child = .exited true → s.pipe = [] ∧ s.wOpen = false ∧ s.disk = some s.consumed
  flow : (s.accepted ++ s.cur ++ (if s.wOpen then beforeClose s.ops else []) = beforeClose ops)
    ∨ (s.rOpen = false ∧ s.child = .exited false ∧ s.accepted <+: beforeClose ops)
  fOpen : s.fOpen = true
  disk : ∀ d, s.disk = some d → s.child = .exited true

theorem inv_init {ops : List Op} {s : ZState} (h : newWriter true true ops = .ok s) : Inv ops s := by
  simp only [newWriter] at h
  injection h with h
  subst h
  constructor <;> simp [ZState.cur]

theorem inv_step {cap : Nat} {ops : List Op} {s s' : ZState} {c : Choice} (hi : Inv ops s) (h : s.step cap c = some s') : Inv ops s' := by
  obtain ⟨ops', pc, wO, rO, fO, pipe, child, gpc, wg, acc, con, disk, rets⟩ := s
  obtain ⟨h1, h2, h3, h4, h5, h6, h7, h8, h9, h10, h11⟩ := hi
  simp only [ZState.cur] at *
  cases c with
  | user k =>
    simp only [ZState.step, ZState.userStep] at h
    cases pc with
    | out =>
      simp only at h
      cases ops' with
      | nil => simp at h
      | cons o ops' =>
        cases o with
        | write b =>
          cases wO <;> simp at h <;> subst h
          · constructor <;> simp_all [ZState.cur]
          · constructor <;> simp_all [ZState.cur, beforeClose]
        | close =>
          cases wO <;> simp at h <;> subst h
          · constructor <;> simp_all [ZState.cur]
          · constructor <;> simp_all [ZState.cur, beforeClose]
    | writing all rest =>
      have hw := h7 all rest rfl
      subst hw
      simp only at h
      by_cases hr : rest = []
      · subst hr
        simp at h; subst h
        constructor <;> simp_all [ZState.cur]
      · rw [if_neg hr] at h
        by_cases hh : rO = true ∨ child = .running
        · rw [if_neg (by simp [ZState.hasReader]; rcases hh with hh | hh <;> simp [hh])] at h
          split at h
          · rename_i hk
            simp at h; subst h
            constructor <;> simp_all [ZState.cur]
            · rw [← h1]; simp
            · rcases h9 with h9 | h9
              · left; exact h9
              · grind
          · simp at h
        · rw [if_pos (by simp [ZState.hasReader]; grind)] at h
          simp at h; subst h
          constructor <;> simp_all [ZState.cur]
          rcases h9 with h9 | h9
          · right; rw [← h9]; exact List.prefix_append _ _
          · exact Or.inr h9
    | waiting =>
      simp only at h
      cases wg <;> simp at h
      subst h
      constructor <;> simp_all [ZState.cur]
  | gor st =>
    simp only [ZState.step, ZState.gorStep] at h
    cases gpc with
    | run =>
      cases child with
      | notStarted => cases st <;> simp at h <;> subst h <;> constructor <;> simp_all [ZState.cur] <;> (try exact h7)
      | running => simp at h
      | exited ok => simp at h; subst h; constructor <;> simp_all [ZState.cur] <;> (try exact h7)
    | closeR =>
      simp at h; subst h; constructor <;> simp_all [ZState.cur] <;> (try exact h7)
    | done => simp at h; subst h; constructor <;> simp_all [ZState.cur] <;> (try exact h7)
    | finished => simp at h
  | read k =>
    simp only [ZState.step] at h
    split at h
    · rename_i hk
      simp at h; subst h
      constructor <;> simp_all [ZState.cur] <;> (try exact h7)
    · simp at h
  | finish =>
    simp only [ZState.step] at h
    split at h
    · rename_i hk
      simp at h; subst h
      constructor <;> simp_all [ZState.cur] <;> (try exact h7)
    · simp at h
  | crash =>
    simp only [ZState.step] at h
    split at h
    · rename_i hk
      simp at h; subst h
      constructor <;> simp_all [ZState.cur] <;> (try exact h7)
    · simp at h

theorem inv_exec {cap : Nat} {ops : List Op} : ∀ (cs : List Choice) {s s' : ZState}, Inv ops s → s.exec cap cs = some s' → Inv ops s'
  | [], s, s', hi, h => by simp [ZState.exec] at h; exact h ▸ hi
  | c :: cs, s, s', hi, h => by
    simp only [ZState.exec, Option.bind_eq_some_iff] at h
    obtain ⟨s1, h1, h2⟩ := h
    exact inv_exec cs (inv_step hi h1) h2

theorem inv_reachable {cap : Nat} {ops : List Op} {s : ZState} (h : Reachable cap ops s) : Inv ops s := by
  obtain ⟨s0, cs, h0, h1⟩ := h
  exact inv_exec cs (inv_init h0) h1

/-- Work left. -/
def opWork : List Op → Nat
  | [] => 0
  | .write b :: ops => 2 + 2 * b.length + opWork ops
  | .close :: ops => 2 + opWork ops

def ZState.work (s : ZState) : Nat :=
  opWork s.ops + (match s.pc with | .out => 0 | .writing _ r => 1 + 2 * r.length | .waiting => 1) + s.pipe.length
    + (match s.child with | .notStarted => 2 | .running => 1 | .exited _ => 0)
    + (match s.gpc with | .run => 3 | .closeR => 2 | .done => 1 | .finished => 0)

theorem work_step {cap : Nat} {s s' : ZState} {c : Choice} (h : s.step cap c = some s') : s'.work < s.work := by
  obtain ⟨ops', pc, wO, rO, fO, pipe, child, gpc, wg, acc, con, disk, rets⟩ := s
  cases c with
  | user k =>
    simp only [ZState.step, ZState.userStep] at h
    cases pc with
    | out =>
      cases ops' with
      | nil => simp at h
      | cons o ops' => cases o <;> cases wO <;> simp at h <;> subst h <;> simp [ZState.work, opWork] <;> omega
    | writing all rest =>
      simp only at h
      split at h
      · simp at h; subst h; simp [ZState.work]; omega
      · split at h
        · simp at h; subst h; simp [ZState.work]; omega
        · split at h
          · simp at h; subst h; simp [ZState.work]; omega
          · simp at h
    | waiting => cases wg <;> simp at h; subst h; simp [ZState.work]
  | gor st =>
    simp only [ZState.step, ZState.gorStep] at h
    cases gpc <;> simp at h
    · cases child <;> simp at h
      · cases st <;> simp at h <;> subst h <;> simp [ZState.work]
      · subst h; simp [ZState.work]
    · subst h; simp [ZState.work]
    · subst h; simp [ZState.work]
  | read k =>
    simp only [ZState.step] at h
    split at h
    · simp at h; subst h; simp [ZState.work]; omega
    · simp at h
  | finish =>
    simp only [ZState.step] at h
    split at h
    · rename_i hk; simp at h; subst h; simp [ZState.work, hk.1]
    · simp at h
  | crash =>
    simp only [ZState.step] at h
    split at h
    · rename_i hk; simp at h; subst h; simp [ZState.work, hk]
    · simp at h

end TcpInfo.Zstd
