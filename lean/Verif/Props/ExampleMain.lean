import Verif.Model.ExampleMain
import Verif.Props.ExampleClient
import Verif.Props.EventClient
/-!
# C96: the end of the example client
-/

namespace TcpInfo
open EventSocket (Callback mustRun Ending)
open Example (Prog ProgChoice)

theorem prog_inv (src : Source) (cs : List ProgChoice) : ∀ p p' : Prog, p.ex.cancelled = false → p.exited = false → (p.ending = none ∨ p.ending = some (mustRun src).2) →
    p.exec src cs = some p' → p'.ex.cancelled = false ∧ p'.exited = false ∧ (p'.ending = none ∨ p'.ending = some (mustRun src).2) := by
  induction cs with
  | nil => intro p p' h1 h2 h3 he; simp only [Prog.exec, Option.some.injEq] at he; subst he; exact ⟨h1, h2, h3⟩
  | cons c cs ih =>
    intro p p' h1 h2 h3 he
    simp only [Prog.exec] at he
    cases hs : p.step src c with
    | none => rw [hs] at he; simp at he
    | some p1 =>
      rw [hs] at he
      have stepc : ∀ (s s' : Example.State) (c : Example.Choice), c ≠ .cancel → s.step c = some s' → s'.cancelled = s.cancelled := by
        intro s s' c hc h
        cases c with
        | cancel => exact absurd rfl hc
        | handler =>
          simp only [Example.State.step] at h
          split at h
          · simp at h
          · injection h with h; subst h; unfold Example.State.openCall; split <;> rfl
          · injection h with h; subst h; rfl
        | process d =>
          simp only [Example.State.step] at h
          split at h
          · split at h <;> injection h with h <;> subst h <;> rfl
          · split at h
            · injection h with h; subst h; rfl
            · simp at h
          · injection h with h; subst h; rfl
          · simp at h
      unfold Prog.step at hs
      split at hs
      · simp at hs
      · cases c with
        | handler =>
          simp only [Option.map_eq_some_iff] at hs
          obtain ⟨ex, hx, rfl⟩ := hs
          exact ih { p with ex := ex } p' ((stepc _ _ _ (by simp) hx).trans h1) h2 h3 he
        | process d =>
          simp only [Option.map_eq_some_iff] at hs
          obtain ⟨ex, hx, rfl⟩ := hs
          exact ih { p with ex := ex } p' ((stepc _ _ _ (by simp) hx).trans h1) h2 h3 he
        | mustRunEnds =>
          simp only at hs
          split at hs
          · injection hs with hs; subst hs; exact ih { p with ending := some (mustRun src).2 } p' h1 h2 (Or.inr rfl) he
          · simp at hs
        | main => simp [h1] at hs

/-- C96 violated, in general: if the stream from tcp-info ends in order (the server has gone away), the example client does not end, under any schedule. It goes on
without a connection and without a message. -/
theorem C96_violated_never (src : Source) (h : (mustRun src).2 = .returns) (cs : List ProgChoice) (p : Prog) (he : (Prog.start src).exec src cs = some p) :
    p.over = false := by
  obtain ⟨_, h2, h3⟩ := prog_inv src cs _ p rfl rfl (Or.inl rfl) he
  unfold Prog.over
  rw [h2]
  rcases h3 with h3 | h3 <;> rw [h3]
  · rfl
  · rw [h]; rfl

/-- The bytes of one open event; then tcp-info ends. -/
def exProgSource : Source := ⟨"{\"Event\":0,\"Timestamp\":\"2020-09-13T12:26:40Z\",\"UUID\":\"u\",\"ID\":null}\n".toList.map (fun c => UInt8.ofNat c.toNat), .eof⟩

/-- C96 violated: tcp-info has ended after one event. `MustRun` has returned, nothing but waiting is left to do, the program has not ended. -/
theorem C96_violated : ∃ p, (Prog.start exProgSource).exec exProgSource [.process true, .handler, .process true, .mustRunEnds, .process true] = some p
    ∧ p.ending = some .returns ∧ p.ex.processed.length = 1 ∧ p.over = false ∧ ∀ c, p.step exProgSource c = none := by
  have h : ((Prog.start exProgSource).exec exProgSource [.process true, .handler, .process true, .mustRunEnds, .process true]).map
      (fun p => decide (p.ending = some .returns ∧ p.ex.processed.length = 1 ∧ p.over = false ∧ p.ex.calls = [] ∧ p.ex.pc = .waiting ∧ p.ex.cancelled = false)) = some true := by
    decide +kernel
  cases he : (Prog.start exProgSource).exec exProgSource [.process true, .handler, .process true, .mustRunEnds, .process true] with
  | none => rw [he] at h; simp at h
  | some p =>
    rw [he] at h
    simp only [Option.map_some, Option.some.injEq, decide_eq_true_eq] at h
    obtain ⟨h1, h2, h3, h4, h5, h6⟩ := h
    refine ⟨p, rfl, h1, h2, h3, ?_⟩
    intro c
    unfold Prog.step
    rw [h3]
    cases c <;> simp [Example.State.step, h1, h4, h5, h6]

/-- C96 (partial: not when the stream ends in order, `C96_violated`). If the connection fails or a line cannot be decoded, the process ends, and only then: it ends in
no other way, and under every schedule the handler has been called for every line before. -/
theorem C96_fatal_partial (src : Source) (cs : List ProgChoice) (p : Prog) (he : (Prog.start src).exec src cs = some p) :
    (p.over = true → ∃ e, (mustRun src).2 = .fatal e ∧ p.ending = some (.fatal e) ∧ p.ex.calls = [])
    ∧ (p.over = false → (∃ e, (mustRun src).2 = .fatal e) → ∃ cs' p', p.exec src cs' = some p' ∧ p'.over = true) := by
  have inv2 : ∀ (cs : List ProgChoice) (p p' : Prog), (p.ending ≠ none → p.ex.calls = []) → p.exec src cs = some p' → (p'.ending ≠ none → p'.ex.calls = []) := by
    intro cs
    induction cs with
    | nil => intro p p' h he; simp only [Prog.exec, Option.some.injEq] at he; subst he; exact h
    | cons c cs ih =>
      intro p p' h he
      simp only [Prog.exec] at he
      cases hs : p.step src c with
      | none => rw [hs] at he; simp at he
      | some p1 =>
        rw [hs] at he
        refine ih p1 p' ?_ he
        unfold Prog.step at hs
        split at hs
        · simp at hs
        · cases c with
          | handler =>
            simp only [Option.map_eq_some_iff] at hs
            obtain ⟨ex, hx, rfl⟩ := hs
            intro hn
            have := h hn
            simp [Example.State.step, this] at hx
          | process d =>
            simp only [Option.map_eq_some_iff] at hs
            obtain ⟨ex, hx, rfl⟩ := hs
            intro hn
            have hc := h hn
            simp only [Example.State.step] at hx
            split at hx
            · split at hx <;> injection hx with hx <;> subst hx <;> exact hc
            · split at hx
              · injection hx with hx; subst hx; exact hc
              · simp at hx
            · injection hx with hx; subst hx; exact hc
            · simp at hx
          | mustRunEnds =>
            simp only at hs
            split at hs
            · rename_i hh; injection hs with hs; subst hs; intro _; exact hh.1
            · simp at hs
          | main =>
            simp only at hs
            split at hs
            · injection hs with hs; subst hs; exact h
            · simp at hs
  obtain ⟨h1, h2, h3⟩ := prog_inv src cs _ p rfl rfl (Or.inl rfl) he
  have h4 := inv2 cs _ p (by intro h; exact absurd rfl h) he
  refine ⟨?_, ?_⟩
  · intro ho
    unfold Prog.over at ho
    rw [h2] at ho
    rcases h3 with h3 | h3
    · rw [h3] at ho; simp at ho
    · rw [h3] at ho
      cases hm : (mustRun src).2 with
      | returns => rw [hm] at ho; simp at ho
      | fatal e => exact ⟨e, rfl, by rw [h3, hm], h4 (by rw [h3]; simp)⟩
  · intro ho ⟨e, hm⟩
    have hend : p.ending = none := by
      rcases h3 with h3 | h3
      · exact h3
      · exfalso; unfold Prog.over at ho; rw [h3, hm] at ho; simp at ho
    -- all remaining calls, then the end
    suffices ∀ n (p : Prog), p.ex.calls.length = n → p.ending = none → p.exited = false → ∃ cs' p', p.exec src cs' = some p' ∧ p'.over = true from
      this _ p rfl hend h2
    intro n
    induction n with
    | zero =>
      intro p hl hn hx
      have hc : p.ex.calls = [] := List.length_eq_zero_iff.1 hl
      refine ⟨[.mustRunEnds], { p with ending := some (mustRun src).2 }, ?_, ?_⟩
      · simp [Prog.exec, Prog.step, Prog.over, hn, hx, hc]
      · simp [Prog.over, hm]
    | succ n ih =>
      intro p hl hn hx
      cases hc : p.ex.calls with
      | nil => rw [hc] at hl; simp at hl
      | cons c calls =>
        have : ∃ ex, p.ex.step .handler = some ex ∧ ex.calls = calls := by
          simp only [Example.State.step, hc]
          cases c with
          | opened t u id => exact ⟨_, rfl, by unfold Example.State.openCall; split <;> rfl⟩
          | closed t u => exact ⟨_, rfl, rfl⟩
        obtain ⟨ex, hx1, hx2⟩ := this
        obtain ⟨cs', p', hp, ho⟩ := ih { p with ex := ex } (by rw [hc] at hl; simp at hl; simp [hx2, hl]) hn hx
        refine ⟨.handler :: cs', p', ?_, ho⟩
        simp only [Prog.exec]
        have : p.step src .handler = some { p with ex := ex } := by simp [Prog.step, Prog.over, hn, hx, hx1]
        rw [this]
        exact hp

example : (mustRun exProgSource).2 = .returns := by decide +kernel
example : (mustRun ⟨exProgSource.bytes ++ [120], .eof⟩).2 = .fatal .json ∧ (mustRun ⟨exProgSource.bytes ++ [120], .eof⟩).1.length = 1 := by decide +kernel

end TcpInfo
