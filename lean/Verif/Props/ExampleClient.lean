import Verif.Model.ExampleClient
/-!
# C72: the example client of the event socket
-/

namespace TcpInfo
open EventSocket (Callback)

/-- The open events among the calls. -/
def opens (calls : List Callback) : List Callback := calls.filter (fun c => match c with | .opened .. => true | .closed .. => false)

/-- The state is reached by some schedule when the handler is called with `calls`. -/
def ExampleReachable (calls : List Callback) (s : Example.State) : Prop := ∃ cs, (Example.init calls).exec cs = some s

/-- The event that is being processed. -/
def inHand : Example.PPC → List Callback
  | .processing e => [e]
  | _ => []

theorem example_inv (calls : List Callback) (s : Example.State) (h : ExampleReachable calls s) :
    (s.told.filter (·.2)).map (·.1) = s.processed ++ inHand s.pc ∧ s.told.map (·.1) ++ opens s.calls = opens calls := by
  obtain ⟨cs, h⟩ := h
  suffices ∀ cs (s0 : Example.State), (s0.told.filter (·.2)).map (·.1) = s0.processed ++ inHand s0.pc → s0.told.map (·.1) ++ opens s0.calls = opens calls →
      s0.exec cs = some s → (s.told.filter (·.2)).map (·.1) = s.processed ++ inHand s.pc ∧ s.told.map (·.1) ++ opens s.calls = opens calls from
    this cs (Example.init calls) rfl rfl h
  intro cs
  induction cs with
  | nil => intro s0 h1 h2 h; simp only [Example.State.exec] at h; injection h with h; subst h; exact ⟨h1, h2⟩
  | cons c cs ih =>
    intro s0 h1 h2 h
    simp only [Example.State.exec] at h
    obtain ⟨s1, hs, h'⟩ := Option.bind_eq_some_iff.1 h
    obtain ⟨calls0, pc, can, told, pr, cl⟩ := s0
    refine ih s1 ?_ ?_ h'
    · cases c with
      | handler =>
        simp only [Example.State.step] at hs
        split at hs
        · simp at hs
        · injection hs with hs; subst hs
          simp only [Example.State.openCall]
          split
          · rename_i hpc; subst hpc
            simp_all [inHand]
          · simp_all
        · injection hs with hs; subst hs; exact h1
      | process d =>
        simp only [Example.State.step] at hs
        cases pc with
        | loop => simp only at hs; split at hs <;> injection hs with hs <;> subst hs <;> exact h1
        | waiting => simp only at hs; split at hs <;> simp at hs; subst hs; exact h1
        | processing e => simp only at hs; injection hs with hs; subst hs; simp_all [inHand]
        | returned => simp at hs
      | cancel =>
        simp only [Example.State.step] at hs
        split at hs <;> simp at hs; subst hs; exact h1
    · cases c with
      | handler =>
        simp only [Example.State.step] at hs
        split at hs
        · simp at hs
        · injection hs with hs; subst hs
          simp only at h2 ⊢
          simp only [Example.State.openCall]
          rw [← h2]
          split <;> simp [opens]
        · injection hs with hs; subst hs
          simp only at h2 ⊢
          rw [← h2]; rfl
      | process d =>
        simp only [Example.State.step] at hs
        cases pc with
        | loop => simp only at hs; split at hs <;> injection hs with hs <;> subst hs <;> exact h2
        | waiting => simp only at hs; split at hs <;> simp at hs; subst hs; exact h2
        | processing e => simp only at hs; injection hs with hs; subst hs; exact h2
        | returned => simp at hs
      | cancel =>
        simp only [Example.State.step] at hs
        split at hs <;> simp at hs; subst hs; exact h2

/-- C72. The handler never blocks: whatever the other goroutine is doing, also after shutdown, the next call returns; so the client goes on reading. -/
theorem C72_never_blocks (calls : List Callback) (s : Example.State) (_h : ExampleReachable calls s) (hc : s.calls ≠ []) : ∃ s', s.step .handler = some s' := by
  unfold Example.State.step
  cases hs : s.calls with
  | nil => exact absurd hs hc
  | cons e cs => cases e <;> simp

/-- C72. Every open event is logged once, as sent or as skipped, in order. -/
theorem C72_logged (calls : List Callback) (s : Example.State) (h : ExampleReachable calls s) : s.told.map (·.1) ++ opens s.calls = opens calls :=
  (example_inv calls s h).2

/-- C72. What has been processed are the events logged as sent, in order, each once; at most one of them is still in hand. So the processed events are some
of the open events, in their order. -/
theorem C72_processed (calls : List Callback) (s : Example.State) (h : ExampleReachable calls s) :
    (∃ e : List Callback, (s.told.filter (·.2)).map (·.1) = s.processed ++ e ∧ e.length ≤ 1 ∧ ((∀ x, s.pc ≠ .processing x) → e = []))
    ∧ s.processed.Sublist (opens calls) := by
  obtain ⟨h1, h2⟩ := example_inv calls s h
  refine ⟨⟨inHand s.pc, h1, ?_, ?_⟩, ?_⟩
  · unfold inHand; split <;> simp
  · intro hn
    cases hp : s.pc with
    | processing x => exact absurd hp (hn x)
    | _ => rfl
  · have a : s.processed.Sublist ((s.told.filter (·.2)).map (·.1)) := by rw [h1]; exact List.sublist_append_left _ _
    have b : ((s.told.filter (·.2)).map (·.1)).Sublist (s.told.map (·.1)) := List.Sublist.map _ List.filter_sublist
    have c : (s.told.map (·.1)).Sublist (opens calls) := by rw [← h2]; exact List.sublist_append_left _ _
    exact (a.trans b).trans c

-- the first event comes before the goroutine waits and is skipped, the second is processed, the third comes meanwhile and is skipped
def exCalls : List Callback := [.opened 1 "a" none, .opened 2 "b" none, .closed 3 "a", .opened 4 "c" none]
example : ((Example.init exCalls).exec [.handler, .process false, .handler, .handler, .handler, .process false]).map
    (fun s => (s.told.map (·.2), s.processed, s.calls.length)) = some ([false, true, false], [.opened 2 "b" none], 0) := by decide

end TcpInfo
