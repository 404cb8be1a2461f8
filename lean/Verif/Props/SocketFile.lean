import Verif.Spec.SocketFile
/-!
# C95: finding the event server
-/

namespace TcpInfo
open SocketFile (Node Op)

theorem exec_not_full (dirOK : Bool) (os : List Op) : ∀ s s' : SocketFile.State, s.node ≠ .full → s.exec dirOK os = some s' → s'.node ≠ .full := by
  induction os with
  | nil => intro s s' h he; simp only [SocketFile.State.exec, Option.some.injEq] at he; exact he ▸ h
  | cons o os ih =>
    intro s s' h he
    simp only [SocketFile.State.exec] at he
    cases hs : s.step dirOK o with
    | none => rw [hs] at he; simp at he
    | some s1 =>
      rw [hs] at he
      refine ih s1 s' ?_ he
      cases o with
      | listen i =>
        simp only [SocketFile.State.step] at hs
        split at hs
        · simp at hs
        · cases dirOK <;> cases hn : s.node <;> rw [hn] at hs <;> simp [SocketFile.remove, SocketFile.bind] at hs <;> subst hs <;> simp_all
      | close i =>
        simp only [SocketFile.State.step] at hs
        split at hs
        · injection hs with hs; subst hs
          cases hn : s.node <;> simp_all [SocketFile.unlink]
        · simp at hs
      | crash i =>
        simp only [SocketFile.State.step] at hs
        split at hs
        · injection hs with hs; subst hs; exact h
        · simp at hs

theorem bind_some (dirOK : Bool) (i : Nat) (n n' : Node) (h : SocketFile.bind dirOK i n = some n') : n' = .socket i := by
  unfold SocketFile.bind at h
  split at h
  · injection h with h; exact h.symm
  · simp at h

/-- C95. After any history of servers that have ended, in order or by a crash, or are still running, a new server can be started, and clients reach it. Whatever was
there under the name before the first one makes no difference, except for a directory with contents. -/
theorem C95_start (n : Node) (hn : n ≠ .full) (os : List Op) (s : SocketFile.State) (h : (SocketFile.init n).exec true os = some s) (i : Nat) (hi : i ∉ s.used) :
    ∃ s', s.step true (.listen i) = some s' ∧ s'.results = s.results ++ [(i, true)] ∧ s'.dial = some i := by
  have hf := exec_not_full true os (SocketFile.init n) s hn h
  have hr : SocketFile.remove s.node = .absent := by cases hq : s.node <;> simp_all [SocketFile.remove]
  refine ⟨{ node := .socket i, listening := i :: s.listening, used := i :: s.used, results := s.results ++ [(i, true)] }, ?_, rfl, ?_⟩
  · simp [SocketFile.State.step, hi, hr, SocketFile.bind]
  · simp [SocketFile.State.dial]

/-- C95. If the socket cannot be made, `Listen` says so, and what was there stays there. -/
theorem C95_error (dirOK : Bool) (s s' : SocketFile.State) (i : Nat) (hi : dirOK = false ∨ s.node = .full) (h : s.step dirOK (.listen i) = some s') :
    s'.results = s.results ++ [(i, false)] ∧ s'.node = s.node ∧ s'.listening = s.listening := by
  simp only [SocketFile.State.step] at h
  split at h
  · simp at h
  · rcases hi with rfl | hi
    · simp [SocketFile.bind] at h; subst h; simp
    · rw [hi] at h
      cases dirOK <;> simp [SocketFile.bind, SocketFile.remove] at h <;> subst h <;> simp [hi]

/-- C95 violated: a server is started while another one with the same file name is still running, for instance by a restart. When the old one ends in order, closing
its listener removes the file of the new one: the new one goes on running, but no client can reach it. -/
theorem C95_violated : ∃ s, (SocketFile.init .absent).exec true [.listen 0, .listen 1, .close 0] = some s ∧ s.listening = [1] ∧ s.dial = none :=
  ⟨{ node := .absent, listening := [1], used := [1, 0], results := [(0, true), (1, true)] }, by decide, by decide, by decide⟩

/-- Every server is started when no other one is running. -/
def OneAtATime (dirOK : Bool) : List Op → SocketFile.State → Prop
  | [], _ => True
  | o :: os, s => (∀ i, o = .listen i → s.listening = []) ∧ ∀ s', s.step dirOK o = some s' → OneAtATime dirOK os s'

/-- C95 (partial: one server at a time; `C95_violated`). Whatever the history of starts, orderly ends and crashes: while a server is running, clients reach it;
when none is, they get an error. -/
theorem C95_reached_partial (dirOK : Bool) (n : Node) (os : List Op) (s : SocketFile.State) (h : (SocketFile.init n).exec dirOK os = some s)
    (h1 : OneAtATime dirOK os (SocketFile.init n)) : (s.listening = [] ∧ s.dial = none) ∨ ∃ i, s.listening = [i] ∧ s.dial = some i := by
  have dial0 : ∀ s : SocketFile.State, s.listening = [] → s.dial = none := by
    intro s h; unfold SocketFile.State.dial; rw [h]; split <;> simp
  suffices key : ∀ os (s0 s : SocketFile.State), (s0.listening = [] ∨ ∃ i, s0.listening = [i] ∧ s0.node = .socket i) → OneAtATime dirOK os s0 → s0.exec dirOK os = some s →
      s.listening = [] ∨ ∃ i, s.listening = [i] ∧ s.node = .socket i by
    rcases key os (SocketFile.init n) s (Or.inl rfl) h1 h with h | ⟨i, h2, h3⟩
    · exact Or.inl ⟨h, dial0 s h⟩
    · refine Or.inr ⟨i, h2, ?_⟩
      simp [SocketFile.State.dial, h3, h2]
  intro os
  induction os with
  | nil => intro s0 s h0 _ he; simp only [SocketFile.State.exec, Option.some.injEq] at he; exact he ▸ h0
  | cons o os ih =>
    intro s0 s h0 ho he
    simp only [SocketFile.State.exec] at he
    cases hs : s0.step dirOK o with
    | none => rw [hs] at he; simp at he
    | some s1 =>
      rw [hs] at he
      refine ih s1 s ?_ (ho.2 s1 hs) he
      cases o with
      | listen i =>
        have hl := ho.1 i rfl
        simp only [SocketFile.State.step] at hs
        split at hs
        · simp at hs
        · generalize hb : SocketFile.bind dirOK i (if dirOK = true then SocketFile.remove s0.node else s0.node) = b at hs
          cases b with
          | none => simp only [Option.some.injEq] at hs; subst hs; exact Or.inl hl
          | some n' =>
            simp only [Option.some.injEq] at hs; subst hs
            refine Or.inr ⟨i, by simp [hl], ?_⟩
            exact bind_some _ _ _ _ hb
      | close i =>
        simp only [SocketFile.State.step] at hs
        split at hs
        · rename_i hm
          injection hs with hs; subst hs
          rcases h0 with h0 | ⟨j, h0, _⟩
          · rw [h0] at hm; simp at hm
          · rw [h0] at hm; simp only [List.mem_singleton] at hm; subst hm
            left; simp [h0]
        · simp at hs
      | crash i =>
        simp only [SocketFile.State.step] at hs
        split at hs
        · rename_i hm
          injection hs with hs; subst hs
          rcases h0 with h0 | ⟨j, h0, _⟩
          · rw [h0] at hm; simp at hm
          · rw [h0] at hm; simp only [List.mem_singleton] at hm; subst hm
            left; simp [h0]
        · simp at hs

theorem sf_snoc_induction {α : Type} {P : List α → Prop} (nil : P []) (step : ∀ l a, P l → P (l ++ [a])) (l : List α) : P l := by
  have : ∀ l : List α, P l.reverse := by
    intro l
    induction l with
    | nil => exact nil
    | cons a l ih => rw [List.reverse_cons]; exact step _ _ ih
  simpa using this l.reverse

theorem sf_exec_snoc (dirOK : Bool) (o : Op) : ∀ (os : List Op) (s s' : SocketFile.State), s.exec dirOK (os ++ [o]) = some s' →
    ∃ s1, s.exec dirOK os = some s1 ∧ s1.step dirOK o = some s' := by
  intro os
  induction os with
  | nil =>
    intro s s' h
    refine ⟨s, rfl, ?_⟩
    simp only [List.nil_append, SocketFile.State.exec] at h
    cases hs : s.step dirOK o with
    | none => rw [hs] at h; simp at h
    | some s1 => rw [hs] at h; simpa [SocketFile.State.exec] using h
  | cons a os ih =>
    intro s s' h
    simp only [List.cons_append, SocketFile.State.exec] at h ⊢
    cases hs : s.step dirOK a with
    | none => rw [hs] at h; simp at h
    | some s1 => rw [hs] at h; exact ih s1 s' h

theorem latest_snoc (os : List Op) (o : Op) (i : Nat) : Spec.Latest (os ++ [o]) i ↔ o = .listen i ∨ (Spec.Latest os i ∧ (∀ j, o ≠ .listen j) ∧ (∀ j, o ≠ .close j) ∧ o ≠ .crash i) := by
  constructor
  · rintro ⟨b, si, h, h1, h2, h3⟩
    rcases List.eq_nil_or_concat si with rfl | ⟨t, x, rfl⟩
    · left
      have := congrArg List.getLast? h
      simpa using this
    · right
      have hx : o = x ∧ os = b ++ Op.listen i :: t := by
        have e : b ++ Op.listen i :: (t.concat x) = (b ++ Op.listen i :: t) ++ [x] := by simp
        rw [e] at h
        have := List.append_inj' h rfl
        exact ⟨by simpa using this.2, this.1⟩
      obtain ⟨rfl, e⟩ := hx
      simp only [List.concat_eq_append, List.mem_append, List.mem_singleton, not_or] at h1 h2 h3
      exact ⟨⟨b, t, e, fun j => (h1 j).1, fun j => (h2 j).1, h3.1⟩, fun j e => (h1 j).2 e.symm, fun j e => (h2 j).2 e.symm, fun e => h3.2 e.symm⟩
  · rintro (rfl | ⟨⟨b, t, rfl, h1, h2, h3⟩, k1, k2, k3⟩)
    · exact ⟨os, [], rfl, by simp, by simp, by simp⟩
    · refine ⟨b, t ++ [o], by simp, ?_, ?_, ?_⟩ <;> simp only [List.mem_append, List.mem_singleton, not_or]
      · exact fun j => ⟨h1 j, fun e => k1 j e.symm⟩
      · exact fun j => ⟨h2 j, fun e => k2 j e.symm⟩
      · exact ⟨h3, fun e => k3 e.symm⟩

/-- C95, which server clients reach, for every history: exactly the one that was started last, as long as it has not crashed and no server, itself or an older
one that was still running, has been closed since it was started. In all other cases they get an error. -/
theorem C95_exact (n : Node) (hn : n ≠ .full) (os : List Op) (s : SocketFile.State) (h : (SocketFile.init n).exec true os = some s) (i : Nat) :
    s.dial = some i ↔ Spec.Latest os i := by
  suffices key : s.listening.Nodup ∧ (∀ i ∈ s.listening, i ∈ s.used) ∧ ∀ i, s.dial = some i ↔ Spec.Latest os i from key.2.2 i
  clear i
  revert s
  refine sf_snoc_induction (P := fun os => ∀ s, (SocketFile.init n).exec true os = some s → s.listening.Nodup ∧ (∀ i ∈ s.listening, i ∈ s.used) ∧ ∀ i, s.dial = some i ↔ Spec.Latest os i) ?_ ?_ os
  · intro s h
    simp only [SocketFile.State.exec, Option.some.injEq] at h; subst h
    refine ⟨by simp [SocketFile.init], by simp [SocketFile.init], fun i => ?_⟩
    constructor
    · unfold SocketFile.State.dial; simp only [SocketFile.init]; split <;> simp
    · rintro ⟨b, t, e, _⟩; simp at e
  · intro os o ih s h
    obtain ⟨s1, h1, hs⟩ := sf_exec_snoc true o os _ s h
    obtain ⟨hnd, hu, hd⟩ := ih s1 h1
    have hf := exec_not_full true os (SocketFile.init n) s1 hn h1
    have hr : SocketFile.remove s1.node = .absent := by cases hq : s1.node <;> simp_all [SocketFile.remove]
    cases o with
    | listen k =>
      simp only [SocketFile.State.step] at hs
      split at hs
      · simp at hs
      · rename_i hk
        simp [hr, SocketFile.bind] at hs; subst hs
        refine ⟨List.nodup_cons.mpr ⟨fun hm => hk (hu k hm), hnd⟩, ?_, fun i => ?_⟩
        · intro i hi
          rcases List.mem_cons.mp hi with rfl | hi
          · simp
          · exact List.mem_cons_of_mem _ (hu i hi)
        · rw [latest_snoc]; simp [SocketFile.State.dial]
    | close k =>
      simp only [SocketFile.State.step] at hs
      split at hs
      · injection hs with hs; subst hs
        refine ⟨hnd.erase k, fun i hi => hu i (List.mem_of_mem_erase hi), fun i => ?_⟩
        rw [latest_snoc]
        have : SocketFile.unlink s1.node = .absent := by cases hq : s1.node <;> simp_all [SocketFile.unlink]
        simp [SocketFile.State.dial, this]
      · simp at hs
    | crash k =>
      simp only [SocketFile.State.step] at hs
      split at hs
      · injection hs with hs; subst hs
        refine ⟨hnd.erase k, fun i hi => hu i (List.mem_of_mem_erase hi), fun i => ?_⟩
        rw [latest_snoc, ← hd i]
        unfold SocketFile.State.dial
        cases hq : s1.node with
        | socket j =>
          simp only [hnd.mem_erase_iff]
          by_cases hjk : j = k
          · subst hjk; simp
          · simp only [ne_eq, hjk, not_false_eq_true, true_and]
            constructor
            · intro h2
              refine Or.inr ⟨h2, by simp, by simp, ?_⟩
              split at h2
              · injection h2 with h2; subst h2; simpa using fun e => hjk e.symm
              · simp at h2
            · rintro (h2 | h2)
              · simp at h2
              · exact h2.1
        | _ => simp
      · simp at hs

/-! ## Examples -/

/-- a regular file in the way, an orderly end, a crash that leaves the socket file behind, a third server -/
example : ((SocketFile.init .other).exec true [.listen 5, .close 5, .listen 6, .crash 6]).map (fun s => (s.node, s.dial)) = some (.socket 6, none) := by decide
example : ((SocketFile.init .other).exec true [.listen 5, .close 5, .listen 6, .crash 6, .listen 7]).map (fun s => (s.results, s.dial))
    = some ([(5, true), (6, true), (7, true)], some 7) := by decide
example : ((SocketFile.init .full).exec true [.listen 5]).map (fun s => (s.results, s.dial)) = some ([(5, false)], none) := by decide
example : OneAtATime true [.listen 5, .crash 5, .listen 6] (SocketFile.init .other) := by
  refine ⟨fun _ _ => rfl, fun s' h => ?_⟩
  have : s' = { node := .socket 5, listening := [5], used := [5], results := [(5, true)] } := by
    have e : (SocketFile.init .other).step true (.listen 5) = some { node := .socket 5, listening := [5], used := [5], results := [(5, true)] } := by decide
    rw [e] at h; injection h with h; exact h.symm
  subst this
  refine ⟨fun _ h => by simp at h, fun s'' h' => ?_⟩
  have : s''.listening = [] := by
    have e : (SocketFile.State.step true { node := .socket 5, listening := [5], used := [5], results := [(5, true)] } (.crash 5)).map (·.listening) = some [] := by decide
    rw [h'] at e
    simpa using e
  exact ⟨fun _ _ => this, fun _ _ => trivial⟩
example : Spec.Latest [.listen 5, .listen 6, .crash 5] 6 := ⟨[.listen 5], [.crash 5], rfl, by simp, by simp, by simp⟩
example : ((SocketFile.init .other).exec true [.listen 5, .listen 6, .crash 5]).map (·.dial) = some (some 6) := by decide
example : ((SocketFile.init .other).exec true [.listen 5, .listen 6, .crash 6]).map (fun s => (s.listening, s.dial)) = some ([5], none) := by decide

end TcpInfo
