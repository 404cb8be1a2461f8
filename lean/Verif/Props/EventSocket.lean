import Verif.Lemmas.EventSocket
/-!
# C51, C52, C53, C61: the event server
-/

namespace TcpInfo
open EventSocket (FlowEvent good text Reachable line)

/-- C51. Events are distributed in the order of emission, none left out (except those without a JSON form), none repeated. -/
theorem C51_order (env : EventSocket.Env) (todo : List FlowEvent) (s : EventSocket.State) (h : Reachable env todo s) :
    s.distributed <+: good env s.emitted := by
  rw [← (EventSocket.inv_reachable h).order, List.append_assoc]; exact List.prefix_append _ _

/-- C51. And emission is in the order of the saver's calls. -/
theorem C51_emitted (env : EventSocket.Env) (todo : List FlowEvent) (s : EventSocket.State) (h : Reachable env todo s) :
    s.emitted ++ s.todo = todo := by
  obtain ⟨cs, h⟩ := h
  have key : ∀ (cs : List EventSocket.Choice) (s0 s : EventSocket.State), s0.exec env cs = some s → s.emitted ++ s.todo = s0.emitted ++ s0.todo := by
    intro cs
    induction cs with
    | nil => intro s0 s h; simp [EventSocket.State.exec] at h; simp [h]
    | cons c cs ih =>
      intro s0 s h
      simp only [EventSocket.State.exec, Option.bind_eq_some_iff] at h
      obtain ⟨s1, h1, h2⟩ := h
      rw [ih s1 s h2]
      unfold EventSocket.State.step EventSocket.State.notify EventSocket.State.produce at h1
      grind
  simpa [EventSocket.init] using key cs _ s h

/-- C51. A connection that was added when `k` events had been distributed, and to which no write has failed, has received exactly the lines of the
events distributed since (without the one being distributed if its turn has not come). -/
theorem C51_received (env : EventSocket.Env) (todo : List FlowEvent) (s : EventSocket.State) (h : Reachable env todo s) (c k : Nat)
    (hk : s.regAt c = some k) (hf : s.failedAt c = none) :
    (¬ s.pending c → k ≤ s.distributed.length ∧ s.delivered c = text env (s.distributed.drop k))
      ∧ (s.pending c → k < s.distributed.length ∧ s.delivered c = text env (s.distributed.dropLast.drop k)) := by
  have hc := (EventSocket.inv_reachable h).conn c
  unfold EventSocket.ConnOK at hc
  rw [hk] at hc
  simp only [hf] at hc
  have hp : s.pending c ↔ c ∈ s.rem := by
    unfold EventSocket.State.pending EventSocket.State.rem
    cases s.npc with
    | send b r => exact ⟨fun ⟨b', r', e, h⟩ => by injection e with e1 e2; exact e2 ▸ h, fun h => ⟨b, r, rfl, h⟩⟩
    | _ => simp
  have hc := hc.2.2.2.2
  constructor
  · intro hn; rw [hp] at hn; rw [if_neg hn] at hc; exact hc
  · intro hn; rw [hp] at hn; rw [if_pos hn] at hc; exact hc

/-- C51. A connection to which the write of event number `j` failed first has received the lines of the events from `k` to `j - 1`, and at most a
strict prefix of the line of event `j`, and nothing after that. -/
theorem C51_received_failed (env : EventSocket.Env) (todo : List FlowEvent) (s : EventSocket.State) (h : Reachable env todo s) (c k j : Nat)
    (hk : s.regAt c = some k) (hf : s.failedAt c = some j) :
    k ≤ j ∧ ∃ e b n, s.distributed[j]? = some e ∧ env.marshal e = some b ∧ n < (b ++ [10]).length
      ∧ s.delivered c = text env ((s.distributed.take j).drop k) ++ (b ++ [10]).take n := by
  have hc := (EventSocket.inv_reachable h).conn c
  unfold EventSocket.ConnOK at hc
  rw [hk] at hc
  simp only [hf] at hc
  exact ⟨hc.2.2.1, hc.2.2.2.2.2⟩

/-- C51. Nothing is sent to a connection before it is added. -/
theorem C51_not_before (env : EventSocket.Env) (todo : List FlowEvent) (s : EventSocket.State) (h : Reachable env todo s) (c : Nat)
    (hk : s.regAt c = none) : s.delivered c = [] := by
  have hc := (EventSocket.inv_reachable h).conn c
  unfold EventSocket.ConnOK at hc
  rw [hk] at hc
  exact hc.1

/-- C52. In two executions, with any schedules and any failures of others, that emitted the same events and distributed equally many, a connection added
at the same point and without failure of its own has received the same bytes. -/
theorem C52_independent (env : EventSocket.Env) (todo : List FlowEvent) (s1 s2 : EventSocket.State) (h1 : Reachable env todo s1)
    (h2 : Reachable env todo s2) (he : s1.emitted = s2.emitted) (hd : s1.distributed.length = s2.distributed.length) (c k : Nat)
    (hk1 : s1.regAt c = some k) (hk2 : s2.regAt c = some k) (hf1 : s1.failedAt c = none) (hf2 : s2.failedAt c = none)
    (hp1 : ¬ s1.pending c) (hp2 : ¬ s2.pending c) : s1.delivered c = s2.delivered c := by
  have e : s1.distributed = s2.distributed := by
    obtain ⟨t1, e1⟩ := C51_order env todo s1 h1
    obtain ⟨t2, e2⟩ := C51_order env todo s2 h2
    rw [he, ← e2] at e1
    exact List.append_inj_left e1 hd
  rw [((C51_received env todo s1 h1 c k hk1 hf1).1 hp1).2, ((C51_received env todo s2 h2 c k hk2 hf2).1 hp2).2, e]

/-- One moment of an infinite execution: a step, or nothing happens. -/
def stepOrIdle (env : EventSocket.Env) (s : EventSocket.State) : Option EventSocket.Choice → Option EventSocket.State
  | none => some s
  | some c => s.step env c

/-- An infinite execution. -/
structure Execution (env : EventSocket.Env) (todo : List FlowEvent) where
  state : Nat → EventSocket.State
  choice : Nat → Option EventSocket.Choice
  start : state 0 = EventSocket.init todo
  next : ∀ t, stepOrIdle env (state t) (choice t) = some (state (t + 1))

theorem exec_snoc {env : EventSocket.Env} : ∀ (cs : List EventSocket.Choice) {s0 s s' : EventSocket.State} {c : EventSocket.Choice},
    s0.exec env cs = some s → s.step env c = some s' → s0.exec env (cs ++ [c]) = some s'
  | [], s0, s, s', c, h, h' => by simp [EventSocket.State.exec] at h; subst h; simp [EventSocket.State.exec, h']
  | c0 :: cs, s0, s, s', c, h, h' => by
    simp only [EventSocket.State.exec, Option.bind_eq_some_iff, List.cons_append] at h ⊢
    obtain ⟨s1, h1, h2⟩ := h
    exact ⟨s1, h1, exec_snoc cs h2 h'⟩

theorem Execution.reachable {env : EventSocket.Env} {todo : List FlowEvent} (x : Execution env todo) : ∀ t, Reachable env todo (x.state t)
  | 0 => ⟨[], by simp [EventSocket.State.exec, x.start]⟩
  | t + 1 => by
    obtain ⟨cs, h⟩ := x.reachable t
    have hn := x.next t
    cases hc : x.choice t with
    | none => rw [hc] at hn; simp only [stepOrIdle, Option.some.injEq] at hn; exact ⟨cs, hn ▸ h⟩
    | some c => rw [hc] at hn; exact ⟨cs ++ [c], exec_snoc cs h hn⟩

/-- A connection whose write failed stays failed, and cannot be added again. -/
theorem failed_step {env : EventSocket.Env} {s s' : EventSocket.State} {ch : EventSocket.Choice} {c : Nat} (hi : EventSocket.Inv env s)
    (h : s.step env ch = some s') (hf : s.failedAt c ≠ none) : s'.failedAt c ≠ none ∧ (c ∉ s.clients → c ∉ s'.clients) := by
  have hreg : s.spc ≠ .adding c := by
    have hc := hi.conn c
    unfold EventSocket.ConnOK at hc
    cases hr : s.regAt c with
    | none => rw [hr] at hc; exact absurd hc.2.1 hf
    | some k => rw [hr] at hc; exact hc.2.1
  unfold EventSocket.State.step EventSocket.State.notify EventSocket.State.produce at h
  constructor
  · cases ch with
    | fail d k =>
      simp only at h
      split at h
      · simp at h
      · split at h
        · split at h
          · split at h
            · injection h with h; subst h; exact hf
            · split at h
              · injection h with h; subst h
                simp only [EventSocket.upd]
                split
                · simp
                · exact hf
              · simp at h
          · simp at h
        · simp at h
    | _ => grind
  · intro hn
    grind

/-- The removal of a connection stays pending until it is executed. -/
theorem removing_step {env : EventSocket.Env} {s s' : EventSocket.State} {ch : EventSocket.Choice} {c : Nat}
    (h : s.step env ch = some s') (hm : c ∈ s.removing) (hne : ch ≠ .remove c) : c ∈ s'.removing := by
  unfold EventSocket.State.step EventSocket.State.notify EventSocket.State.produce at h
  cases ch with
  | remove d =>
    simp only at h
    have hdc : c ≠ d := fun e => hne (by rw [e])
    split at h
    · simp at h
    · split at h
      · injection h with h; subst h; exact (List.mem_erase_of_ne hdc).2 hm
      · simp at h
  | _ => grind

/-- While the mutex is held, only visits change the set of connections to be visited. -/
theorem locked_step {env : EventSocket.Env} {s s' : EventSocket.State} {ch : EventSocket.Choice} {b : Bytes} {rem : List Nat}
    (h : s.step env ch = some s') (hn : s.npc = .send b rem) :
    s'.npc = .send b rem ∨ (∃ c ∈ rem, (ch = .write c ∨ ∃ k, ch = .fail c k) ∧ s'.npc = .send b (rem.erase c)) ∨ s'.locked = false := by
  unfold EventSocket.State.step EventSocket.State.notify EventSocket.State.produce at h
  unfold EventSocket.State.locked
  grind

theorem failed_idle {env : EventSocket.Env} {s s' : EventSocket.State} {ch : Option EventSocket.Choice} {c : Nat} (hi : EventSocket.Inv env s)
    (h : stepOrIdle env s ch = some s') (hf : s.failedAt c ≠ none) : s'.failedAt c ≠ none ∧ (c ∉ s.clients → c ∉ s'.clients) := by
  cases ch with
  | none => simp only [stepOrIdle, Option.some.injEq] at h; subst h; exact ⟨hf, id⟩
  | some ch => exact failed_step hi h hf

theorem locked_idle {env : EventSocket.Env} {s s' : EventSocket.State} {ch : Option EventSocket.Choice} {b : Bytes} {rem : List Nat}
    (h : stepOrIdle env s ch = some s') (hn : s.npc = .send b rem) :
    s'.npc = .send b rem ∨ (∃ c ∈ rem, s'.npc = .send b (rem.erase c)) ∨ s'.locked = false := by
  cases ch with
  | none => simp only [stepOrIdle, Option.some.injEq] at h; subst h; exact Or.inl hn
  | some ch =>
    rcases locked_step h hn with h | ⟨c, hc, -, h⟩ | h
    · exact Or.inl h
    · exact Or.inr (Or.inl ⟨c, hc, h⟩)
    · exact Or.inr (Or.inr h)

/-- C52. A client whose write failed is removed in the end, and stays removed — in every infinite execution in which (F1) a distribution that has begun
goes on (no client stalls for ever), and (F2) a removal that can be executed again and again is executed. -/
theorem C52_removed (env : EventSocket.Env) (todo : List FlowEvent) (x : Execution env todo) (c : Nat)
    (F1 : ∀ t b rem, (x.state t).npc = .send b rem → ∃ t' ≥ t, (x.state t').npc ≠ .send b rem)
    (F2 : (∀ t, ∃ t' ≥ t, c ∈ (x.state t').removing ∧ (x.state t').locked = false) → ∀ t, ∃ t' ≥ t, x.choice t' = some (.remove c))
    (t : Nat) (hf : (x.state t).failedAt c ≠ none) : ∃ t' ≥ t, ∀ t'' ≥ t', c ∉ (x.state t'').clients := by
  have hinv := fun t => EventSocket.inv_reachable (x.reachable t)
  -- failed for ever
  have hfail : ∀ n, (x.state (t + n)).failedAt c ≠ none := by
    intro n
    induction n with
    | zero => exact hf
    | succ n ih => exact (failed_idle (hinv (t + n)) (x.next (t + n)) ih).1
  have hfail' : ∀ u ≥ t, (x.state u).failedAt c ≠ none := fun u hu => by have := hfail (u - t); rwa [Nat.add_sub_cancel' hu] at this
  -- removed for ever
  have hstay : ∀ u ≥ t, c ∉ (x.state u).clients → ∀ v ≥ u, c ∉ (x.state v).clients := by
    intro u hu hn v hv
    obtain ⟨n, rfl⟩ := Nat.exists_eq_add_of_le hv
    induction n with
    | zero => exact hn
    | succ n ih => exact (failed_idle (hinv (u + n)) (x.next (u + n)) (hfail' _ (by omega))).2 (ih (by omega))
  by_cases hex : ∃ u ≥ t, c ∉ (x.state u).clients
  · obtain ⟨u, hu, hn⟩ := hex
    exact ⟨u, hu, hstay u hu hn⟩
  · exfalso
    have hin : ∀ u ≥ t, c ∈ (x.state u).clients := fun u hu => Classical.byContradiction (fun hn => hex ⟨u, hu, hn⟩)
    -- so the removal is pending all the time
    have hpend : ∀ u ≥ t, c ∈ (x.state u).removing := by
      intro u hu
      have hc := (hinv u).conn c
      unfold EventSocket.ConnOK at hc
      cases hr : (x.state u).regAt c with
      | none => rw [hr] at hc; exact absurd (hin u hu) hc.2.2
      | some k =>
        rw [hr] at hc
        cases hfa : (x.state u).failedAt c with
        | none => exact absurd hfa (hfail' u hu)
        | some j => simp only [hfa] at hc; exact hc.2.2.2.2.1 (hin u hu)
    -- the mutex is free again and again
    have hfree : ∀ n u, (x.state u).rem.length ≤ n → ∃ v ≥ u, (x.state v).locked = false := by
      intro n
      induction n with
      | zero =>
        intro u hu
        cases hn : (x.state u).npc with
        | send b rem =>
          obtain ⟨v, hv, hne⟩ := F1 u b rem hn
          obtain ⟨m, rfl⟩ := Nat.exists_eq_add_of_le hv
          have hrem : rem = [] := by simp [EventSocket.State.rem, hn] at hu; exact hu
          subst hrem
          clear hv
          induction m with
          | zero => exact absurd hn hne
          | succ m ih =>
            by_cases hm : (x.state (u + m)).npc = .send b []
            · rcases locked_idle (x.next (u + m)) hm with h | ⟨c', hc', -⟩ | h
              · exact absurd h hne
              · simp at hc'
              · exact ⟨u + m + 1, by omega, h⟩
            · exact ih hm
        | _ => exact ⟨u, by omega, by simp [EventSocket.State.locked, hn]⟩
      | succ n ihn =>
        intro u hu
        cases hn : (x.state u).npc with
        | send b rem =>
          obtain ⟨v, hv, hne⟩ := F1 u b rem hn
          obtain ⟨m, rfl⟩ := Nat.exists_eq_add_of_le hv
          have hlen : rem.length ≤ n + 1 := by simpa [EventSocket.State.rem, hn] using hu
          clear hv
          induction m with
          | zero => exact absurd hn hne
          | succ m ih =>
            by_cases hm : (x.state (u + m)).npc = .send b rem
            · rcases locked_idle (x.next (u + m)) hm with h | ⟨c', hc', h⟩ | h
              · exact absurd h hne
              · obtain ⟨w, hw, hl⟩ := ihn (u + m + 1) (by
                  rw [show u + m + 1 = (u + m) + 1 from rfl, EventSocket.State.rem, h]
                  simp only [List.length_erase_of_mem hc']; omega)
                exact ⟨w, by omega, hl⟩
              · exact ⟨u + m + 1, by omega, h⟩
            · exact ih hm
        | _ => exact ⟨u, by omega, by simp [EventSocket.State.locked, hn]⟩
    have hrec : ∀ u, ∃ v ≥ u, c ∈ (x.state v).removing ∧ (x.state v).locked = false := by
      intro u
      obtain ⟨v, hv, hl⟩ := hfree _ (max u t) (Nat.le_refl _)
      exact ⟨v, by omega, hpend v (by omega), hl⟩
    obtain ⟨v, hv, hch⟩ := F2 hrec t
    have hn := x.next v
    rw [hch] at hn
    have : c ∉ (x.state (v + 1)).clients := by
      simp only [stepOrIdle, EventSocket.State.step] at hn
      split at hn
      · simp at hn
      · split at hn
        · injection hn with hn; rw [← hn]; simp
        · simp at hn
    exact this (hin (v + 1) (by omega))

/-- C53 (partial: before the server is shut down; `C53_violated`). Emitting an event does not crash the process. -/
theorem C53_safe_partial (env : EventSocket.Env) (todo : List FlowEvent) (s : EventSocket.State) (h : Reachable env todo s)
    (hc : s.cancelled = false) : s.crashed = false := by
  have hi := EventSocket.inv_reachable h
  cases hcr : s.crashed with
  | false => rfl
  | true => have := hi.closed (hi.crashed hcr).1; rw [hc] at this; simp at this

/-- C53 violated, in general: once the server has closed its channel, the next event, whatever it is, crashes the process. -/
theorem C53_violated_always (env : EventSocket.Env) (s s' : EventSocket.State) (hcl : s.closed = true) (h : s.step env .produce = some s') :
    s'.crashed = true := by
  unfold EventSocket.State.step EventSocket.State.produce at h
  grind

/-- C53, exactly: a step crashes the process if and only if it is the emission of an event after the server has closed its channel. -/
theorem C53_exact (env : EventSocket.Env) (s s' : EventSocket.State) (ch : EventSocket.Choice) (h : s.step env ch = some s') :
    s'.crashed = true ↔ ch = .produce ∧ s.closed = true := by
  unfold EventSocket.State.step EventSocket.State.produce EventSocket.State.notify at h
  cases ch <;> grind

/-- One connection is closed at shutdown. -/
def exEvents : List FlowEvent := [⟨0, 1, "a", none⟩, ⟨1, 2, "a", none⟩]
/-- Every event has a JSON form; nobody stalls, or client 7. -/
def exEvEnv : EventSocket.Env := ⟨fun e => some [UInt8.ofNat e.timestamp.toNat], fun c => c = 7⟩

/-- Run a schedule. -/
def evRun (todo : List FlowEvent) (cs : List EventSocket.Choice) : Option EventSocket.State := (EventSocket.init todo).exec exEvEnv cs

/-- Client 3 comes first, client 1 after the first event, client 2 fails in the middle of the second. -/
def exEvSchedule : List EventSocket.Choice :=
  [.accept 3, .serve, .produce, .notify, .notify, .notify, .write 3, .notify, .accept 1, .serve, .accept 2, .serve, .produce, .notify, .notify, .notify,
    .fail 2 1, .write 1, .write 3, .notify, .remove 2]

example : (evRun exEvents exEvSchedule).map (fun s => [s.delivered 3, s.delivered 1, s.delivered 2]) = some [[1, 10, 2, 10], [2, 10], [2]] := by
  decide +kernel
example : (evRun exEvents exEvSchedule).map (fun s => ([s.regAt 1, s.failedAt 2, s.failedAt 1], s.clients)) = some ([some 1, some 1, none], [3, 1]) := by
  decide +kernel

theorem exec_take {env : EventSocket.Env} : ∀ (cs : List EventSocket.Choice) {s0 s : EventSocket.State}, s0.exec env cs = some s → ∀ t,
    ∃ s1, s0.exec env (cs.take t) = some s1 ∧ (∀ c, cs[t]? = some c → ∃ s2, s1.step env c = some s2 ∧ s0.exec env (cs.take (t + 1)) = some s2)
  | [], s0, s, h, t => ⟨s0, by simp [EventSocket.State.exec], by simp⟩
  | c0 :: cs, s0, s, h, 0 => by
    simp only [EventSocket.State.exec, Option.bind_eq_some_iff] at h
    obtain ⟨s1, h1, -⟩ := h
    exact ⟨s0, by simp [EventSocket.State.exec], by simp [EventSocket.State.exec, h1]⟩
  | c0 :: cs, s0, s, h, t + 1 => by
    simp only [EventSocket.State.exec, Option.bind_eq_some_iff] at h
    obtain ⟨s1, h1, h2⟩ := h
    obtain ⟨s2, h3, h4⟩ := exec_take cs h2 t
    refine ⟨s2, by simp [EventSocket.State.exec, h1, h3], ?_⟩
    intro c hc
    obtain ⟨s3, h5, h6⟩ := h4 c (by simpa using hc)
    exact ⟨s3, h5, by simp [EventSocket.State.exec, h1, h6]⟩

/-- A finite schedule, and then nothing any more. -/
def Execution.ofSchedule {env : EventSocket.Env} {todo : List FlowEvent} (cs : List EventSocket.Choice) (s : EventSocket.State)
    (h : (EventSocket.init todo).exec env cs = some s) : Execution env todo where
  state t := ((EventSocket.init todo).exec env (cs.take t)).getD s
  choice t := cs[t]?
  start := by simp [EventSocket.State.exec]
  next t := by
    obtain ⟨s1, h1, h2⟩ := exec_take cs h t
    rw [h1]
    cases hc : cs[t]? with
    | none =>
      have hl := List.getElem?_eq_none_iff.1 hc
      rw [List.take_of_length_le hl] at h1
      rw [List.take_of_length_le (by omega), h1]; rfl
    | some c => obtain ⟨s2, h3, h4⟩ := h2 c hc; rw [h4]; exact h3

-- the hypotheses of `C52_removed` are met by the schedule above, in which client 2 fails
example : ∃ (x : Execution exEvEnv exEvents) (t : Nat), (x.state t).failedAt 2 ≠ none
    ∧ (∀ t b rem, (x.state t).npc = .send b rem → ∃ t' ≥ t, (x.state t').npc ≠ .send b rem)
    ∧ ((∀ t, ∃ t' ≥ t, 2 ∈ (x.state t').removing ∧ (x.state t').locked = false) → ∀ t, ∃ t' ≥ t, x.choice t' = some (.remove 2)) := by
  have hd : (evRun exEvents exEvSchedule).any (fun s => s.npc == .check && s.removing == [] && s.failedAt 2 == some 1) = true := by decide +kernel
  cases hr : evRun exEvents exEvSchedule with
  | none => rw [hr] at hd; simp at hd
  | some s =>
    rw [hr] at hd
    simp at hd
    have hend : ∀ t ≥ exEvSchedule.length, (Execution.ofSchedule exEvSchedule s hr).state t = s := by
      intro t ht
      show ((EventSocket.init exEvents).exec exEvEnv (exEvSchedule.take t)).getD s = s
      rw [List.take_of_length_le ht, show (EventSocket.init exEvents).exec exEvEnv exEvSchedule = some s from hr]; rfl
    refine ⟨Execution.ofSchedule exEvSchedule s hr, exEvSchedule.length, ?_, ?_, ?_⟩
    · rw [hend _ (Nat.le_refl _), hd.2]; simp
    · intro t b rem _
      refine ⟨t + exEvSchedule.length, by omega, ?_⟩
      rw [hend _ (by omega), hd.1.1]; simp
    · intro hi
      obtain ⟨t', ht, hm, -⟩ := hi exEvSchedule.length
      rw [hend _ ht, hd.1.2] at hm
      simp at hm

/-- C53 violated: shutdown (the context is cancelled, the server cleans up), and then the close event of a connection that was still open. (A program that uses
the package can do this; `main` of this repository cancels its context only after the saver's last event, see `C89_no_crash`.) -/
theorem C53_violated : ∃ env todo s, Reachable env todo s ∧ s.emitted.length = 1 ∧ s.crashed = true := by
  have h : (evRun exEvents [.produce, .notify, .notify, .notify, .notify, .cancel, .cleanup, .produce]).any (fun s => s.emitted.length == 1 && s.crashed)
      = true := by decide +kernel
  cases hr : evRun exEvents [.produce, .notify, .notify, .notify, .notify, .cancel, .cleanup, .produce] with
  | none => rw [hr] at h; simp at h
  | some s => rw [hr] at h; simp at h; exact ⟨_, _, s, ⟨_, hr⟩, h.1, h.2⟩

/-! ## C61: stalled clients -/

/-- C61 (partial: no client stalls). Before shutdown, while the saver has something to emit or events wait in the channel, some step of the server or the
saver is possible: emission does not block for ever. -/
theorem C61_progress_partial (env : EventSocket.Env) (hst : ∀ c, env.stalled c = false) (todo : List FlowEvent) (s : EventSocket.State)
    (h : Reachable env todo s) (hc : s.cancelled = false) (hw : s.todo ≠ [] ∨ s.queue ≠ []) (hx : s.npc ≠ .exited) :
    ∃ ch s', (ch = .produce ∨ ch = .notify ∨ ∃ c, ch = .write c ∨ ch = .fail c 0) ∧ s.step env ch = some s' := by
  have hi := EventSocket.inv_reachable h
  have hcr := C53_safe_partial env todo s h hc
  have hcl : s.closed = false := by
    cases hcl : s.closed with
    | false => rfl
    | true => have := hi.closed hcl; rw [hc] at this; simp at this
  cases hn : s.npc with
  | exited => exact absurd hn hx
  | check => exact ⟨.notify, _, by simp, by simp [EventSocket.State.step, EventSocket.State.notify, hcr, hn]; rfl⟩
  | got e =>
    cases hm : env.marshal e with
    | none => exact ⟨.notify, _, by simp, by simp [EventSocket.State.step, EventSocket.State.notify, hcr, hn, hm]; rfl⟩
    | some b => exact ⟨.notify, _, by simp, by simp [EventSocket.State.step, EventSocket.State.notify, hcr, hn, hm]; rfl⟩
  | recv =>
    cases hq : s.queue with
    | cons e q => exact ⟨.notify, _, by simp, by simp [EventSocket.State.step, EventSocket.State.notify, hcr, hn, hq]; rfl⟩
    | nil =>
      cases ht : s.todo with
      | nil => simp [hq, ht] at hw
      | cons e t => exact ⟨.produce, _, by simp, by simp [EventSocket.State.step, EventSocket.State.produce, hcr, hcl, ht, hq]; rfl⟩
  | send b rem =>
    cases rem with
    | nil => exact ⟨.notify, _, by simp, by simp [EventSocket.State.step, EventSocket.State.notify, hcr, hn]; rfl⟩
    | cons c rem =>
      cases hf : s.failedAt c with
      | none => exact ⟨.write c, _, by simp, by simp [EventSocket.State.step, hcr, hn, hf, hst c]; rfl⟩
      | some j => exact ⟨.fail c 0, _, by simp, by simp [EventSocket.State.step, hcr, hn, hf]; rfl⟩

/-- While a stalled client's turn has not passed, every step leaves the distribution where it is. -/
theorem stalled_step {env : EventSocket.Env} {s s' : EventSocket.State} {ch : EventSocket.Choice} {b : Bytes} {rem : List Nat} {c : Nat}
    (hs : env.stalled c = true) (hn : s.npc = .send b rem) (hc : c ∈ rem) (hfail : ∀ k, ch ≠ .fail c k) (h : s.step env ch = some s') :
    (∃ rem', s'.npc = .send b rem' ∧ c ∈ rem') ∧ s'.distributed = s.distributed
      ∧ s'.emitted.length + s.queue.length = s.emitted.length + s'.queue.length := by
  have hne : ∀ d, d ≠ c → c ∈ rem.erase d := fun d hd => (List.mem_erase_of_ne (Ne.symm hd)).2 hc
  unfold EventSocket.State.step EventSocket.State.notify EventSocket.State.produce at h
  cases ch <;> grind

/-- C61 violated, in general: when the distribution of an event has reached a state in which a stalled client's turn is still to come, then as long as
that client neither reads nor goes away: no further event is ever distributed to anybody, and the saver can emit at most as many further events as are
free in the channel; then its next `FlowCreated` or `FlowDeleted` blocks, and with it the collection of data. -/
theorem C61_violated_blocked (env : EventSocket.Env) (c : Nat) (hs : env.stalled c = true) : ∀ (cs : List EventSocket.Choice)
    (todo : List FlowEvent) (s s' : EventSocket.State), Reachable env todo s → s.pending c → (∀ k, .fail c k ∉ cs) → s.exec env cs = some s' →
    s'.distributed = s.distributed ∧ s'.emitted.length + s.queue.length ≤ s.emitted.length + 100 := by
  intro cs todo s s' hr hp hf h
  suffices hk : s'.distributed = s.distributed ∧ s'.emitted.length + s.queue.length = s.emitted.length + s'.queue.length ∧ Reachable env todo s' by
    have := (EventSocket.inv_reachable hk.2.2).cap
    refine ⟨hk.1, ?_⟩
    simp only [EventSocket.chanCap] at this
    omega
  obtain ⟨b, rem, hn, hc⟩ := hp
  induction cs generalizing s rem with
  | nil => simp [EventSocket.State.exec] at h; subst h; exact ⟨rfl, rfl, hr⟩
  | cons ch cs ih =>
    simp only [EventSocket.State.exec, Option.bind_eq_some_iff] at h
    obtain ⟨s1, h1, h2⟩ := h
    obtain ⟨⟨rem', hn', hc'⟩, hd, hq⟩ := stalled_step hs hn hc (fun k e => hf k (by simp [e])) h1
    obtain ⟨cs0, h0⟩ := hr
    obtain ⟨i1, i2, i3⟩ := ih s1 ⟨cs0 ++ [ch], exec_snoc cs0 h0 h1⟩ (fun k hm => hf k (by simp [hm])) h2 rem' hn' hc'
    exact ⟨by rw [i1, hd], by omega, i3⟩

/-- C61 violated: the state of `C61_violated_blocked` is reached, with another client waiting. -/
theorem C61_violated : ∃ env todo s, Reachable env todo s ∧ env.stalled 7 = true ∧ s.pending 7 ∧ 1 ∈ s.clients ∧ s.failedAt 7 = none := by
  have h : (evRun exEvents [.accept 1, .serve, .accept 7, .serve, .produce, .notify, .notify, .notify]).any
      (fun s => s.npc == .send [1] [1, 7] && s.clients == [1, 7] && s.failedAt 7 == none) = true := by decide +kernel
  cases hr : evRun exEvents [.accept 1, .serve, .accept 7, .serve, .produce, .notify, .notify, .notify] with
  | none => rw [hr] at h; simp at h
  | some s =>
    rw [hr] at h; simp at h
    exact ⟨_, _, s, ⟨_, hr⟩, rfl, ⟨_, _, h.1.1, by simp⟩, by simp [h.1.2], h.2⟩

end TcpInfo
