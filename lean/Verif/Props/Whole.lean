import Verif.Lemmas.Whole
import Verif.Props.Process
import Verif.Props.Subscriber
/-!
# Properties C89, C90 and C91: the process with its event server
-/

namespace TcpInfo
open Spec
open EventSocket (FlowEvent good text)

/-! ## C89 -/

/-- C89 (and C53). In the process as `main` builds it, under every schedule, emitting an event never crashes: the server closes its channel only after `main`
has passed `svr.Done.Wait()`, and then the saver has made all its calls. -/
theorem C89_no_crash (me : MEnv) (env : Env) (senv : EventSocket.Env) (bs : List MessageBlock) (cs : List WChoice) (w : Whole)
    (hr : runWhole me env senv bs cs = some w) :
    w.srv.crashed = false ∧ (w.srv.closed = true → w.proc.pc = .returned ∧ w.proc.m.rem = []) := by
  have hi := runWhole_inv hr
  refine ⟨hi.alive, fun hcl => ?_⟩
  have hpc := hi.cancelled ((EventSocket.inv_reachable hi.srv).closed hcl)
  obtain ⟨ps, hps⟩ := hi.proc
  obtain ⟨_, _, _, _, _, h6, _⟩ := returned_all (runProc_inv hps) hpc
  exact ⟨hpc, h6⟩

/-- C89. The event server does not change what is archived: the collector, the saver and the marshallers go through a run of the process without event server
(to which C73, C74 and C75 apply), and the server through one of a server that is given the events of the saver, in order (to which C51, C52, C54 and C66
apply). -/
theorem C89_parts (me : MEnv) (env : Env) (senv : EventSocket.Env) (bs : List MessageBlock) (s : Saver) (h : runSaver env bs = some s)
    (hm : 0 < env.marshallers) (hm' : env.marshallers < 2 ^ 64) (cs : List WChoice) (w : Whole) (hr : runWhole me env senv bs cs = some w) :
    (∃ ps, runProc me env bs ps = some w.proc)
      ∧ ∃ rest, saverEvents s.trace = w.srv.emitted ++ rest ∧ EventSocket.Reachable senv (saverEvents s.trace) { w.srv with todo := rest } := by
  have hi := runWhole_inv hr
  obtain ⟨ps, hps⟩ := hi.proc
  obtain ⟨rest, h1, h2⟩ := whole_reachable hi h (C73_returns me env bs s h hm hm' ps w.proc hps).2.1
  refine ⟨⟨ps, hps⟩, rest, h1, ?_⟩
  have : w.srv.more rest = { w.srv with todo := rest } := by unfold EventSocket.State.more; rw [hi.todo]; rfl
  rw [← this]; exact h2

/-! ## C90 -/

/-- C90 (partial: up to 101 events can be missing; `C90_violated`). When `main` has returned, the saver has emitted all its events; a client that was added
when `k` events had been distributed and to which no write has failed has received, in order and complete, the lines of all further events, except for the
last ones, at most 101. -/
theorem C90_received_partial (me : MEnv) (env : Env) (senv : EventSocket.Env) (bs : List MessageBlock) (cs : List WChoice) (w : Whole)
    (hr : runWhole me env senv bs cs = some w) (hp : w.proc.pc = .returned) (c k : Nat) (hk : w.srv.regAt c = some k) (hf : w.srv.failedAt c = none) :
    ∃ s n, runSaver env bs = some s ∧ w.srv.emitted = saverEvents s.trace
      ∧ w.srv.delivered c = text senv (((good senv (saverEvents s.trace)).take n).drop k) ∧ (good senv (saverEvents s.trace)).length ≤ n + 101 := by
  have hi := runWhole_inv hr
  obtain ⟨ps, hps⟩ := hi.proc
  have hpi := runProc_inv hps
  obtain ⟨s, _, h1, _, _, h6, _, _, h9⟩ := returned_all hpi hp
  have hem : w.srv.emitted = saverEvents s.trace := by
    have := hi.events (hpi.back hp).2
    rw [h6, h9] at this
    simpa [actionEvents] using this.symm
  have hinv := EventSocket.inv_reachable hi.srv
  obtain ⟨r1, r2⟩ := C51_received senv _ w.srv hi.srv c k hk hf
  have hord := hinv.order
  rw [hem, List.append_assoc] at hord
  have hgq : (good senv w.srv.queue).length ≤ 100 := Nat.le_trans (List.length_filter_le _ _) hinv.cap
  have hlen : (good senv (saverEvents s.trace)).length = w.srv.distributed.length + ((w.srv.inHand senv).length + (good senv w.srv.queue).length) := by
    rw [← hord]; simp
  by_cases hpend : w.srv.pending c
  · obtain ⟨g1, g2⟩ := r2 hpend
    obtain ⟨b, rem, hn, -⟩ := hpend
    refine ⟨s, w.srv.distributed.length - 1, h1, hem, ?_, ?_⟩
    · rw [g2, ← hord, List.take_append_of_le_length (by omega), List.dropLast_eq_take]
    · have : w.srv.inHand senv = [] := by unfold EventSocket.State.inHand; rw [hn]
      rw [hlen, this]; simp; omega
  · obtain ⟨g1, g2⟩ := r1 hpend
    refine ⟨s, w.srv.distributed.length, h1, hem, ?_, ?_⟩
    · rw [g2, ← hord, List.take_append_of_le_length (Nat.le_refl _), List.take_length]
    · have : (w.srv.inHand senv).length ≤ 1 := by
        unfold EventSocket.State.inHand
        cases w.srv.npc with
        | got e => exact List.length_filter_le _ _
        | _ => simp
      omega

/-! ## C91 -/

/-- C91 (partial: no client stalls; `C91_violated`). Whatever the clients do otherwise (connect, read, fail), under every schedule: the process does not
crash, and from every state that can be reached `main` can still return. -/
theorem C91_can_return_partial (me : MEnv) (env : Env) (senv : EventSocket.Env) (hst : ∀ c, senv.stalled c = false) (bs : List MessageBlock) (s : Saver)
    (h : runSaver env bs = some s) (hm : 0 < env.marshallers) (hm' : env.marshallers < 2 ^ 64) (cs : List WChoice) (w : Whole)
    (hr : runWhole me env senv bs cs = some w) :
    w.proc.m.crashed = false ∧ ∃ cs' w', runWhole me env senv bs (cs ++ cs') = some w' ∧ w'.proc.pc = .returned := by
  have hok : ∀ {w : Whole}, WInv me env senv bs w → w.proc.m.crashed = false := by
    intro w hi
    obtain ⟨ps, hps⟩ := hi.proc
    exact (C73_returns me env bs s h hm hm' ps w.proc hps).2.1
  refine ⟨hok (runWhole_inv hr), ?_⟩
  suffices key : ∀ k w, WInv me env senv bs w → pcost s.trace.length w.proc ≤ k → ∃ cs' w', Whole.exec me env senv cs' w = some w' ∧ w'.proc.pc = .returned by
    obtain ⟨cs', w', h1, h2⟩ := key _ w (runWhole_inv hr) (Nat.le_refl _)
    refine ⟨cs', w', ?_, h2⟩
    unfold runWhole at hr ⊢
    rw [whole_append, hr]; exact h1
  intro k
  induction k with
  | zero =>
    intro w hi hk
    have := hok hi
    simp [pcost, cost, this] at hk
  | succ k ih =>
    intro w hi hk
    have hc := hok hi
    obtain ⟨ps, hps⟩ := hi.proc
    have hpi := runProc_inv hps
    by_cases hret : w.proc.pc = .returned
    · exact ⟨[], w, rfl, hret⟩
    have hn : ¬ ∀ c, w.proc.step me env c = none := fun hn => hret (pstuck hpi h hm hm' hc hn)
    obtain ⟨c, hcc⟩ := Classical.not_forall.1 hn
    obtain ⟨p, hp⟩ := Option.ne_none_iff_exists'.1 hcc
    have hcost := (pstep_ok hpi h hm hm' c hp).2
    -- some schedule makes the process take this step
    have hstep : ∃ cs1 w1, Whole.exec me env senv cs1 w = some w1 ∧ w1.proc = p := by
      by_cases hev : c = .saver ∧ ∃ e, w.proc.m.rem.head?.bind eventOfAction = some e
      · obtain ⟨rfl, e, he⟩ := hev
        have hca : w.srv.cancelled = false := by
          cases hx : w.srv.cancelled with
          | false => rfl
          | true => exact absurd (hi.cancelled hx) hret
        -- room in the channel first
        have hroom : ∃ cs0 s0, (∀ ch ∈ cs0, Notifying ch) ∧ w.srv.exec senv cs0 = some s0 ∧ s0.queue.length < EventSocket.chanCap ∧ Quiet w.srv s0 := by
          by_cases hl : w.srv.queue.length < EventSocket.chanCap
          · exact ⟨[], w.srv, by simp, rfl, hl, ⟨rfl, rfl, rfl, rfl⟩⟩
          · have hcap := (EventSocket.inv_reachable hi.srv).cap
            obtain ⟨cs0, s0, g1, g2, g3, g4⟩ := drain senv hst w.srv hi.alive hca
              (fun hx => by rw [exited_cancelled hi.srv hx] at hca; simp at hca) (by intro hq; rw [hq] at hl; simp at hl)
            exact ⟨cs0, s0, g1, g2, by omega, g4⟩
        obtain ⟨cs0, s0, g1, g2, g3, g4⟩ := hroom
        have hlift := lift_srv me env senv cs0 w s0 g1 hc g2
        have hi0 := winv_exec _ hi hlift
        have hcl : s0.closed = false := by
          cases hx : s0.closed with
          | false => rfl
          | true => have := (EventSocket.inv_reachable hi0.srv).closed hx; simp only at this; rw [g4.cancelled, hca] at this; simp at this
        refine ⟨cs0.map .srv ++ [.proc .saver], ⟨p, { s0 with todo := [], emitted := s0.emitted ++ [e], queue := s0.queue ++ [e] }⟩, ?_, rfl⟩
        rw [whole_append, hlift]
        have hcr : s0.crashed = false := hi0.alive
        have : EventSocket.State.step senv .produce { s0 with todo := [e] } = some { s0 with todo := [], emitted := s0.emitted ++ [e], queue := s0.queue ++ [e] } := by
          unfold EventSocket.State.step EventSocket.State.produce
          simp only
          rw [if_neg (by simp [hcr]), if_neg (by simp [hcl]), if_pos g3]
        simp only [Option.bind_some, Whole.exec, Whole.step]
        rw [if_neg (by simp [hcr, hc])]
        rw [he]
        simp only [Whole.emit, this]
        rw [if_neg (by simp [hcr]), hp]
        rfl
      · refine ⟨[.proc c], { w with proc := p }, ?_, rfl⟩
        simp only [Whole.exec]
        have : w.step me env senv (.proc c) = some { w with proc := p } := by
          unfold Whole.step
          rw [if_neg (by simp [hi.alive, hc])]
          cases c with
          | saver =>
            simp only
            cases he : w.proc.m.rem.head?.bind eventOfAction with
            | some e => exact absurd ⟨rfl, e, he⟩ hev
            | none => simp [hp]
          | main => simp [hp]
          | worker i => simp [hp]
        rw [this]; rfl
    obtain ⟨cs1, w1, e1, e2⟩ := hstep
    obtain ⟨cs2, w2, e3, e4⟩ := ih w1 (winv_exec _ hi e1) (by rw [e2]; omega)
    exact ⟨cs1 ++ cs2, w2, by rw [whole_append, e1]; exact e3, e4⟩

/-- C91 violated, in general: once the distribution of an event has reached a client that does not read, and more events are to come than fit into the
channel, then as long as this client neither reads nor goes away `main` does not return, under any schedule, and nobody receives a further event. (By C73 the
collector, the saver and the marshallers can make a finite number of steps only, so the whole process stands still.) -/
theorem C91_violated_hangs (me : MEnv) (env : Env) (senv : EventSocket.Env) (bs : List MessageBlock) (s : Saver) (h : runSaver env bs = some s)
    (cs0 : List WChoice) (w : Whole) (hr : runWhole me env senv bs cs0 = some w)
    (c : Nat) (hs : senv.stalled c = true) (hp : w.srv.pending c) (hmany : w.srv.emitted.length + 100 < (saverEvents s.trace).length + w.srv.queue.length)
    (cs : List WChoice) (w' : Whole) (hf : ∀ k, .srv (.fail c k) ∉ cs) (hx : Whole.exec me env senv cs w = some w') :
    w'.proc.pc ≠ .returned ∧ w'.srv.distributed = w.srv.distributed := by
  have hi := runWhole_inv hr
  obtain ⟨b, rem, hn, hc⟩ := hp
  have key : ∀ (cs : List WChoice) (w : Whole) (rem : List Nat), WInv me env senv bs w → (∀ k, .srv (.fail c k) ∉ cs) → w.srv.npc = .send b rem → c ∈ rem →
      Whole.exec me env senv cs w = some w' →
      w'.srv.distributed = w.srv.distributed ∧ w'.srv.emitted.length + w.srv.queue.length = w.srv.emitted.length + w'.srv.queue.length
        ∧ WInv me env senv bs w' := by
    intro cs
    induction cs with
    | nil => intro w rem hi _ _ _ hx; simp only [Whole.exec, Option.some.injEq] at hx; subst hx; exact ⟨rfl, rfl, hi⟩
    | cons ch cs ih =>
      intro w rem hi hf hn hc hx
      simp only [Whole.exec] at hx
      obtain ⟨w1, h1, h2⟩ := Option.bind_eq_some_iff.1 hx
      have hi1 := winv_step hi ch h1
      have hone : (∃ rem', w1.srv.npc = .send b rem' ∧ c ∈ rem') ∧ w1.srv.distributed = w.srv.distributed
          ∧ w1.srv.emitted.length + w.srv.queue.length = w.srv.emitted.length + w1.srv.queue.length := by
        unfold Whole.step at h1
        split at h1
        · simp at h1
        rename_i hlive
        have hlive : w.proc.m.crashed = false := by
          cases hc : w.proc.m.crashed with
          | false => rfl
          | true => simp [hc] at hlive
        split at h1
        · split at h1
          · rename_i e he
            obtain ⟨-, p, -, -, -, hsrv⟩ := winv_emit hi he hlive h1
            rw [hsrv]
            exact ⟨⟨rem, hn, hc⟩, rfl, by simp; omega⟩
          · obtain ⟨p, -, e⟩ := Option.map_eq_some_iff.1 h1
            subst e
            exact ⟨⟨rem, hn, hc⟩, rfl, rfl⟩
        · obtain ⟨p, -, e⟩ := Option.map_eq_some_iff.1 h1
          subst e
          exact ⟨⟨rem, hn, hc⟩, rfl, rfl⟩
        · simp at h1
        · split at h1
          · obtain ⟨sv, hsv, e⟩ := Option.map_eq_some_iff.1 h1
            subst e
            exact stalled_step hs hn hc (by simp) hsv
          · simp at h1
        · rename_i d _ _
          obtain ⟨sv, hsv, e⟩ := Option.map_eq_some_iff.1 h1
          subst e
          exact stalled_step hs hn hc (fun k e => hf k (by simp [e])) hsv
      obtain ⟨⟨rem', hn', hc'⟩, hd, hq⟩ := hone
      obtain ⟨i1, i2, i3⟩ := ih w1 rem' hi1 (fun k hm => hf k (by simp [hm])) hn' hc' h2
      exact ⟨by rw [i1, hd], by omega, i3⟩
  obtain ⟨k1, k2, k3⟩ := key cs w rem hi hf hn hc hx
  refine ⟨fun hret => ?_, k1⟩
  obtain ⟨ps, hps⟩ := k3.proc
  have hpi := runProc_inv hps
  obtain ⟨s', _, g1, _, _, g6, _, _, g9⟩ := returned_all hpi hret
  rw [h] at g1
  injection g1 with g1
  have hem := k3.events (hpi.back hret).2
  rw [g6, g9, ← g1] at hem
  simp only [actionEvents, List.filterMap_nil, List.append_nil] at hem
  have hcap := (EventSocket.inv_reachable k3.srv).cap
  simp only [EventSocket.chanCap] at hcap
  rw [hem] at hmany
  omega

/-- What is in the channel has been emitted. -/
theorem queue_emitted {senv : EventSocket.Env} {es : List FlowEvent} {s : EventSocket.State} (h : EventSocket.Reachable senv es s) :
    s.queue.length ≤ s.emitted.length := by
  obtain ⟨cs, h⟩ := h
  have key : ∀ (cs : List EventSocket.Choice) (s0 s : EventSocket.State), s0.queue.length ≤ s0.emitted.length → s0.exec senv cs = some s →
      s.queue.length ≤ s.emitted.length := by
    intro cs
    induction cs with
    | nil => intro s0 s h0 h; simp only [EventSocket.State.exec, Option.some.injEq] at h; subst h; exact h0
    | cons c cs ih =>
      intro s0 s h0 h
      simp only [EventSocket.State.exec, Option.bind_eq_some_iff] at h
      obtain ⟨s1, h1, h2⟩ := h
      refine ih s1 s ?_ h2
      unfold EventSocket.State.step EventSocket.State.notify EventSocket.State.produce at h1
      cases c <;> grind
  exact key cs _ s (by simp [EventSocket.init]) h

/-- C91 (partial: as many events as the channel has room for). If the events still to come fit into the server's channel, `main` can return, whatever the
clients do or do not do: without a single step of the server or of a client. -/
theorem C91_fits_partial (me : MEnv) (env : Env) (senv : EventSocket.Env) (bs : List MessageBlock) (s : Saver) (h : runSaver env bs = some s)
    (hm : 0 < env.marshallers) (hm' : env.marshallers < 2 ^ 64) (cs : List WChoice) (w : Whole) (hr : runWhole me env senv bs cs = some w)
    (hfit : (saverEvents s.trace).length + w.srv.queue.length ≤ w.srv.emitted.length + 100) :
    ∃ (ps : List PChoice) (w' : Whole), Whole.exec me env senv (ps.map .proc) w = some w' ∧ w'.proc.pc = .returned := by
  have hok : ∀ {w : Whole}, WInv me env senv bs w → w.proc.m.crashed = false := by
    intro w hi
    obtain ⟨ps, hps⟩ := hi.proc
    exact (C73_returns me env bs s h hm hm' ps w.proc hps).2.1
  suffices key : ∀ k w, WInv me env senv bs w → (saverEvents s.trace).length + w.srv.queue.length ≤ w.srv.emitted.length + 100 →
      pcost s.trace.length w.proc ≤ k → ∃ (ps : List PChoice) (w' : Whole), Whole.exec me env senv (ps.map .proc) w = some w' ∧ w'.proc.pc = .returned from
    key _ w (runWhole_inv hr) hfit (Nat.le_refl _)
  intro k
  induction k with
  | zero =>
    intro w hi _ hk
    have := hok hi
    simp [pcost, cost, this] at hk
  | succ k ih =>
    intro w hi hfit hk
    have hc := hok hi
    obtain ⟨ps, hps⟩ := hi.proc
    have hpi := runProc_inv hps
    by_cases hret : w.proc.pc = .returned
    · exact ⟨[], w, rfl, hret⟩
    have hn : ¬ ∀ c, w.proc.step me env c = none := fun hn => hret (pstuck hpi h hm hm' hc hn)
    obtain ⟨c, hcc⟩ := Classical.not_forall.1 hn
    obtain ⟨p, hp⟩ := Option.ne_none_iff_exists'.1 hcc
    have hcost := (pstep_ok hpi h hm hm' c hp).2
    have hstep : ∃ w1, w.step me env senv (.proc c) = some w1 ∧ w1.proc = p
        ∧ (saverEvents s.trace).length + w1.srv.queue.length ≤ w1.srv.emitted.length + 100 := by
      by_cases hev : c = .saver ∧ ∃ e, w.proc.m.rem.head?.bind eventOfAction = some e
      · obtain ⟨rfl, e, he⟩ := hev
        have hcl : w.srv.closed = false := by
          cases hx : w.srv.closed with
          | false => rfl
          | true => exact absurd (hi.cancelled ((EventSocket.inv_reachable hi.srv).closed hx)) hret
        have hcr : w.srv.crashed = false := hi.alive
        have hmore : w.srv.emitted.length < (saverEvents s.trace).length := by
          obtain ⟨⟨tl, htl⟩, -, -⟩ := loop_prefix hpi h hc
          have h1 : (saverEvents w.proc.loop.svr.trace).length ≤ (saverEvents s.trace).length := by
            rw [← htl]; unfold saverEvents; rw [List.filterMap_append]; simp
          rw [hi.events hc, List.length_append] at h1
          have h2 : 0 < (actionEvents w.proc.m.rem).length := by
            cases hq : w.proc.m.rem with
            | nil => rw [hq] at he; simp at he
            | cons a rest =>
              rw [hq] at he
              have : eventOfAction a = some e := by simpa using he
              simp [actionEvents, this]
          omega
        have hroom : w.srv.queue.length < EventSocket.chanCap := by simp only [EventSocket.chanCap]; omega
        have hpr : EventSocket.State.step senv .produce { w.srv with todo := [e] } =
            some { w.srv with todo := [], emitted := w.srv.emitted ++ [e], queue := w.srv.queue ++ [e] } := by
          unfold EventSocket.State.step EventSocket.State.produce
          simp only
          rw [if_neg (by simp [hcr]), if_neg (by simp [hcl]), if_pos hroom]
        refine ⟨⟨p, { w.srv with todo := [], emitted := w.srv.emitted ++ [e], queue := w.srv.queue ++ [e] }⟩, ?_, rfl, by simp; omega⟩
        unfold Whole.step
        rw [if_neg (by simp [hcr, hc])]
        simp only [he, Whole.emit, hpr]
        rw [if_neg (by simp [hcr]), hp]
        rfl
      · refine ⟨{ w with proc := p }, ?_, rfl, hfit⟩
        unfold Whole.step
        rw [if_neg (by simp [hi.alive, hc])]
        cases c with
        | saver =>
          simp only
          cases he : w.proc.m.rem.head?.bind eventOfAction with
          | some e => exact absurd ⟨rfl, e, he⟩ hev
          | none => simp [hp]
        | main => simp [hp]
        | worker i => simp [hp]
    obtain ⟨w1, e1, e2, e3⟩ := hstep
    obtain ⟨ps2, w2, e4, e5⟩ := ih w1 (winv_step hi _ e1) e3 (by rw [e2]; omega)
    refine ⟨c :: ps2, w2, ?_, e5⟩
    simp only [List.map_cons, Whole.exec, e1]
    exact e4

/-- C91, exactly: once the distribution of an event has reached a client that does not read, then, as long as this client neither reads nor goes away, `main`
can return if and only if the events still to come fit into the channel. -/
theorem C91_exact (me : MEnv) (env : Env) (senv : EventSocket.Env) (bs : List MessageBlock) (s : Saver) (h : runSaver env bs = some s)
    (hm : 0 < env.marshallers) (hm' : env.marshallers < 2 ^ 64) (cs0 : List WChoice) (w : Whole) (hr : runWhole me env senv bs cs0 = some w)
    (c : Nat) (hs : senv.stalled c = true) (hp : w.srv.pending c) :
    (∃ cs w', (∀ k, .srv (.fail c k) ∉ cs) ∧ Whole.exec me env senv cs w = some w' ∧ w'.proc.pc = .returned)
      ↔ (saverEvents s.trace).length + w.srv.queue.length ≤ w.srv.emitted.length + 100 := by
  constructor
  · rintro ⟨cs, w', hf, hx, hret⟩
    rcases Nat.lt_or_ge (w.srv.emitted.length + 100) ((saverEvents s.trace).length + w.srv.queue.length) with hl | hl
    · exact absurd hret (C91_violated_hangs me env senv bs s h cs0 w hr c hs hp hl cs w' hf hx).1
    · exact hl
  · intro hfit
    obtain ⟨ps, w', h1, h2⟩ := C91_fits_partial me env senv bs s h hm hm' cs0 w hr hfit
    exact ⟨ps.map .proc, w', fun k hk => by simp at hk, h1, h2⟩

/-- C91 (partial): with at most a hundred events in the whole run, no client can stop the collection. -/
theorem C91_few_partial (me : MEnv) (env : Env) (senv : EventSocket.Env) (bs : List MessageBlock) (s : Saver) (h : runSaver env bs = some s)
    (hm : 0 < env.marshallers) (hm' : env.marshallers < 2 ^ 64) (hfew : (saverEvents s.trace).length ≤ 100) (cs : List WChoice) (w : Whole)
    (hr : runWhole me env senv bs cs = some w) :
    ∃ (ps : List PChoice) (w' : Whole), runWhole me env senv bs (cs ++ ps.map .proc) = some w' ∧ w'.proc.pc = .returned := by
  have hq : w.srv.queue.length ≤ w.srv.emitted.length := by
    exact queue_emitted (runWhole_inv hr).srv
  obtain ⟨ps, w', h1, h2⟩ := C91_fits_partial me env senv bs s h hm hm' cs w hr (by omega)
  refine ⟨ps, w', ?_, h2⟩
  unfold runWhole at hr ⊢
  rw [whole_append, hr]; exact h1
/-! ## Examples -/

/-- Run a schedule, skipping choices that are not possible. -/
def wholeSkip (me : MEnv) (env : Env) (senv : EventSocket.Env) : List WChoice → Whole → List WChoice × Whole
  | [], w => ([], w)
  | c :: cs, w => match w.step me env senv c with
    | none => wholeSkip me env senv cs w
    | some w' => let r := wholeSkip me env senv cs w'; (c :: r.1, r.2)

/-- Client 5 connects; then the goroutines take turns, with (or without) the server. -/
def wholeTurns (withServer : Bool) : List WChoice :=
  [.srv (.accept 5), .srv .serve] ++ (List.range 40).flatMap (fun _ => [.proc .main, .proc .saver, .proc (.worker 0), .proc (.worker 1), .proc (.worker 2)]
    ++ if withServer then [.srv .notify, .srv (.write 5)] else [])

def exWhole (withServer : Bool) : Option Whole := runWhole exJsonEnv exEnv exClientEnv exBlocks
  (wholeSkip exJsonEnv exEnv exClientEnv (wholeTurns withServer) (wholeInit exBlocks 3)).1

-- two connections, four events; all have been delivered when `main` returns
example : (exWhole true).map (fun w => (w.proc.pc, w.srv.emitted.length, w.srv.distributed.length, w.srv.regAt 5, w.srv.failedAt 5)) =
    some (.returned, 4, 4, some 0, none) := by decide +kernel

/-- C90 violated: `main` does not wait for the event server. Two connections, four events, a client that was connected from the start and reads: when `main`
returns it has received none of them. -/
theorem C90_violated : ∃ cs w, runWhole exJsonEnv exEnv exClientEnv exBlocks cs = some w ∧ w.proc.pc = .returned ∧ w.srv.regAt 5 = some 0
    ∧ w.srv.failedAt 5 = none ∧ w.srv.emitted.length = 4 ∧ w.srv.delivered 5 = [] := by
  have h : (exWhole false).any (fun w => decide (w.proc.pc = .returned ∧ w.srv.regAt 5 = some 0 ∧ w.srv.failedAt 5 = none ∧ w.srv.emitted.length = 4
      ∧ w.srv.delivered 5 = [])) = true := by decide +kernel
  cases hr : exWhole false with
  | none => rw [hr] at h; simp at h
  | some w =>
    rw [hr] at h
    simp only [Option.any_some, decide_eq_true_eq] at h
    exact ⟨_, w, hr, h⟩

/-- One poll with fifty-one connections. -/
def lateBlocks : List MessageBlock := [exBlock 1600000000000000000 ((List.range 51).map (fun i => exMsg (UInt8.ofNat (i + 1)) 0 1))]

/-- The main goroutine, the saver and the marshallers take turns. -/
def procTurns (n : Nat) : List WChoice :=
  (List.range n).flatMap (fun _ => [.proc .main, .proc .saver, .proc (.worker 0), .proc (.worker 1), .proc (.worker 2)])

/-- Client 5 connects, the first event is written to it, the second is taken from the channel; then the server is not scheduled any more. -/
def lateTurns : List WChoice :=
  [.srv (.accept 5), .srv .serve] ++ procTurns 4 ++ [.srv .notify, .srv .notify, .srv .notify, .srv (.write 5), .srv .notify]
    ++ procTurns 6 ++ [.srv .notify, .srv .notify, .srv .notify] ++ procTurns 400

def exLate : Option Whole := runWhole exJsonEnv exEnv exClientEnv lateBlocks
  (wholeSkip exJsonEnv exEnv exClientEnv lateTurns (wholeInit lateBlocks 3)).1

/-- C90 violated as far as `C90_received_partial` allows, so that its bound cannot be improved: of 102 events, the client has received the first when `main`
returns, and 101 are missing: a hundred in the channel and one about to be written. -/
theorem C90_violated_most : ∃ cs w s, runWhole exJsonEnv exEnv exClientEnv lateBlocks cs = some w ∧ runSaver exEnv lateBlocks = some s ∧ w.proc.pc = .returned
    ∧ w.srv.regAt 5 = some 0 ∧ w.srv.failedAt 5 = none ∧ (good exClientEnv (saverEvents s.trace)).length = 102
    ∧ w.srv.delivered 5 = text exClientEnv ((good exClientEnv (saverEvents s.trace)).take 1) := by
  have h : (exLate).any (fun w => (runSaver exEnv lateBlocks).any (fun s => decide (w.proc.pc = .returned ∧ w.srv.regAt 5 = some 0 ∧ w.srv.failedAt 5 = none
      ∧ (good exClientEnv (saverEvents s.trace)).length = 102
      ∧ w.srv.delivered 5 = text exClientEnv ((good exClientEnv (saverEvents s.trace)).take 1)))) = true := by decide +kernel
  cases hr : exLate with
  | none => rw [hr] at h; simp at h
  | some w =>
    cases hs : runSaver exEnv lateBlocks with
    | none => rw [hs] at h; simp at h
    | some s =>
      rw [hr, hs] at h
      simp only [Option.any_some, decide_eq_true_eq] at h
      exact ⟨_, w, s, hr, rfl, h⟩

/-- One poll with sixty connections. -/
def manyBlocks : List MessageBlock := [exBlock 1600000000000000000 ((List.range 60).map (fun i => exMsg (UInt8.ofNat (i + 1)) 0 1))]
/-- Client 7 does not read. -/
def stalledEnv : EventSocket.Env := ⟨EventSocket.marshalEvent (fun _ => 0), fun c => c = 7⟩
/-- It connects, and the first event is distributed. -/
def stalledSchedule : List WChoice :=
  [.srv (.accept 7), .srv .serve, .proc .main, .proc .saver, .proc .saver, .proc .saver, .srv .notify, .srv .notify, .srv .notify]

/-- C91 violated: sixty connections and one client that does not read. After nine steps the situation of `C91_violated_hangs` is there: whatever happens
then, `main` never returns, unless that client goes away. -/
theorem C91_violated : ∃ w, runWhole exJsonEnv exEnv stalledEnv manyBlocks stalledSchedule = some w
    ∧ ∀ cs w', (∀ k, .srv (.fail 7 k) ∉ cs) → Whole.exec exJsonEnv exEnv stalledEnv cs w = some w' → w'.proc.pc ≠ .returned := by
  have hs : (runSaver exEnv manyBlocks).any (fun s => (saverEvents s.trace).length == 120) = true := by decide +kernel
  have hw : (runWhole exJsonEnv exEnv stalledEnv manyBlocks stalledSchedule).any (fun w => w.srv.rem == [7] && w.srv.emitted.length == 1 && w.srv.queue.length == 0)
      = true := by decide +kernel
  cases hr : runSaver exEnv manyBlocks with
  | none => rw [hr] at hs; simp at hs
  | some s =>
    cases hx : runWhole exJsonEnv exEnv stalledEnv manyBlocks stalledSchedule with
    | none => rw [hx] at hw; simp at hw
    | some w =>
      rw [hr] at hs
      rw [hx] at hw
      simp only [Option.any_some, beq_iff_eq, Bool.and_eq_true] at hs hw
      obtain ⟨⟨h1, h2⟩, h3⟩ := hw
      have hp : w.srv.pending 7 := by
        unfold EventSocket.State.rem at h1
        cases hn : w.srv.npc with
        | send b rem => rw [hn] at h1; simp only at h1; exact ⟨b, rem, hn, by rw [h1]; simp⟩
        | _ => rw [hn] at h1; simp at h1
      exact ⟨w, rfl, fun cs w' hf he => (C91_violated_hangs _ _ _ _ s hr _ w hx 7 (by simp [stalledEnv]) hp (by omega) cs w' hf he).1⟩

-- with two connections the events fit into the channel (`C91_few_partial`); with the sixty of `C91_violated` they do not, once the first has been distributed
example : (runSaver exEnv exBlocks).map (fun s => decide ((saverEvents s.trace).length ≤ 100)) = some true := by decide +kernel
example : (runWhole exJsonEnv exEnv stalledEnv exBlocks stalledSchedule).map (fun w => (w.srv.rem, w.srv.emitted.length, w.srv.queue.length)) = some ([7], 1, 0) := by
  decide +kernel

end TcpInfo
