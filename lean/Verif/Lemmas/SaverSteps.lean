import Verif.Model.Saver
import Verif.Lemmas.GoMap
import Verif.Lemmas.Record
import Verif.Props.Header
/-!
# The saver as a sequence of small steps

Every run of the saver is a sequence of `Step`s; invariants are then proved by cases on a step.
-/

namespace TcpInfo

theorem GoMap.set_set {α : Type} (m : GoMap α) (k : UInt64) (v v' : α) : (m.set k v).set k v' = m.set k v' := by
  have h : (m.set k v).del k = m.del k := by
    unfold GoMap.set GoMap.del
    rw [List.filter_cons]
    simp
  simp only [GoMap.set] at h ⊢
  rw [h]

/-- One elementary step of the saver goroutine. -/
inductive Step (env : Env) : Saver → Saver → Prop where
  /-- changes that concern neither connections nor output -/
  | other {s s' : Saver} : s'.conns = s.conns → s'.nextWriter = s.nextWriter → s'.trace = s.trace → s'.clock = s.clock →
      s.tick ≤ s'.tick → Step env s s'
  /-- reading the clock -/
  | clock (s : Saver) : Step env s (s.readClock env)
  /-- throughput observations -/
  | observe (s : Saver) (a : Action) : ((∃ n, a = .observeSent n) ∨ ∃ n, a = .observeReceived n) → Step env s (s.emit a)
  /-- a new connection -/
  | create (s : Saver) (k : UInt64) (idm : InetDiagMsg) (ts : Int) : s.conns.get k = none → k ≠ 0 → cookieOf idm = k →
      Step env s { s.emit (.flowCreated ts (env.uuid k) idm.id.getSockID) with conns := s.conns.set k (newConnection idm ts s.clock) }
  /-- an expired file is closed -/
  | closeExpired (s : Saver) (k : UInt64) (c : Conn) (w : Nat) : s.conns.get k = some c → c.writer = some w → c.expiration < s.clock →
      Step env s { s.emit (.send (queueOf env k) ⟨none, some w⟩) with conns := s.conns.set k { c with writer := none } }
  /-- rewriting a map entry with the same value -/
  | touch (s : Saver) (k : UInt64) (c : Conn) : s.conns.get k = some c → Step env s { s with conns := s.conns.set k c }
  /-- a new file -/
  | rotate (s : Saver) (k : UInt64) (c : Conn) (dir : String) : s.conns.get k = some c → c.writer = none →
      (c.sequence = 0 → dir = env.date c.startTime) → (c.sequence ≠ 0 → dir = env.date (env.wall s.clock)) →
      Step env s { s.emit (.openFile s.nextWriter ⟨dir, env.uuid c.id.cookieUint64, c.sequence⟩ (headerRecord env c)) with
        nextWriter := s.nextWriter + 1
        conns := s.conns.set k { c with writer := some s.nextWriter, expiration := c.expiration + tenMinutes, sequence := c.sequence + 1 } }
  /-- a record is queued -/
  | write (s : Saver) (k : UInt64) (c : Conn) (w : Nat) (msg : ArchivalRecord) (idm : InetDiagMsg) : s.conns.get k = some c → c.writer = some w →
      parseIDM msg.raw = .ok idm → cookieOf idm = k →
      (s.clock ≤ c.expiration ∨ ∃ t n h, s.trace.getLast? = some ⟨t, .openFile w n h⟩ ∧ n.uuid = env.uuid c.id.cookieUint64) →
      Step env s (s.emit (.send (queueOf env k) ⟨some msg, some w⟩))
  /-- end of a connection with an open file -/
  | endClose (s : Saver) (k : UInt64) (c : Conn) (w : Nat) : s.conns.get k = some c → c.writer = some w →
      Step env s { (s.emit (.flowDeleted (env.wall s.clock) (env.uuid k))).emit (.send (queueOf env k) ⟨none, some w⟩) with conns := s.conns.del k }
  /-- end of a connection without open file -/
  | endGone (s : Saver) (k : UInt64) : (∀ c, s.conns.get k = some c → c.writer = none) →
      Step env s (s.emit (.flowDeleted (env.wall s.clock) (env.uuid k)))

/-- Any number of steps. -/
inductive Steps (env : Env) : Saver → Saver → Prop where
  | refl (s : Saver) : Steps env s s
  | tail {s t u : Saver} : Steps env s t → Step env t u → Steps env s u

namespace Steps
theorem single {env : Env} {s t : Saver} (h : Step env s t) : Steps env s t := .tail (.refl s) h
theorem trans {env : Env} {s t u : Saver} (h : Steps env s t) (h' : Steps env t u) : Steps env s u := by
  induction h' with
  | refl => exact h
  | tail _ hs ih => exact .tail ih hs
theorem pre {env : Env} {s s' t : Saver} (h : Steps env s' t) (h1 : s'.conns = s.conns) (h2 : s'.nextWriter = s.nextWriter)
    (h3 : s'.trace = s.trace) (h4 : s'.clock = s.clock) (h5 : s.tick ≤ s'.tick) : Steps env s t :=
  (Steps.single (.other h1 h2 h3 h4 h5)).trans h
theorem post {env : Env} {s t t' : Saver} (h : Steps env s t) (h1 : t'.conns = t.conns) (h2 : t'.nextWriter = t.nextWriter)
    (h3 : t'.trace = t.trace) (h4 : t'.clock = t.clock) (h5 : t.tick ≤ t'.tick) : Steps env s t' :=
  .tail h (.other h1 h2 h3 h4 h5)
/-- Invariants. -/
theorem inv {env : Env} {P : Saver → Prop} (hp : ∀ s t, Step env s t → P s → P t) {s t : Saver} (h : Steps env s t) (hs : P s) : P t := by
  induction h with
  | refl => exact hs
  | tail _ hst ih => exact hp _ _ hst ih
end Steps

theorem steps_getConn (env : Env) (s : Saver) (k : UInt64) (idm : InetDiagMsg) (ts : Int) (hk0 : k ≠ 0) (hk : cookieOf idm = k) :
    Steps env s (s.getConn env k idm ts).1 ∧ (s.getConn env k idm ts).1.conns.get k = some (s.getConn env k idm ts).2 := by
  unfold Saver.getConn
  cases h : s.conns.get k with
  | some c => exact ⟨.refl _, h⟩
  | none =>
    refine ⟨?_, by simp [GoMap.get_set_self]⟩
    exact .tail (.single (.clock s)) (.create (s.readClock env) k idm ts h hk0 hk)

/-- Result of `closeExpired` with the map entry updated at once. -/
theorem steps_closeExpired (env : Env) (s : Saver) (k : UInt64) (c : Conn) (h : s.conns.get k = some c) :
    let r := s.closeExpired env k c
    Steps env s { r.1 with conns := r.1.conns.set k r.2 }
    ∧ (r.2.writer ≠ none → r.1.clock ≤ r.2.expiration) := by
  simp only [Saver.closeExpired]
  split
  · rename_i hc
    obtain ⟨w, hw⟩ := Option.isSome_iff_exists.1 hc.2
    refine ⟨?_, fun hn => absurd rfl hn⟩
    rw [hw]
    exact .tail (.single (.clock s)) (.closeExpired (s.readClock env) k c w h hw hc.1)
  · rename_i hc
    refine ⟨.tail (.single (.clock s)) (.touch (s.readClock env) k c h), fun hn => ?_⟩
    have : c.writer.isSome = true := by
      cases hcw : c.writer with
      | none => exact absurd hcw hn
      | some _ => rfl
    show (s.readClock env).clock ≤ c.expiration
    have : ¬ (c.expiration < (s.readClock env).clock) := fun hlt => hc ⟨hlt, this⟩
    omega

theorem steps_rotate (env : Env) (s : Saver) (k : UInt64) (c : Conn) (h : s.conns.get k = some c) (hw : c.writer = none) :
    let r := s.rotate env c
    Steps env s { r.1 with conns := r.1.conns.set k r.2.1 }
    ∧ (r.2.2 = none → ∃ t n hd, (r.1.trace.getLast? = some ⟨t, .openFile s.nextWriter n hd⟩ ∧ n.uuid = env.uuid r.2.1.id.cookieUint64) ∧ r.2.1.writer = some s.nextWriter) := by
  have hdir : ∃ s1 dir, s.rotateDir env c = (s1, dir) ∧ Steps env s s1 ∧ s1.conns = s.conns ∧ s1.nextWriter = s.nextWriter
      ∧ (c.sequence = 0 → dir = env.date c.startTime) ∧ (c.sequence ≠ 0 → dir = env.date (env.wall s1.clock)) := by
    unfold Saver.rotateDir
    split
    · rename_i hs
      exact ⟨_, _, rfl, .single (.clock s), rfl, rfl, fun h0 => by omega, fun _ => rfl⟩
    · rename_i hs
      exact ⟨_, _, rfl, .refl s, rfl, rfl, fun _ => rfl, fun h0 => by omega⟩
  obtain ⟨s1, dir, e, hst, hc, hn, hd0, hd1⟩ := hdir
  simp only [Saver.rotate, e]
  have hst2 : Steps env s { s1 with tick := s1.tick + 1 } := .tail hst (.other rfl rfl rfl rfl (by simp))
  split
  · refine ⟨?_, fun hx => by simp at hx⟩
    have hcw : ({ c with writer := none } : Conn) = c := by cases c; simp at hw; subst hw; rfl
    rw [hcw]
    exact .tail hst2 (.touch _ k c (by rw [hc]; exact h))
  · constructor
    · have := Step.rotate (env := env) { s1 with tick := s1.tick + 1 } k c dir (by rw [hc]; exact h) hw hd0 hd1
      exact .tail hst2 this
    · intro _
      simp only [Saver.emit, hn]
      exact ⟨_, _, _, ⟨List.getLast?_concat, rfl⟩, trivial⟩

theorem setConns_self (s : Saver) : { s with conns := s.conns } = s := by cases s; rfl

theorem steps_queue (env : Env) (s : Saver) (msg : ArchivalRecord) (s' : Saver) (e : Option GoErr) (h : s.queue env msg = some (s', e)) :
    Steps env s s' := by
  unfold Saver.queue at h
  cases hp : parseIDM msg.raw with
  | err _ => rw [hp] at h; simp at h
  | panic => rw [hp] at h; simp at h
  | ok idm =>
    rw [hp] at h
    simp only at h
    by_cases hk0 : cookieOf idm = 0
    · rw [if_pos hk0] at h
      injection h with h; injection h with h _; subst h; exact .refl _
    · rw [if_neg hk0] at h
      by_cases hm : env.marshallers < 1
      · rw [if_pos hm] at h
        injection h with h; injection h with h _; subst h; exact .refl _
      · rw [if_neg hm] at h
        obtain ⟨g1, g2⟩ := steps_getConn env s (cookieOf idm) idm msg.timestamp hk0 rfl
        generalize s.getConn env (cookieOf idm) idm msg.timestamp = sc at h g1 g2
        obtain ⟨f1, f2⟩ := steps_closeExpired env sc.1 (cookieOf idm) sc.2 g2
        generalize sc.1.closeExpired env (cookieOf idm) sc.2 = sc2 at h f1 f2
        have h12 := g1.trans f1
        clear g1 f1 g2
        -- the state with the entry written back
        by_cases hw : sc2.2.writer = none
        · rw [if_pos hw] at h
          -- rotate does not look at the map, so writing back first or last is the same
          have hcomm : ∀ m : GoMap Conn, Saver.rotate env { sc2.1 with conns := m } sc2.2 =
              ({ (sc2.1.rotate env sc2.2).1 with conns := m }, (sc2.1.rotate env sc2.2).2) := by
            intro m
            simp only [Saver.rotate, Saver.rotateDir, Saver.readClock, Saver.emit]
            by_cases hsq : sc2.2.sequence > 0
            · simp only [if_pos hsq]
              split <;> rfl
            · simp only [if_neg hsq]
              split <;> rfl
          have hconns : (sc2.1.rotate env sc2.2).1.conns = sc2.1.conns := by
            simp only [Saver.rotate, Saver.rotateDir, Saver.readClock, Saver.emit]
            by_cases hsq : sc2.2.sequence > 0
            · simp only [if_pos hsq]
              split <;> rfl
            · simp only [if_neg hsq]
              split <;> rfl
          have hr := steps_rotate env { sc2.1 with conns := sc2.1.conns.set (cookieOf idm) sc2.2 } (cookieOf idm) sc2.2
            (by simp [GoMap.get_set_self]) hw
          rw [hcomm] at hr
          simp only [GoMap.set_set] at hr
          obtain ⟨r1, r2⟩ := hr
          rw [hconns] at h
          cases herr : (sc2.1.rotate env sc2.2).2.2 with
          | some er =>
            simp only [herr] at h
            injection h with h; injection h with h _; subst h
            exact h12.trans r1
          | none =>
            simp only [herr] at h
            injection h with h; injection h with h _; subst h
            obtain ⟨t, n, hd, hl, hwr⟩ := r2 herr
            refine .tail (h12.trans r1) ?_
            rw [hwr]
            exact .write _ (cookieOf idm) (sc2.1.rotate env sc2.2).2.1 _ msg idm (by simp [GoMap.get_set_self]) hwr hp rfl
              (Or.inr ⟨t, n, hd, hl⟩)
        · rw [if_neg hw] at h
          simp only at h
          injection h with h; injection h with h _; subst h
          obtain ⟨w, hww⟩ : ∃ w, sc2.2.writer = some w := by
            cases hx : sc2.2.writer with
            | none => exact absurd hx hw
            | some w => exact ⟨w, rfl⟩
          refine .tail h12 ?_
          rw [hww]
          exact .write _ (cookieOf idm) sc2.2 w msg idm (by simp [GoMap.get_set_self]) hww hp rfl (Or.inl (f2 hw))

theorem steps_endConn (env : Env) (s : Saver) (k : UInt64) (s' : Saver) (h : s.endConn env k = some s') : Steps env s s' := by
  unfold Saver.endConn at h
  simp only at h
  split at h
  · simp at h
  · split at h
    · rename_i c hc
      split at h
      · rename_i hw
        obtain ⟨w, hw⟩ := Option.isSome_iff_exists.1 hw
        injection h with h; subst h
        rw [hw]
        exact .tail (.single (.clock s)) (.endClose (s.readClock env) k c w hc hw)
      · rename_i hw
        injection h with h; subst h
        refine .tail (.single (.clock s)) (.endGone (s.readClock env) k ?_)
        intro c' hc'
        have : c' = c := by
          have h1 : some c' = some c := hc'.symm.trans hc
          injection h1
        subst this
        cases hcw : c'.writer with
        | none => rfl
        | some w => simp [hcw] at hw
    · rename_i hc
      injection h with h; subst h
      refine .tail (.single (.clock s)) (.endGone (s.readClock env) k ?_)
      intro c' hc'
      have h1 : some c' = none := hc'.symm.trans hc
      simp at h1

theorem steps_swapAndQueue (env : Env) (s : Saver) (pm : ArchivalRecord) (s' : Saver) (h : s.swapAndQueue env pm = some s') : Steps env s s' := by
  unfold Saver.swapAndQueue at h
  simp only at h
  split at h
  · simp at h
  · injection h with h; subst h; exact .single (.other rfl rfl rfl rfl (Nat.le_refl _))
  · rename_i c hc
    obtain ⟨⟨s1, e⟩, hq, rfl⟩ := Option.map_eq_some_iff.1 h
    exact (steps_queue env _ pm _ e hq).pre rfl rfl rfl rfl (Nat.le_refl _)
  · rename_i c cached hc
    split at h
    · simp at h
    · injection h with h; subst h; exact .single (.other rfl rfl rfl rfl (by simp))
    · rename_i idm hp
      have hcl : ∀ (s0 : Saver) k old, Steps env s0 (s0.recordClosing k pm old) := by
        intro s0 k old
        unfold Saver.recordClosing
        split
        · exact .single (.other rfl rfl rfl rfl (Nat.le_refl _))
        · exact .refl _
      split at h
      · simp at h
      · injection h with h; subst h
        exact (hcl _ _ _).pre rfl rfl rfl rfl (Nat.le_succ _)
      · split at h
        · obtain ⟨⟨s1, e⟩, hq, rfl⟩ := Option.map_eq_some_iff.1 h
          have q := steps_queue env _ pm _ e hq
          have q' : Steps env (Saver.recordClosing _ (cookieOf idm) pm (env.view s.tick cached)) _ := q.pre rfl rfl rfl rfl (Nat.le_refl _)
          exact ((hcl _ _ _).trans q').pre rfl rfl rfl rfl (Nat.le_succ _)
        · injection h with h; subst h
          exact (hcl _ _ _).pre rfl rfl rfl rfl (Nat.le_succ _)

theorem steps_handleType (env : Env) (t : Int) (msgs : List (Option NetlinkMessage)) (s : Saver) (a b : UInt64) (r : Saver × UInt64 × UInt64)
    (h : s.handleType env t msgs a b = some r) : Steps env s r.1 := by
  induction msgs generalizing s a b with
  | nil => simp only [Saver.handleType] at h; injection h with h; subst h; exact .refl _
  | cons m msgs ih =>
    cases m with
    | none => exact ih s a b h
    | some msg =>
      simp only [Saver.handleType] at h
      split at h
      · simp at h
      · exact ih s a b h
      · exact ih s a b h
      · split at h
        · simp at h
        · rename_i s1 hs
          exact (steps_swapAndQueue env s _ s1 hs).trans (ih s1 _ _ h)

theorem steps_expire (env : Env) (res : GoMap ArchivalRecord) (l : LoopState) (k : UInt64) (l' : LoopState)
    (h : l.expire env res k = some l') : Steps env l.svr l'.svr := by
  unfold LoopState.expire at h
  split at h
  · injection h with h; subst h; exact .refl _
  · rename_i cached hg
    simp only at h
    split at h
    · simp at h
    · rename_i s1 hs
      injection h with h; subst h
      refine Steps.post (Steps.trans ?_ (steps_endConn env _ k _ hs)) rfl rfl rfl rfl (Nat.le_refl _)
      unfold Saver.finalStats
      split
      · split
        · exact .single (.other rfl rfl rfl rfl (Nat.le_succ _))
        · exact .single (.other rfl rfl rfl rfl (Nat.le_succ _))
      · exact .single (.other rfl rfl rfl rfl (Nat.le_succ _))

theorem steps_expireAll (env : Env) (res : GoMap ArchivalRecord) (ks : List UInt64) (l l' : LoopState)
    (h : LoopState.expireAll env res ks l = some l') : Steps env l.svr l'.svr := by
  induction ks generalizing l with
  | nil => simp only [LoopState.expireAll] at h; injection h with h; subst h; exact .refl _
  | cons k ks ih =>
    simp only [LoopState.expireAll] at h
    obtain ⟨l1, h1, h2⟩ := Option.bind_eq_some_iff.1 h
    exact (steps_expire env res l k l1 h1).trans (ih l1 h2)

theorem steps_report (env : Env) (l : LoopState) (t : Int) (a b c d : UInt64) : Steps env l.svr (l.report t a b c d).svr := by
  unfold LoopState.report
  split
  · simp only
    split
    · split
      · exact .refl _
      · exact .single (.observe _ _ (Or.inr ⟨_, rfl⟩))
    · split
      · exact .single (.observe _ _ (Or.inl ⟨_, rfl⟩))
      · exact .tail (.single (.observe _ _ (Or.inl ⟨_, rfl⟩))) (.observe _ _ (Or.inr ⟨_, rfl⟩))
  · exact .refl _

theorem steps_block (env : Env) (l : LoopState) (b : MessageBlock) (l' : LoopState) (h : l.block env b = some l') : Steps env l.svr l'.svr := by
  unfold LoopState.block at h
  split at h
  · simp at h
  · rename_i s4 a1 b1 h4
    split at h
    · simp at h
    · rename_i s6 a2 b2 h6
      simp only at h
      split at h
      · simp at h
      · rename_i l1 he
        injection h with h; subst h
        have e1 := steps_handleType env _ _ _ _ _ _ h4
        have e2 := steps_handleType env _ _ _ _ _ _ h6
        refine ((e1.trans e2).trans ?_).trans (steps_report env _ _ _ _ _ _)
        refine Steps.trans ?_ (steps_expireAll env _ _ _ _ he)
        exact .single (.other rfl rfl rfl rfl (by simp))

theorem steps_blocks (env : Env) (bs : List MessageBlock) (l l' : LoopState) (h : LoopState.blocks env bs l = some l') :
    Steps env l.svr l'.svr := by
  induction bs generalizing l with
  | nil => simp only [LoopState.blocks] at h; injection h with h; subst h; exact .refl _
  | cons b bs ih =>
    simp only [LoopState.blocks] at h
    obtain ⟨l1, h1, h2⟩ := Option.bind_eq_some_iff.1 h
    exact (steps_block env l b l1 h1).trans (ih l1 h2)

/-- Every run of the saver loop is a sequence of small steps. -/
theorem steps_run (env : Env) (bs : List MessageBlock) (l : LoopState) (h : runBlocks env bs = some l) : Steps env newSaver l.svr :=
  steps_blocks env bs newLoop l h

theorem steps_endAll (env : Env) (ks : List UInt64) (s s' : Saver) (h : Saver.endAll env ks s = some s') : Steps env s s' := by
  induction ks generalizing s with
  | nil => simp only [Saver.endAll] at h; injection h with h; subst h; exact .refl _
  | cons k ks ih =>
    simp only [Saver.endAll] at h
    obtain ⟨l1, h1, h2⟩ := Option.bind_eq_some_iff.1 h
    exact (steps_endConn env s k l1 h1).trans (ih l1 h2)

/-- A complete run: small steps, then the closing of the channels. -/
theorem steps_runSaver (env : Env) (bs : List MessageBlock) (s : Saver) (h : runSaver env bs = some s) :
    ∃ l s1, runBlocks env bs = some l ∧ Saver.endAll env (env.order l.svr.tick l.svr.conns.keys) { l.svr with tick := l.svr.tick + 1 } = some s1
      ∧ s = s1.emit .closeChans ∧ Steps env newSaver s1 := by
  obtain ⟨l, h1, h2⟩ := Option.bind_eq_some_iff.1 h
  obtain ⟨s1, h3, rfl⟩ := Option.map_eq_some_iff.1 h2
  refine ⟨l, s1, h1, h3, rfl, ?_⟩
  refine (steps_run env bs l h1).trans (Steps.trans ?_ (steps_endAll env _ _ _ h3))
  exact .single (.other rfl rfl rfl rfl (by simp))

end TcpInfo
