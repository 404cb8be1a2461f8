import Verif.Lemmas.SaverSteps
import Verif.Spec.Trace
import Verif.Spec.Cache
/-!
# Invariants of the saver over small steps
-/

namespace TcpInfo
open Spec

/-! ## Files -/

theorem fileEvents_snoc (w : Nat) (tr : List Stamped) (a : Stamped) :
    fileEvents w (tr ++ [a]) = fileEvents w tr ++ (fileEvent w a.act).toList := by
  unfold fileEvents
  rw [List.filterMap_append]
  cases h : fileEvent w a.act <;> simp [h]

/-- A file owned by connection `k`: header with its UUID, records with its cookie. -/
structure Owned (env : Env) (k : UInt64) (n : FileName) (h : ArchivalRecord) (ws : List ArchivalRecord) : Prop where
  name : n.uuid = env.uuid k
  header : ∃ st, h = { timestamp := zeroTime, rawIDM := none, attributes := none, metadata := some ⟨env.uuid k, n.sequence, st⟩ }
  recs : ∀ r ∈ ws, ∃ idm, parseIDM r.raw = .ok idm ∧ cookieOf idm = k

/-- State of file number `w`. -/
def FileState (env : Env) (s : Saver) (w : Nat) : Prop :=
  ∃ k n h ws, Owned env k n h ws ∧
    ((fileEvents w s.trace = .opened n h :: ws.map (.wrote (queueOf env k))
        ∧ (∃ c, s.conns.get k = some c ∧ c.writer = some w)
        ∧ (∀ k' c, s.conns.get k' = some c → c.writer = some w → k' = k))
     ∨ (fileEvents w s.trace = .opened n h :: ws.map (.wrote (queueOf env k)) ++ [.closed (queueOf env k)]
        ∧ ∀ k' c, s.conns.get k' = some c → c.writer ≠ some w))

/-- The file invariant. -/
structure FInv (env : Env) (s : Saver) : Prop where
  wf : GoMap.WF s.conns
  cookie : ∀ k c, s.conns.get k = some c → c.id.cookieUint64 = k
  bound : ∀ k c w, s.conns.get k = some c → c.writer = some w → w < s.nextWriter
  files : ∀ w, w < s.nextWriter → FileState env s w
  fresh : ∀ w, s.nextWriter ≤ w → fileEvents w s.trace = []

theorem finv_new (env : Env) : FInv env newSaver :=
  ⟨GoMap.wf_nil, fun k c h => by simp [newSaver, GoMap.get] at h, fun k c w h => by simp [newSaver, GoMap.get] at h,
   fun w h => by simp [newSaver] at h, fun w _ => rfl⟩

/-- Steps that keep the connections' writers and add nothing to files keep file states. -/
theorem fileState_frame {env : Env} {s s' : Saver} {w : Nat} (h : FileState env s w) (he : fileEvents w s'.trace = fileEvents w s.trace)
    (hc : ∀ k, (s'.conns.get k).map (·.writer) = (s.conns.get k).map (·.writer) ∨
      ((∀ c, s.conns.get k = some c → c.writer ≠ some w) ∧ ∀ c, s'.conns.get k = some c → c.writer ≠ some w)) : FileState env s' w := by
  have fwd : ∀ k c, s.conns.get k = some c → c.writer = some w → ∃ c', s'.conns.get k = some c' ∧ c'.writer = some w := by
    intro k c h1 h2
    rcases hc k with h | ⟨h, -⟩
    · rw [h1] at h
      cases h3 : s'.conns.get k with
      | none => rw [h3] at h; simp at h
      | some c' => rw [h3] at h; simp at h; exact ⟨c', rfl, h.trans h2⟩
    · exact absurd h2 (h c h1)
  have bwd : ∀ k c, s'.conns.get k = some c → c.writer = some w → ∃ c', s.conns.get k = some c' ∧ c'.writer = some w := by
    intro k c h1 h2
    rcases hc k with h | ⟨-, h⟩
    · rw [h1] at h
      cases h3 : s.conns.get k with
      | none => rw [h3] at h; simp at h
      | some c' => rw [h3] at h; simp at h; exact ⟨c', rfl, h.symm.trans h2⟩
    · exact absurd h2 (h c h1)
  obtain ⟨k, n, hd, ws, ho, hh⟩ := h
  refine ⟨k, n, hd, ws, ho, ?_⟩
  rw [he]
  rcases hh with ⟨a1, ⟨c, a2, a3⟩, a4⟩ | ⟨a1, a2⟩
  · refine Or.inl ⟨a1, fwd k c a2 a3, ?_⟩
    intro k' c' b1 b2
    obtain ⟨c2, d1, d2⟩ := bwd k' c' b1 b2
    exact a4 k' c2 d1 d2
  · refine Or.inr ⟨a1, ?_⟩
    intro k' c' b1 b2
    obtain ⟨c2, d1, d2⟩ := bwd k' c' b1 b2
    exact a2 k' c2 d1 d2

theorem finv_step (env : Env) (s t : Saver) (hst : Step env s t) (hi : FInv env s) : FInv env t := by
  cases hst with
  | other h1 h2 h3 h4 h5 =>
    refine ⟨h1 ▸ hi.wf, h1 ▸ hi.cookie, ?_, ?_, ?_⟩
    · rw [h1, h2]; exact hi.bound
    · rw [h2]; intro w hw
      exact fileState_frame (hi.files w hw) (by rw [h3]) (fun k => Or.inl (by rw [h1]))
    · rw [h2, h3]; exact hi.fresh
  | clock =>
    exact ⟨hi.wf, hi.cookie, hi.bound, fun w hw => fileState_frame (hi.files w hw) rfl (fun k => Or.inl rfl), hi.fresh⟩
  | observe a ha =>
    have he : ∀ w, fileEvents w (s.emit a).trace = fileEvents w s.trace := by
      intro w
      simp only [Saver.emit, fileEvents_snoc]
      rcases ha with ⟨n, rfl⟩ | ⟨n, rfl⟩ <;> simp [fileEvent]
    exact ⟨hi.wf, hi.cookie, hi.bound, fun w hw => fileState_frame (hi.files w hw) (he w) (fun k => Or.inl rfl),
      fun w hw => (he w).trans (hi.fresh w hw)⟩
  | create k idm ts hn hk0 hk =>
    have he : ∀ w, fileEvents w (s.trace ++ [⟨s.clock, .flowCreated ts (env.uuid k) idm.id.getSockID⟩]) = fileEvents w s.trace := by
      intro w; simp [fileEvents_snoc, fileEvent]
    refine ⟨GoMap.wf_set hi.wf _ _, ?_, ?_, ?_, fun w hw => (he w).trans (hi.fresh w hw)⟩
    · intro k' c hc
      simp only [Saver.emit, GoMap.get_set] at hc
      split at hc
      · rename_i hkk; injection hc with hc; subst hc; subst hkk
        rw [← hk]; simp [newConnection, LinuxSockID.getSockID, SockID.cookieUint64, cookieOf]
      · exact hi.cookie k' c hc
    · intro k' c w hc hw
      simp only [Saver.emit, GoMap.get_set] at hc
      split at hc
      · injection hc with hc; subst hc; simp [newConnection] at hw
      · exact hi.bound k' c w hc hw
    · intro w hw
      refine fileState_frame (hi.files w hw) (he w) ?_
      intro k'
      by_cases hkk : k' = k
      · subst hkk
        refine Or.inr ⟨fun c h => by rw [hn] at h; simp at h, fun c h => ?_⟩
        simp only [GoMap.get_set_self] at h
        injection h with h; subst h; simp [newConnection]
      · exact Or.inl (by simp [Saver.emit, GoMap.get_set_ne _ _ hkk])
  | closeExpired k c w hk hw hexp =>
    have he : ∀ w', w' ≠ w → fileEvents w' (s.trace ++ [⟨s.clock, .send (queueOf env k) ⟨none, some w⟩⟩]) = fileEvents w' s.trace := by
      intro w' hne; simp [fileEvents_snoc, fileEvent, Ne.symm hne]
    have hb := hi.bound k c w hk hw
    have hothers : ∀ k' c', k' ≠ k → s.conns.get k' = some c' → c'.writer ≠ some w := by
      intro k' c' hne h1 h2
      obtain ⟨k0, n, hd, ws, ho, hh⟩ := hi.files w hb
      rcases hh with ⟨-, -, a4⟩ | ⟨-, a2⟩
      · exact hne ((a4 k' c' h1 h2).trans (a4 k c hk hw).symm)
      · exact a2 k c hk hw
    refine ⟨GoMap.wf_set hi.wf _ _, ?_, ?_, ?_, ?_⟩
    · intro k' c' hc'
      simp only [Saver.emit, GoMap.get_set] at hc'
      split at hc'
      · rename_i hkk; injection hc' with hc'; subst hc'; subst hkk; exact hi.cookie k' c hk
      · exact hi.cookie k' c' hc'
    · intro k' c' w' hc' hw'
      simp only [Saver.emit, GoMap.get_set] at hc'
      split at hc'
      · injection hc' with hc'; subst hc'; simp at hw'
      · exact hi.bound k' c' w' hc' hw'
    · intro w' hw'
      by_cases hww : w' = w
      · subst hww
        obtain ⟨k0, n, hd, ws, ho, hh⟩ := hi.files w' hw'
        rcases hh with ⟨a1, -, a4⟩ | ⟨-, a2⟩
        · have hk0 : k = k0 := a4 k c hk hw
          subst hk0
          refine ⟨k, n, hd, ws, ho, Or.inr ⟨?_, ?_⟩⟩
          · simp [Saver.emit, fileEvents_snoc, a1, fileEvent]
          · intro k' c' hc' hw2
            simp only [Saver.emit, GoMap.get_set] at hc'
            split at hc'
            · injection hc' with hc'; subst hc'; simp at hw2
            · rename_i hne; exact hothers k' c' hne hc' hw2
        · exact absurd hw (a2 k c hk)
      · refine fileState_frame (hi.files w' hw') (he w' hww) ?_
        intro k'
        by_cases hkk : k' = k
        · subst hkk
          refine Or.inr ⟨fun c' h => ?_, fun c' h => ?_⟩
          · rw [hk] at h; injection h with h; subst h
            rw [hw]; intro hx; injection hx with hx; exact hww hx.symm
          · simp only [GoMap.get_set_self] at h
            injection h with h; subst h; simp
        · exact Or.inl (by simp [Saver.emit, GoMap.get_set_ne _ _ hkk])
    · intro w' hw'
      have hww : w' ≠ w := by
        rintro rfl
        exact absurd hb (Nat.not_lt.2 hw')
      exact (he w' hww).trans (hi.fresh w' hw')
  | touch k c hk =>
    have hg : ∀ k', (s.conns.set k c).get k' = s.conns.get k' := by
      intro k'
      rw [GoMap.get_set]
      split
      · rename_i h; subst h; exact hk.symm
      · rfl
    refine ⟨GoMap.wf_set hi.wf _ _, ?_, ?_, ?_, hi.fresh⟩
    · intro k' c' hc'; exact hi.cookie k' c' (by rw [← hg]; exact hc')
    · intro k' c' w' hc'; exact hi.bound k' c' w' (by rw [← hg]; exact hc')
    · intro w hw
      exact fileState_frame (hi.files w hw) rfl (fun k' => Or.inl (by simp [hg]))
  | rotate k c dir hk hw hd0 hd1 =>
    have hck := hi.cookie k c hk
    have he : ∀ w', w' ≠ s.nextWriter → fileEvents w' (s.trace ++ [⟨s.clock, .openFile s.nextWriter ⟨dir, env.uuid c.id.cookieUint64, c.sequence⟩ (headerRecord env c)⟩])
        = fileEvents w' s.trace := by
      intro w' hne; simp [fileEvents_snoc, fileEvent, Ne.symm hne]
    refine ⟨GoMap.wf_set hi.wf _ _, ?_, ?_, ?_, ?_⟩
    · intro k' c' hc'
      simp only [Saver.emit, GoMap.get_set] at hc'
      split at hc'
      · rename_i hkk; injection hc' with hc'; subst hc'; subst hkk; exact hck
      · exact hi.cookie k' c' hc'
    · intro k' c' w' hc' hw'
      simp only [Saver.emit, GoMap.get_set] at hc' ⊢
      split at hc'
      · injection hc' with hc'; subst hc'; simp at hw'; omega
      · have := hi.bound k' c' w' hc' hw'; omega
    · intro w' hw'
      simp only [Saver.emit] at hw'
      by_cases hww : w' = s.nextWriter
      · subst hww
        refine ⟨k, ⟨dir, env.uuid c.id.cookieUint64, c.sequence⟩, headerRecord env c, [], ⟨?_, ?_, ?_⟩, Or.inl ⟨?_, ?_, ?_⟩⟩
        · simp [hck]
        · exact ⟨c.startTime, by simp [headerRecord, hck]⟩
        · simp
        · simp [Saver.emit, fileEvents_snoc, hi.fresh s.nextWriter (Nat.le_refl _), fileEvent]
        · exact ⟨_, GoMap.get_set_self _ _ _, rfl⟩
        · intro k' c' hc' hw2
          simp only [Saver.emit, GoMap.get_set] at hc'
          split at hc'
          · assumption
          · exact absurd (hi.bound k' c' _ hc' hw2) (Nat.lt_irrefl _)
      · refine fileState_frame (hi.files w' (by omega)) (he w' hww) ?_
        intro k'
        by_cases hkk : k' = k
        · subst hkk
          refine Or.inr ⟨fun c' h => ?_, fun c' h => ?_⟩
          · rw [hk] at h; injection h with h; subst h
            rw [hw]; simp
          · simp only [GoMap.get_set_self] at h
            injection h with h; subst h
            intro hx; injection hx with hx; exact hww hx.symm
        · exact Or.inl (by simp [Saver.emit, GoMap.get_set_ne _ _ hkk])
    · intro w' hw'
      simp only [Saver.emit] at hw'
      exact (he w' (by omega)).trans (hi.fresh w' (by omega))
  | write k c w msg idm hk hw hp hck hexp =>
    have he : ∀ w', w' ≠ w → fileEvents w' (s.trace ++ [⟨s.clock, .send (queueOf env k) ⟨some msg, some w⟩⟩]) = fileEvents w' s.trace := by
      intro w' hne; simp [fileEvents_snoc, fileEvent, Ne.symm hne]
    have hb := hi.bound k c w hk hw
    refine ⟨hi.wf, hi.cookie, hi.bound, ?_, ?_⟩
    · intro w' hw'
      by_cases hww : w' = w
      · subst hww
        obtain ⟨k0, n, hd, ws, ho, hh⟩ := hi.files w' hw'
        rcases hh with ⟨a1, a2, a4⟩ | ⟨-, a2⟩
        · have hk0 : k = k0 := a4 k c hk hw
          subst hk0
          refine ⟨k, n, hd, ws ++ [msg], ⟨ho.name, ho.header, ?_⟩, Or.inl ⟨?_, a2, a4⟩⟩
          · intro r hr
            rcases List.mem_append.1 hr with hr | hr
            · exact ho.recs r hr
            · have : r = msg := by simpa using hr
              subst this; exact ⟨idm, hp, hck⟩
          · simp [Saver.emit, fileEvents_snoc, a1, fileEvent]
        · exact absurd hw (a2 k c hk)
      · exact fileState_frame (hi.files w' hw') (he w' hww) (fun k => Or.inl rfl)
    · intro w' hw'
      have hww : w' ≠ w := by
        rintro rfl
        exact absurd hb (Nat.not_lt.2 hw')
      exact (he w' hww).trans (hi.fresh w' hw')
  | endClose k c w hk hw =>
    have he : ∀ w', w' ≠ w → fileEvents w' ((s.trace ++ [⟨s.clock, .flowDeleted (env.wall s.clock) (env.uuid k)⟩]) ++ [⟨s.clock, .send (queueOf env k) ⟨none, some w⟩⟩])
        = fileEvents w' s.trace := by
      intro w' hne
      rw [fileEvents_snoc, fileEvents_snoc]
      simp [fileEvent, Ne.symm hne]
    have hb := hi.bound k c w hk hw
    refine ⟨GoMap.wf_del hi.wf _, ?_, ?_, ?_, ?_⟩
    · intro k' c' hc'
      simp only [Saver.emit, GoMap.get_del] at hc'
      split at hc'
      · simp at hc'
      · exact hi.cookie k' c' hc'
    · intro k' c' w' hc' hw'
      simp only [Saver.emit, GoMap.get_del] at hc'
      split at hc'
      · simp at hc'
      · exact hi.bound k' c' w' hc' hw'
    · intro w' hw'
      by_cases hww : w' = w
      · subst hww
        obtain ⟨k0, n, hd, ws, ho, hh⟩ := hi.files w' hw'
        rcases hh with ⟨a1, -, a4⟩ | ⟨-, a2⟩
        · have hk0 : k = k0 := a4 k c hk hw
          subst hk0
          refine ⟨k, n, hd, ws, ho, Or.inr ⟨?_, ?_⟩⟩
          · simp only [Saver.emit]
            rw [fileEvents_snoc, fileEvents_snoc]
            simp [a1, fileEvent]
          · intro k' c' hc' hw2
            simp only [Saver.emit, GoMap.get_del] at hc'
            split at hc'
            · simp at hc'
            · rename_i hne
              exact hne (a4 k' c' hc' hw2)
        · exact absurd hw (a2 k c hk)
      · refine fileState_frame (hi.files w' hw') (he w' hww) ?_
        intro k'
        by_cases hkk : k' = k
        · subst hkk
          refine Or.inr ⟨fun c' h => ?_, fun c' h => ?_⟩
          · rw [hk] at h; injection h with h; subst h
            rw [hw]; intro hx; injection hx with hx; exact hww hx.symm
          · simp only [GoMap.get_del_self] at h
            simp at h
        · exact Or.inl (by simp [Saver.emit, GoMap.get_del_ne _ hkk])
    · intro w' hw'
      have hww : w' ≠ w := by
        rintro rfl
        exact absurd hb (Nat.not_lt.2 hw')
      exact (he w' hww).trans (hi.fresh w' hw')
  | endGone k hg =>
    have he : ∀ w', fileEvents w' (s.trace ++ [⟨s.clock, .flowDeleted (env.wall s.clock) (env.uuid k)⟩]) = fileEvents w' s.trace := by
      intro w'; simp [fileEvents_snoc, fileEvent]
    exact ⟨hi.wf, hi.cookie, hi.bound, fun w hw => fileState_frame (hi.files w hw) (he w) (fun k => Or.inl rfl),
      fun w hw => (he w).trans (hi.fresh w hw)⟩

theorem finv_run {env : Env} {s : Saver} (h : Steps env newSaver s) : FInv env s := h.inv (finv_step env) (finv_new env)

end TcpInfo
