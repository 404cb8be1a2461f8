import Verif.Lemmas.SaverInv
/-!
# The life of a connection's files
-/

namespace TcpInfo
open Spec

/-- The monotonic clock never goes back, and begins at 0 or later. (Go guarantees it; the wall clock is `Env.wall`.) -/
def MonoClock (env : Env) : Prop := 0 ≤ env.now 0 ∧ ∀ i j, i ≤ j → env.now i ≤ env.now j

theorem lifeRun_snoc (b : Bool) (u : String) (st : Option Life) (tr : List Stamped) (a : Stamped) :
    lifeRun b u st (tr ++ [a]) = (lifeRun b u st tr).bind (fun st => lifeStep b u st a) := by
  induction tr generalizing st with
  | nil =>
    show (lifeStep b u st a).bind (fun st => some st) = _
    simp [lifeRun]
  | cons x tr ih =>
    simp only [List.cons_append, lifeRun]
    cases lifeStep b u st x with
    | none => rfl
    | some st' => exact ih st'

/-- What the monitor state says about connection `c`. -/
structure LifeOK (s : Saver) (c : Conn) (st : Option Life) (l : Life) : Prop where
  some : st = some l
  start : l.start = c.startTime
  files : l.files = c.sequence
  exp : c.expiration = l.created + tenMinutes * l.files
  rot : c.writer = none → l.files ≠ 0 → c.expiration < s.clock
  cur : c.writer ≠ none → l.current = c.writer
  fresh : ∀ t n h w, s.trace.getLast? = .some ⟨t, .openFile w n h⟩ → l.current = .some w → l.fresh = true

/-- The invariant for connection `k`. -/
structure LInv (env : Env) (k : UInt64) (s : Saver) : Prop where
  fi : FInv env s
  clk : ∀ t, s.tick ≤ t → s.clock ≤ env.now t
  life : ∃ st, lifeRun true (env.uuid k) none s.trace = some st ∧
    (∀ c, s.conns.get k = some c → ∃ l, LifeOK s c st l) ∧ (∀ l w, st = some l → l.current = some w → w < s.nextWriter ∧ ∀ k' c, s.conns.get k' = some c → c.writer = some w → k' = k)

theorem linv_new (env : Env) (k : UInt64) (h : MonoClock env) : LInv env k newSaver :=
  ⟨finv_new env, fun t _ => Int.le_trans h.1 (h.2 0 t (Nat.zero_le _)), none, rfl, fun c hc => by simp [newSaver, GoMap.get] at hc,
    fun l w h => by simp at h⟩

theorem linv_step (env : Env) (hm : MonoClock env) (k : UInt64) (s t : Saver) (hst : Step env s t) (hi : LInv env k s) : LInv env k t := by
  have hfi := finv_step env s t hst hi.fi
  obtain ⟨st, hr, hc, hb⟩ := hi.life
  cases hst with
  | other h1 h2 h3 h4 h5 =>
    refine ⟨hfi, fun t' ht => h4 ▸ hi.clk t' (Nat.le_trans h5 ht), st, h3 ▸ hr, ?_, h2 ▸ h1 ▸ hb⟩
    intro c hcc
    obtain ⟨l, h⟩ := hc c (h1 ▸ hcc)
    exact ⟨l, h.some, h.start, h.files, h.exp, h4 ▸ h.rot, h.cur, h3 ▸ h.fresh⟩
  | clock =>
    refine ⟨hfi, fun t' ht => ?_, st, hr, ?_, hb⟩
    · exact hm.2 _ _ (Nat.le_of_succ_le ht)
    · intro c hcc
      obtain ⟨l, h⟩ := hc c hcc
      refine ⟨l, h.some, h.start, h.files, h.exp, ?_, h.cur, h.fresh⟩
      intro h1 h2
      exact Int.lt_of_lt_of_le (h.rot h1 h2) (hi.clk _ (Nat.le_refl _))
  | observe a ha =>
    have he : lifeRun true (env.uuid k) none (s.emit a).trace = some st := by
      simp only [Saver.emit, lifeRun_snoc, hr]
      rcases ha with ⟨n, rfl⟩ | ⟨n, rfl⟩ <;> simp [lifeStep]
    refine ⟨hfi, hi.clk, st, he, ?_, hb⟩
    intro c hcc
    obtain ⟨l, h⟩ := hc c hcc
    refine ⟨l, h.some, h.start, h.files, h.exp, h.rot, h.cur, ?_⟩
    intro t n hd w hl
    simp only [Saver.emit, List.getLast?_concat] at hl
    rcases ha with ⟨n, rfl⟩ | ⟨n, rfl⟩ <;> simp at hl
  | create k' idm ts hn hk0 hk =>
    have hb' : ∀ l w, st = some l → l.current = some w → w < s.nextWriter ∧ ∀ k2 c,
        (s.conns.set k' (newConnection idm ts s.clock)).get k2 = some c → c.writer = some w → k2 = k := by
      intro l w h1 h2
      refine ⟨(hb l w h1 h2).1, ?_⟩
      intro k2 c h3 h4
      rw [GoMap.get_set] at h3
      split at h3
      · injection h3 with h3; subst h3; simp [newConnection] at h4
      · exact (hb l w h1 h2).2 k2 c h3 h4
    by_cases hkk : k' = k
    · subst hkk
      refine ⟨hfi, hi.clk, some ⟨s.clock, ts, 0, none, false⟩, ?_, ?_, ?_⟩
      · simp [Saver.emit, lifeRun_snoc, hr, lifeStep]
      · intro c hcc
        simp only [GoMap.get_set_self] at hcc
        injection hcc with hcc; subst hcc
        refine ⟨⟨s.clock, ts, 0, none, false⟩, rfl, rfl, rfl, by simp [newConnection], fun _ h => absurd rfl h, fun h => absurd rfl h, ?_⟩
        intro t n h w hl
        simp [Saver.emit] at hl
      · intro l w h1 h2
        injection h1 with h1; subst h1; simp at h2
    · have hu : env.uuid k' ≠ env.uuid k := fun h => hkk (env.uuid_inj _ _ h)
      refine ⟨hfi, hi.clk, st, ?_, ?_, hb'⟩
      · simp [Saver.emit, lifeRun_snoc, hr, lifeStep, hu]
      · intro c hcc
        simp only [GoMap.get_set_ne _ _ (Ne.symm hkk)] at hcc
        obtain ⟨l, h⟩ := hc c hcc
        refine ⟨l, h.some, h.start, h.files, h.exp, h.rot, h.cur, ?_⟩
        intro t n hd w hl
        simp [Saver.emit] at hl
  | closeExpired k' c' w hk hw hexp =>
    refine ⟨hfi, hi.clk, st, ?_, ?_, ?_⟩
    · simp [Saver.emit, lifeRun_snoc, hr, lifeStep]
    · intro c hcc
      simp only [GoMap.get_set] at hcc
      split at hcc
      · rename_i hkk; subst hkk
        injection hcc with hcc; subst hcc
        obtain ⟨l, h⟩ := hc c' hk
        refine ⟨l, h.some, h.start, h.files, h.exp, fun _ _ => hexp, fun h => absurd rfl h, ?_⟩
        intro t n h w' hl; simp [Saver.emit] at hl
      · obtain ⟨l, h⟩ := hc c hcc
        refine ⟨l, h.some, h.start, h.files, h.exp, h.rot, h.cur, ?_⟩
        intro t n h w' hl; simp [Saver.emit] at hl
    · intro l w h1 h2
      refine ⟨(hb l w h1 h2).1, ?_⟩
      intro k2 c h3 h4
      rw [GoMap.get_set] at h3
      split at h3
      · injection h3 with h3; subst h3; simp at h4
      · exact (hb l w h1 h2).2 k2 c h3 h4
  | touch k' c' hk =>
    have hg : ∀ k2, (s.conns.set k' c').get k2 = s.conns.get k2 := by
      intro k2
      rw [GoMap.get_set]
      split
      · rename_i h; subst h; exact hk.symm
      · rfl
    refine ⟨hfi, hi.clk, st, hr, ?_, ?_⟩
    · intro c hcc
      obtain ⟨l, h⟩ := hc c ((hg k).symm.trans hcc)
      exact ⟨l, h.some, h.start, h.files, h.exp, h.rot, h.cur, h.fresh⟩
    · intro l w h1 h2
      exact ⟨(hb l w h1 h2).1, fun k2 c h3 => (hb l w h1 h2).2 k2 c ((hg k2).symm.trans h3)⟩
  | rotate k' c' dir hk hw hd0 hd1 =>
    have hck := hi.fi.cookie k' c' hk
    by_cases hkk : k' = k
    · subst hkk
      obtain ⟨l, h⟩ := hc c' hk
      have hlt : l.files ≠ 0 → s.clock > l.created + tenMinutes * l.files := by
        intro h0
        have := h.rot hw h0
        rw [h.exp] at this
        exact this
      refine ⟨hfi, hi.clk, some { l with files := l.files + 1, current := some s.nextWriter, fresh := true }, ?_, ?_, ?_⟩
      · simp only [Saver.emit, lifeRun_snoc, hr, h.some, Option.bind_some, lifeStep, hck, headerRecord]
        rw [if_pos trivial, if_pos ⟨h.files.symm, by rw [h.files, h.start], hlt⟩]
      · intro c hcc
        simp only [GoMap.get_set_self] at hcc
        injection hcc with hcc; subst hcc
        refine ⟨_, rfl, h.start, ?_, ?_, fun h => by simp at h, fun _ => rfl, fun _ _ _ _ _ _ => rfl⟩
        · simp [h.files]
        · simp only [h.exp, tenMinutes]
          omega
      · intro l' w h1 h2
        injection h1 with h1; subst h1
        injection h2 with h2; subst h2
        refine ⟨by simp [Saver.emit], ?_⟩
        intro k2 c h3 h4
        simp only [GoMap.get_set] at h3
        split at h3
        · assumption
        · exact absurd (hi.fi.bound k2 c _ h3 h4) (Nat.lt_irrefl _)
    · have hu : env.uuid c'.id.cookieUint64 ≠ env.uuid k := fun h => hkk (hck.symm.trans (env.uuid_inj _ _ h))
      refine ⟨hfi, hi.clk, st, ?_, ?_, ?_⟩
      · simp [Saver.emit, lifeRun_snoc, hr, lifeStep, hu]
      · intro c hcc
        simp only [Saver.emit, GoMap.get_set_ne _ _ (Ne.symm hkk)] at hcc
        obtain ⟨l, h⟩ := hc c hcc
        refine ⟨l, h.some, h.start, h.files, h.exp, h.rot, h.cur, ?_⟩
        intro t n hd w hl hw2
        simp only [Saver.emit, List.getLast?_concat] at hl
        injection hl with hl; injection hl with _ hl; injection hl with hl _ _
        have := (hb l w h.some hw2).1
        omega
      · intro l w h1 h2
        have := (hb l w h1 h2).1
        refine ⟨by simp [Saver.emit]; omega, ?_⟩
        intro k2 c h3 h4
        simp only [Saver.emit, GoMap.get_set] at h3
        split at h3
        · injection h3 with h3; subst h3
          injection h4 with h4
          omega
        · exact (hb l w h1 h2).2 k2 c h3 h4
  | write k' c' w msg idm hk hw hp hck hexp =>
    by_cases hkk : k' = k
    · subst hkk
      obtain ⟨l, h⟩ := hc c' hk
      have hcur : l.current = some w := (h.cur (by rw [hw]; simp)).trans hw
      have hok : l.fresh = true ∨ s.clock ≤ l.created + tenMinutes * l.files := by
        rcases hexp with he | ⟨t, n, hd, hl, -⟩
        · right; rw [← h.exp]; exact he
        · left; exact h.fresh t n hd w hl hcur
      refine ⟨hfi, hi.clk, some { l with fresh := false }, ?_, ?_, ?_⟩
      · simp only [Saver.emit, lifeRun_snoc, hr, h.some, Option.bind_some, lifeStep, hcur]
        rw [if_pos trivial, if_pos (by simpa using hok)]
      · intro c hcc
        have : c = c' := by
          have h1 : some c = some c' := hcc.symm.trans hk
          injection h1
        subst this
        refine ⟨_, rfl, h.start, h.files, h.exp, h.rot, h.cur, ?_⟩
        intro t n hd w' hl
        simp [Saver.emit] at hl
      · intro l' w' h1 h2
        injection h1 with h1; subst h1
        exact hb l w' h.some h2
    · refine ⟨hfi, hi.clk, st, ?_, ?_, hb⟩
      · simp only [Saver.emit, lifeRun_snoc, hr, Option.bind_some, lifeStep]
        cases st with
        | none => rfl
        | some l =>
          simp only
          rw [if_neg]
          intro hcur
          exact hkk ((hb l w rfl hcur).2 k' c' hk hw)
      · intro c hcc
        obtain ⟨l, h⟩ := hc c hcc
        refine ⟨l, h.some, h.start, h.files, h.exp, h.rot, h.cur, ?_⟩
        intro t n hd w' hl
        simp [Saver.emit] at hl
  | endClose k' c' w hk hw =>
    have hsub : ∀ k2 c, (s.conns.del k').get k2 = some c → s.conns.get k2 = some c := by
      intro k2 c h
      rw [GoMap.get_del] at h
      split at h
      · simp at h
      · exact h
    refine ⟨hfi, hi.clk, st, ?_, ?_, ?_⟩
    · simp only [Saver.emit]
      rw [lifeRun_snoc, lifeRun_snoc, hr]
      simp [lifeStep]
    · intro c hcc
      obtain ⟨l, h⟩ := hc c (hsub _ _ hcc)
      refine ⟨l, h.some, h.start, h.files, h.exp, h.rot, h.cur, ?_⟩
      intro t n hd w' hl
      simp only [Saver.emit, List.getLast?_concat] at hl
      simp at hl
    · intro l w h1 h2
      exact ⟨(hb l w h1 h2).1, fun k2 c h3 => (hb l w h1 h2).2 k2 c (hsub _ _ h3)⟩
  | endGone k' hg =>
    refine ⟨hfi, hi.clk, st, ?_, ?_, hb⟩
    · simp [Saver.emit, lifeRun_snoc, hr, lifeStep]
    · intro c hcc
      obtain ⟨l, h⟩ := hc c hcc
      refine ⟨l, h.some, h.start, h.files, h.exp, h.rot, h.cur, ?_⟩
      intro t n hd w' hl
      simp [Saver.emit] at hl

theorem linv_run {env : Env} (hm : MonoClock env) (k : UInt64) {s : Saver} (h : Steps env newSaver s) : LInv env k s :=
  h.inv (linv_step env hm k) (linv_new env k hm)

end TcpInfo
