import Verif.Lemmas.Accesses
import Verif.Props.Process
/-!
# Property C104: files are handed over between goroutines without data races
-/

namespace TcpInfo
open Spec

/-- C104. Every run logs what it does (any schedule, any number of steps). -/
theorem C104_log (me : MEnv) (env : Env) (bs : List MessageBlock) (cs : List PChoice) :
    (runLog me env bs cs).map (·.1) = runProc me env bs cs := execLog_fst me env cs _ _

/-- C104. In every run the uses of one output file (`Write`, `Close`), whichever goroutines make them, are ordered by happens-before: no use of a file is
concurrent with another. -/
theorem C104_files (me : MEnv) (env : Env) (bs : List MessageBlock) (s : Saver) (h : runSaver env bs = some s) (hm : 0 < env.marshallers)
    (hm' : env.marshallers < 2 ^ 64) (cs : List PChoice) (p : Proc) (L : Log) (hr : runLog me env bs cs = some (p, L))
    (i j : Nat) (g g' : PChoice) (w : Nat) (hi : L[i]? = some (g, .use w)) (hj : L[j]? = some (g', .use w)) (hij : i < j) : HB L i j :=
  (runLog_inv h hm hm' hr).1.hb i j g g' w hij hi hj

/-- C104. When `main` returns, everything that any goroutine has done has happened before: the return of `Wait` is the last operation, and all others are
ordered before it. -/
theorem C104_return (me : MEnv) (env : Env) (bs : List MessageBlock) (hm : 0 < env.marshallers) (hm' : env.marshallers < 2 ^ 64) (cs : List PChoice) (p : Proc)
    (L : Log) (hr : runLog me env bs cs = some (p, L)) (hret : p.pc = .returned) :
    ∃ L0, L = L0 ++ [(.main, .wait)] ∧ ∀ i, i < L0.length → HB L i L0.length := by
  have hp : runProc me env bs cs = some p := by rw [← C104_log, hr]; rfl
  obtain ⟨s, -, hs, -⟩ := returned_all (runProc_inv hp) hret
  exact (runLog_inv hs hm hm' hr).2.back hret

/-! ## Records -/

theorem send_cookie {env : Env} {s : Saver} (h : Steps env newSaver s) : ∀ a ∈ s.trace, ∀ q r w, a.act = .send q ⟨some r, w⟩ →
    ∃ idm, parseIDM r.raw = .ok idm ∧ q = queueOf env (cookieOf idm) := by
  refine h.inv (P := fun s => ∀ a ∈ s.trace, ∀ q r w, a.act = .send q ⟨some r, w⟩ → ∃ idm, parseIDM r.raw = .ok idm ∧ q = queueOf env (cookieOf idm))
    (fun s t hst hi => ?_) (by simp [newSaver])
  have snoc : ∀ (tr : List Stamped) (x : Stamped), (∀ a ∈ tr, ∀ q r w, a.act = .send q ⟨some r, w⟩ → ∃ idm, parseIDM r.raw = .ok idm ∧ q = queueOf env (cookieOf idm)) →
      (∀ q r w, x.act = .send q ⟨some r, w⟩ → ∃ idm, parseIDM r.raw = .ok idm ∧ q = queueOf env (cookieOf idm)) →
      ∀ a ∈ tr ++ [x], ∀ q r w, a.act = .send q ⟨some r, w⟩ → ∃ idm, parseIDM r.raw = .ok idm ∧ q = queueOf env (cookieOf idm) := by
    intro tr x h1 h2 a ha
    rcases List.mem_append.1 ha with ha | ha
    · exact h1 a ha
    · have : a = x := by simpa using ha
      subst this; exact h2
  cases hst with
  | other h1 h2 h3 h4 h5 => rw [h3]; exact hi
  | clock => exact hi
  | observe a ha =>
    refine snoc _ _ hi ?_
    intro q r w h
    rcases ha with ⟨n, rfl⟩ | ⟨n, rfl⟩ <;> simp at h
  | create k idm ts hn hk0 hk => exact snoc _ _ hi (by intro q r w h; simp at h)
  | closeExpired k c w hk hw hexp => exact snoc _ _ hi (by intro q r w h; simp at h)
  | touch k c hk => exact hi
  | rotate k c dir hk hw hd0 hd1 => exact snoc _ _ hi (by intro q r w h; simp at h)
  | write k c w msg idm hk hw hp hck hexp =>
    refine snoc _ _ hi ?_
    intro q r w' h
    simp only [Action.send.injEq, Task.mk.injEq, Option.some.injEq] at h
    obtain ⟨rfl, rfl, -⟩ := h
    exact ⟨idm, hp, by rw [hck]⟩
  | endClose k c w hk hw =>
    refine snoc _ _ (snoc _ _ hi ?_) ?_
    · intro q r w h; simp at h
    · intro q r w h; simp at h
  | endGone k hg => exact snoc _ _ hi (by intro q r w h; simp at h)

/-- Every task on its way comes from the saver's program. -/
structure FromProg (prog : List Action) (st : MState) : Prop where
  rem : ∀ a ∈ st.rem, a ∈ prog
  tasks : ∀ (q : Nat) (wk : Worker), st.workers[q]? = some wk → ∀ t, (t ∈ wk.queue ∨ wk.pc = .got t) → Action.send q t ∈ prog

theorem fromProg_set {prog : List Action} {st st' : MState} (hi : FromProg prog st) (i : Nat) (wk' : Worker) (hr : ∀ a ∈ st'.rem, a ∈ prog)
    (hw : st'.workers = st.workers.set i wk') (ht : ∀ t, (t ∈ wk'.queue ∨ wk'.pc = .got t) → Action.send i t ∈ prog) : FromProg prog st' where
  rem := hr
  tasks := by
    intro q wk hq t h
    rw [hw, List.getElem?_set] at hq
    split at hq
    · rename_i e; subst e
      split at hq
      · injection hq with hq; subst hq; exact ht t h
      · simp at hq
    · exact hi.tasks q wk hq t h

theorem fromProg_step {me : MEnv} {prog : List Action} {st st' : MState} (hi : FromProg prog st) (c : Choice) (h : st.step me c = some st') :
    FromProg prog st' := by
  unfold MState.step at h
  split at h
  · simp at h
  cases c with
  | saver =>
    simp only [MState.saverStep] at h
    cases hr : st.rem with
    | nil => rw [hr] at h; simp at h
    | cons a rem =>
      have hrem : ∀ a ∈ rem, a ∈ prog := fun x hx => hi.rem x (by rw [hr]; simp [hx])
      rw [hr] at h
      cases a with
      | send q t =>
        simp only at h
        cases hq : st.workers[q]? with
        | none => rw [hq] at h; injection h with h; subst h; exact ⟨fun a ha => hi.rem a (by rw [hr]; exact ha), hi.tasks⟩
        | some wk =>
          rw [hq] at h
          simp only at h
          split at h
          · injection h with h; subst h; exact ⟨fun a ha => hi.rem a (by rw [hr]; exact ha), hi.tasks⟩
          · split at h
            · injection h with h; subst h
              refine fromProg_set hi q _ hrem rfl (fun t' ht' => ?_)
              rcases ht' with ht' | ht'
              · rcases List.mem_append.1 ht' with ht' | ht'
                · exact hi.tasks q wk hq t' (.inl ht')
                · rw [List.mem_singleton.1 ht']; exact hi.rem _ (by rw [hr]; simp)
              · exact hi.tasks q wk hq t' (.inr ht')
            · simp at h
      | closeChans =>
        simp only at h
        split at h <;> (injection h with h; subst h)
        · exact ⟨fun a ha => hi.rem a (by rw [hr]; exact ha), hi.tasks⟩
        · exact ⟨hrem, hi.tasks⟩
      | openFile w nm hd => simp only at h; injection h with h; subst h; exact ⟨hrem, hi.tasks⟩
      | flowCreated t u id => simp only at h; injection h with h; subst h; exact ⟨hrem, hi.tasks⟩
      | flowDeleted t u => simp only at h; injection h with h; subst h; exact ⟨hrem, hi.tasks⟩
      | observeSent x => simp only at h; injection h with h; subst h; exact ⟨hrem, hi.tasks⟩
      | observeReceived x => simp only at h; injection h with h; subst h; exact ⟨hrem, hi.tasks⟩
  | worker i =>
    simp only [MState.workerStep] at h
    cases hw : st.workers[i]? with
    | none => rw [hw] at h; simp at h
    | some wk =>
      rw [hw] at h
      have old := hi.tasks i wk hw
      obtain ⟨q, pc⟩ := wk
      simp only at h old
      have oldq : ∀ pc' : PC, (∀ t, pc' ≠ .got t) → ∀ t, (t ∈ q ∨ pc' = .got t) → Action.send i t ∈ prog :=
        fun pc' hpc t ht => ht.elim (fun h => old t (.inl h)) (fun h => absurd h (hpc t))
      cases pc with
      | idle =>
        cases q with
        | nil =>
          simp only at h
          split at h
          · injection h with h; subst h
            exact fromProg_set hi i ⟨[], .exited⟩ hi.rem rfl (oldq _ (by simp))
          · simp at h
        | cons t ts =>
          simp only at h
          injection h with h; subst h
          refine fromProg_set hi i ⟨ts, .got t⟩ hi.rem rfl (fun t' ht' => ?_)
          rcases ht' with ht' | ht'
          · exact old t' (.inl (by simp [ht']))
          · injection ht' with ht'; subst ht'; exact old t (.inl (by simp))
      | got t =>
        obtain ⟨m, w⟩ := t
        cases m with
        | none =>
          cases w with
          | none => simp only at h; injection h with h; subst h; exact ⟨hi.rem, hi.tasks⟩
          | some w => simp only at h; injection h with h; subst h; exact fromProg_set hi i ⟨q, .idle⟩ hi.rem rfl (oldq _ (by simp))
        | some r =>
          cases w with
          | none => simp only at h; injection h with h; subst h; exact ⟨hi.rem, hi.tasks⟩
          | some w =>
            simp only at h
            split at h <;> (injection h with h; subst h)
            · exact fromProg_set hi i ⟨q, .idle⟩ hi.rem rfl (oldq _ (by simp))
            · exact fromProg_set hi i ⟨q, .write1 w _⟩ hi.rem rfl (oldq _ (by simp))
      | write1 w b => simp only at h; injection h with h; subst h; exact fromProg_set hi i ⟨q, .write2 w⟩ hi.rem rfl (oldq _ (by simp))
      | write2 w => simp only at h; injection h with h; subst h; exact fromProg_set hi i ⟨q, .idle⟩ hi.rem rfl (oldq _ (by simp))
      | exited => simp at h

theorem fromProg_exec {me : MEnv} {prog : List Action} (cs : List Choice) {st st' : MState} (hi : FromProg prog st) (h : MState.exec me cs st = some st') :
    FromProg prog st' := by
  induction cs generalizing st with
  | nil => simp only [MState.exec] at h; injection h with h; subst h; exact hi
  | cons c cs ih =>
    simp only [MState.exec] at h
    obtain ⟨st1, h1, h2⟩ := Option.bind_eq_some_iff.1 h
    exact ih (fromProg_step hi c h1) h2

theorem fromProg_init (prog : List Action) (n : Nat) : FromProg prog (mInit prog n) where
  rem := fun _ h => h
  tasks := by
    intro q wk hq t ht
    simp only [mInit, List.getElem?_replicate] at hq
    split at hq
    · injection hq with hq; subst hq; simp at ht
    · simp at hq

/-- A record is overwritten by the marshaller to which its connection belongs. -/
def Rewrites (env : Env) (L : Log) : Prop :=
  ∀ (i : Nat) g r, L[i]? = some (g, Op.rewrite r) → ∃ idm, parseIDM r.raw = .ok idm ∧ g = .worker (queueOf env (cookieOf idm))

theorem mem_ops_rewrite {p : Proc} {c : PChoice} {r : ArchivalRecord} (h : Op.rewrite r ∈ p.ops c) :
    ∃ q wk w, c = .worker q ∧ p.m.workers[q]? = some wk ∧ wk.pc = .got ⟨some r, w⟩ := by
  cases c with
  | main =>
    exfalso
    simp only [Proc.ops, Proc.mainOps] at h
    cases hpc : p.pc <;> rw [hpc] at h
    · cases hpo : p.polls <;> rw [hpo] at h <;> simp at h
    · simp at h
    · simp at h
  | saver =>
    exfalso
    simp only [Proc.ops, Proc.saverOps] at h
    cases hr : p.m.rem with
    | nil =>
      rw [hr] at h
      cases hch : p.chan <;> rw [hch] at h <;> simp at h
    | cons a rem =>
      rw [hr] at h
      cases a <;> simp at h
  | worker i =>
    simp only [Proc.ops, Proc.workerOps] at h
    cases hw : p.m.workers[i]? with
    | none => rw [hw] at h; simp at h
    | some wk =>
      rw [hw] at h
      obtain ⟨q, pc⟩ := wk
      cases pc with
      | idle => cases q <;> simp at h
      | got t =>
        obtain ⟨m, w⟩ := t
        cases m with
        | none => cases w <;> simp at h
        | some r' =>
          have : r = r' := by cases w <;> simpa using h
          subst this
          exact ⟨i, _, w, rfl, hw, rfl⟩
      | write1 w b => simp at h
      | write2 w => simp at h
      | exited => simp at h

theorem rewrites_exec {me : MEnv} {env : Env} {bs : List MessageBlock} {s : Saver} (h : runSaver env bs = some s) (hm : 0 < env.marshallers)
    (hm' : env.marshallers < 2 ^ 64) (cs : List PChoice) {p p' : Proc} {L L' : Log} (hp : PInv me env bs p) (hc : p.m.crashed = false)
    (hL : Rewrites env L) (hr : Proc.execLog me env cs p L = some (p', L')) : Rewrites env L' := by
  induction cs generalizing p L with
  | nil =>
    simp only [Proc.execLog, Option.some.injEq, Prod.mk.injEq] at hr
    obtain ⟨-, rfl⟩ := hr
    exact hL
  | cons c cs ih =>
    simp only [Proc.execLog] at hr
    obtain ⟨p1, h1, h2⟩ := Option.bind_eq_some_iff.1 hr
    refine ih (pinv_step hp c h1) (pstep_ok hp h hm hm' c h1).1 (fun i g r hg => ?_) h2
    rcases get_app hg with hg | ⟨-, hg⟩
    · exact hL i g r hg
    · obtain ⟨o, ho, he⟩ := List.mem_map.1 (List.mem_of_getElem? hg)
      simp only [Prod.mk.injEq] at he
      rw [he.2] at ho
      obtain ⟨q, wk, w, hcq, hw, hpc⟩ := mem_ops_rewrite ho
      obtain ⟨cs0, hsim⟩ := sim_full hp h hc
      have hfrom := (fromProg_exec cs0 (fromProg_init (program s) env.marshallers) hsim).tasks q wk hw _ (.inr hpc)
      obtain ⟨a, ha, hact⟩ := List.mem_map.1 hfrom
      obtain ⟨s1, rfl, hst, -⟩ := runSaver_closed h
      have ha1 : a ∈ s1.trace := by
        simp only [Saver.emit] at ha
        rcases List.mem_append.1 ha with ha | ha
        · exact ha
        · rw [List.mem_singleton.1 ha] at hact; simp at hact
      obtain ⟨idm, hidm, hq⟩ := send_cookie hst a ha1 q r w hact
      exact ⟨idm, hidm, by rw [← he.1, hcq, hq]⟩

/-- C104. No two marshallers ever touch the same record: all overwriting of a record is done by one goroutine, which is determined by the cookie of the
connection, and thus ordered. -/
theorem C104_records (me : MEnv) (env : Env) (bs : List MessageBlock) (s : Saver) (h : runSaver env bs = some s) (hm : 0 < env.marshallers)
    (hm' : env.marshallers < 2 ^ 64) (cs : List PChoice) (p : Proc) (L : Log) (hr : runLog me env bs cs = some (p, L))
    (i j : Nat) (g g' : PChoice) (r : ArchivalRecord) (hi : L[i]? = some (g, .rewrite r)) (hj : L[j]? = some (g', .rewrite r)) (hij : i < j) :
    g = g' ∧ HB L i j := by
  have hR := rewrites_exec h hm hm' cs (pinv_init me env bs) rfl (by intro i g r h; simp at h) hr
  obtain ⟨a, ha, hg⟩ := hR i g r hi
  obtain ⟨b, hb, hg'⟩ := hR j g' r hj
  rw [ha] at hb
  injection hb with hb; subst hb
  have e : g = g' := by rw [hg, hg']
  exact ⟨e, .order hij hi (by rw [hj, e])⟩

/-- The rules of `HB` other than transitivity, as a test. -/
def direct (L : Log) (i j : Nat) : Bool :=
  match L[i]?, L[j]? with
  | some (g, o), some (g', o') =>
    (decide (i < j) && decide (g = g')) ||
      match o, o' with
      | .send c, .recv c' => decide (c = c' ∧ earlier L (.send c) i = earlier L (.recv c) j)
      | .recv c, .send c' => decide (c = c' ∧ earlier L (.recv c) i + c.capacity = earlier L (.send c) j)
      | .close c, .ended c' => decide (c = c')
      | .done, .wait => true
      | _, _ => false
  | _, _ => false

/-- `D` contains with every operation all those directly before it. -/
def closedBefore (L : Log) (D : List Nat) : Bool :=
  (List.range L.length).all (fun i => (List.range L.length).all (fun j => !direct L i j || !D.contains j || D.contains i))

/-- Such a set contains with every operation all those that happen before it. -/
theorem hb_closed {L : Log} (D : List Nat) (hD : closedBefore L D = true) {i j : Nat} (h : HB L i j) (hj : j ∈ D) : i ∈ D := by
  have one : ∀ {i j g o g' o'}, L[i]? = some (g, o) → L[j]? = some (g', o') → direct L i j = true → j ∈ D → i ∈ D := by
    intro i j g o g' o' hi hj hd hm
    have h1 := List.all_eq_true.1 (List.all_eq_true.1 hD i (List.mem_range.2 (get_lt hi))) j (List.mem_range.2 (get_lt hj))
    simp only [hd, Bool.not_true, Bool.false_or, Bool.or_eq_true, Bool.not_eq_true', List.contains_eq_mem, decide_eq_true_eq, decide_eq_false_iff_not] at h1
    rcases h1 with h1 | h1
    · exact absurd hm h1
    · exact h1
  induction h with
  | order h1 h2 h3 => exact one h2 h3 (by simp [direct, h2, h3, h1]) hj
  | sent h1 h2 h3 => exact one h1 h2 (by simp [direct, h1, h2, h3]) hj
  | room h1 h2 h3 => exact one h1 h2 (by simp [direct, h1, h2, h3]) hj
  | closed h1 h2 => exact one h1 h2 (by simp [direct, h1, h2]) hj
  | done h1 h2 => exact one h1 h2 (by simp [direct, h1, h2]) hj
  | trans _ _ h1 h2 => exact h1 (h2 hj)

/-- A run of the process on the example: all goroutines in turn. -/
def raceRun : List PChoice := (procSkip exMEnv exEnv exTurns (procInit exBlocks 3)).1

/-- Goroutine, file: the uses of files in the log. -/
def usesOf (L : Log) : List (PChoice × Nat) := L.filterMap (fun e => match e.2 with | .use w => some (e.1, w) | _ => none)

set_option synthInstance.maxSize 1000 in
/-- The example run does something: two files, each used first by the saver and then by a marshaller, and `main` returns. -/
example : (runLog exMEnv exEnv exBlocks raceRun).map (fun x => decide (x.1.pc = .returned)) = some true
    ∧ (runLog exMEnv exEnv exBlocks raceRun).map (fun x => usesOf x.2)
      = some [(.saver, 0), (.saver, 1), (.worker 1, 0), (.worker 1, 0), (.worker 2, 1), (.worker 2, 1), (.worker 2, 1), (.worker 2, 1), (.worker 2, 1), (.worker 1, 0)] := by
  decide +kernel

/-- The record of the example that marshaller 1 overwrites. -/
def raceRecord : ArchivalRecord := ((runLog exMEnv exEnv exBlocks raceRun).bind (fun x => x.2[8]?)).elim default
  (fun e => match e.2 with | .rewrite r => r | _ => default)

/-- C104 violated for records: the saver reads a record kept from the previous cycle (to compare it with the new one) and a marshaller overwrites the
addresses of the same record, and neither happens before the other. -/
theorem C104_records_violated : ∃ (me : MEnv) (env : Env) (bs : List MessageBlock) (cs : List PChoice) (p : Proc) (L : Log) (i j q : Nat) (r : ArchivalRecord),
    runLog me env bs cs = some (p, L) ∧ L[i]? = some (.worker q, .rewrite r) ∧ L[j]? = some (.saver, .inspect r) ∧ ¬ HB L i j ∧ ¬ HB L j i := by
  have hex : (runLog exMEnv exEnv exBlocks raceRun).map (fun x => decide (x.2[8]? = some (.worker 1, .rewrite raceRecord))
      && decide (x.2[18]? = some (.saver, .inspect raceRecord)) && closedBefore x.2 [0, 1, 2, 4, 6, 9, 11, 16, 17, 18]
      && closedBefore x.2 [0, 1, 4, 6, 7, 8]) = some true := by
    decide +kernel
  obtain ⟨⟨p, L⟩, h1, h2⟩ := Option.map_eq_some_iff.1 hex
  simp only [Bool.and_eq_true, decide_eq_true_eq] at h2
  obtain ⟨⟨⟨a, b⟩, c⟩, d⟩ := h2
  exact ⟨exMEnv, exEnv, exBlocks, raceRun, p, L, 8, 18, 1, raceRecord, h1, a, b, fun h => absurd (hb_closed _ c h (by simp)) (by simp),
    fun h => absurd (hb_closed _ d h (by simp)) (by simp)⟩

end TcpInfo
