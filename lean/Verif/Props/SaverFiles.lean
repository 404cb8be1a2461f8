import Verif.Lemmas.SaverFiles
import Verif.Props.Cache
import Verif.Spec.SaverExample
/-!
# C34, C35, C36, C37, C38, C43: the saver's files
-/

namespace TcpInfo
open Spec

/-! ## C38 (the saver's side; the marshallers' side is in `Props.Marshal`) -/

/-- C38. In every complete run (any input, clock, file creation failures, map orders), every file ever opened is opened once, then
written to, then closed exactly once, with nothing after the close; all by way of the same queue. -/
theorem C38_closed_once (env : Env) (bs : List MessageBlock) (s : Saver) (h : runSaver env bs = some s) (w : Nat) :
    fileEvents w s.trace = []
    ∨ ∃ n hd, ∃ ws : List ArchivalRecord, ∃ q, fileEvents w s.trace = .opened n hd :: ws.map (.wrote q) ++ [.closed q] := by
  obtain ⟨s1, rfl, hst, hcl⟩ := runSaver_closed h
  rw [fileEvents_closeChans]
  have hi := finv_run hst
  by_cases hw : w < s1.nextWriter
  · obtain ⟨k, n, hd, ws, ho, hh⟩ := hi.files w hw
    rcases hh with ⟨-, ⟨c, a2, a3⟩, -⟩ | ⟨e, -⟩
    · rw [hcl k c a2] at a3; simp at a3
    · exact Or.inr ⟨n, hd, ws, queueOf env k, e⟩
  · exact Or.inl (hi.fresh w (by omega))

/-- C38. At any time during a run every file is open, then possibly closed, in that order and at most once. -/
theorem C38_during (env : Env) (bs : List MessageBlock) (l : LoopState) (h : runBlocks env bs = some l) (w : Nat) :
    fileEvents w l.svr.trace = []
    ∨ ∃ n hd, ∃ ws : List ArchivalRecord, ∃ q, fileEvents w l.svr.trace = .opened n hd :: ws.map (.wrote q)
      ∨ fileEvents w l.svr.trace = .opened n hd :: ws.map (.wrote q) ++ [.closed q] := by
  have hi := finv_run (steps_run env bs l h)
  by_cases hw : w < l.svr.nextWriter
  · obtain ⟨k, n, hd, ws, ho, hh⟩ := hi.files w hw
    rcases hh with ⟨e, -⟩ | ⟨e, -⟩
    · exact Or.inr ⟨n, hd, ws, queueOf env k, Or.inl e⟩
    · exact Or.inr ⟨n, hd, ws, queueOf env k, Or.inr e⟩
  · exact Or.inl (hi.fresh w (by omega))

/-- Three blocks: connections 1 and 2, then 2 changes, then 2 is gone. -/
def exBlocks : List MessageBlock :=
  [exBlock 1600000000000000000 [exMsg 1 0 1, exMsg 2 0 1], exBlock 1600000001000000000 [exMsg 1 0 1, exMsg 2 1 2],
   exBlock 1600000002000000000 [exMsg 1 0 1]]

example : ((runSaver exEnv exBlocks).map (fun s => ((fileEvents 0 s.trace).length, (fileEvents 1 s.trace).length, (fileEvents 2 s.trace).length)))
    = some (3, 4, 0) := by decide +kernel

/-! ## C43 -/

/-- C43. Every queued task has a writer and goes to an existing marshaller. -/
theorem C43_tasks (env : Env) (bs : List MessageBlock) (s : Saver) (h : runSaver env bs = some s) (hm : 0 < env.marshallers)
    (hm' : env.marshallers < 2 ^ 64) (a : Stamped) (ha : a ∈ s.trace) (q : Nat) (task : Task) (hact : a.act = .send q task) :
    task.writer ≠ none ∧ q < env.marshallers := by
  obtain ⟨s1, rfl, hst, -⟩ := runSaver_closed h
  have ha' : a ∈ s1.trace := by
    rcases List.mem_append.1 ha with ha | ha
    · exact ha
    · have : a = ⟨s1.clock, .closeChans⟩ := by simpa using ha
      subst this; simp at hact
  obtain ⟨⟨w, hw⟩, k, rfl⟩ := sendInv_run hst a ha' q task hact
  refine ⟨by rw [hw]; simp, ?_⟩
  unfold queueOf
  rw [UInt64.toNat_mod]
  have : (UInt64.ofNat env.marshallers).toNat = env.marshallers := by
    simp only [UInt64.toNat_ofNat']
    exact Nat.mod_eq_of_lt hm'
  rw [this]
  exact Nat.mod_lt _ hm

/-- C43. All tasks of one connection use the same queue: two files with the same UUID get their tasks on one queue. -/
theorem C43_same_queue (env : Env) (bs : List MessageBlock) (s : Saver) (h : runSaver env bs = some s) (w w' q q' : Nat)
    (n n' : FileName) (hd hd' : ArchivalRecord) (ho : FileEvent.opened n hd ∈ fileEvents w s.trace) (ho' : .opened n' hd' ∈ fileEvents w' s.trace)
    (hu : n.uuid = n'.uuid) (hq : .closed q ∈ fileEvents w s.trace ∨ ∃ r, .wrote q r ∈ fileEvents w s.trace)
    (hq' : .closed q' ∈ fileEvents w' s.trace ∨ ∃ r, .wrote q' r ∈ fileEvents w' s.trace) : q = q' := by
  obtain ⟨s1, rfl, hst, -⟩ := runSaver_closed h
  rw [fileEvents_closeChans] at *
  have hi := finv_run hst
  have key : ∀ w q n hd, FileEvent.opened n hd ∈ fileEvents w s1.trace → (.closed q ∈ fileEvents w s1.trace ∨ ∃ r, .wrote q r ∈ fileEvents w s1.trace) →
      ∃ k, n.uuid = env.uuid k ∧ q = queueOf env k := by
    intro w q n hd ho hq
    by_cases hw : w < s1.nextWriter
    · obtain ⟨k, n2, hd2, ws, hown, hh⟩ := hi.files w hw
      rcases hh with ⟨e, -⟩ | ⟨e, -⟩
      · rw [e] at ho hq
        simp at ho hq
        obtain ⟨rfl, rfl⟩ := ho
        exact ⟨k, hown.name, hq.2.symm⟩
      · rw [e] at ho hq
        simp at ho hq
        obtain ⟨rfl, rfl⟩ := ho
        refine ⟨k, hown.name, ?_⟩
        rcases hq with hq | hq
        · exact hq
        · exact hq.2.symm
    · rw [hi.fresh w (by omega)] at ho; simp at ho
  obtain ⟨k, e1, rfl⟩ := key w q n hd ho hq
  obtain ⟨k', e1', rfl⟩ := key w' q' n' hd' ho' hq'
  have : k = k' := env.uuid_inj _ _ (by rw [← e1, ← e1', hu])
  rw [this]

example : (runSaver exEnv exBlocks).isSome = true ∧ 0 < exEnv.marshallers ∧ exEnv.marshallers < 2 ^ 64 := by decide +kernel

/-! ## C37 -/

/-- C37. The first thing that happens to a file is that its metadata line is written: a record without raw message and attributes, with
the UUID in the file's name, the file's sequence number, and a start time. Everything written later has the cookie of that UUID. (The start time is the
subject of `C34_files`, the order that of `C37_order`.) -/
theorem C37_contents (env : Env) (bs : List MessageBlock) (s : Saver) (h : runSaver env bs = some s) (w : Nat) (hne : fileEvents w s.trace ≠ []) :
    ∃ k n hd st, ∃ ws : List ArchivalRecord, ∃ q, fileEvents w s.trace = .opened n hd :: ws.map (.wrote q) ++ [.closed q]
      ∧ n.uuid = env.uuid k
      ∧ hd = { timestamp := zeroTime, rawIDM := none, attributes := none, metadata := some ⟨env.uuid k, n.sequence, st⟩ }
      ∧ ∀ r ∈ ws, complete r = true ∧ cookie (r.rawIDM.getD []) = k := by
  obtain ⟨s1, rfl, hst, hcl⟩ := runSaver_closed h
  rw [fileEvents_closeChans] at *
  have hi := finv_run hst
  by_cases hw : w < s1.nextWriter
  · obtain ⟨k, n, hd, ws, ho, hh⟩ := hi.files w hw
    rcases hh with ⟨-, ⟨c, a2, a3⟩, -⟩ | ⟨e, -⟩
    · rw [hcl k c a2] at a3; simp at a3
    · obtain ⟨st, hst'⟩ := ho.header
      refine ⟨k, n, hd, st, ws, queueOf env k, e, ho.name, hst', ?_⟩
      intro r hr
      obtain ⟨idm, h1, h2⟩ := ho.recs r hr
      have hc : complete r = true := by
        by_cases hl : 72 ≤ r.raw.length
        · exact decide_eq_true hl
        · rw [parseIDM_short (by omega)] at h1; simp at h1
      refine ⟨hc, ?_⟩
      obtain ⟨m, h3, h4⟩ := cookieOf_parse hc
      have := Res.ok.inj (h3.symm.trans h1)
      subst this
      rw [← h4]; exact h2
  · exact absurd (hi.fresh w (by omega)) hne

example : ((runSaver exEnv exBlocks).map (fun s => decide (fileEvents 1 s.trace = []))) = some false := by decide +kernel

/-! ## C34 -/

/-- C34 (and the start time of C37). With a monotonic clock that does not go back (whatever the wall clock does), the trace of every run is accepted by the monitor for each
cookie: from each `FlowCreated` on, files are numbered 0, 1, 2, ..., headers carry UUID, number and the event's time, file n ≥ 1 is opened only later
than n times ten minutes after creation. The last part of the property holds only in the lenient form: a record that arrives after its file's time is
put into the next file, which may be past its time, too (see `C34_violated`). -/
theorem C34_files_partial (env : Env) (hc : MonoClock env) (bs : List MessageBlock) (s : Saver) (h : runSaver env bs = some s) (k : UInt64) :
    lifeRun true (env.uuid k) none s.trace ≠ none := by
  obtain ⟨s1, rfl, hst, -⟩ := runSaver_closed h
  obtain ⟨st, hr, -⟩ := (linv_run hc k hst).life
  simp [Saver.emit, lifeRun_snoc, hr, lifeStep]

theorem exEnvWith_mono (step : Int) (h : 0 ≤ step) (bad : List Nat) (m : Nat) : MonoClock (exEnvWith step bad m) := by
  refine ⟨by simp [exEnvWith], ?_⟩
  intro i j hij
  have : step * (i : Int) ≤ step * (j : Int) := Int.mul_le_mul_of_nonneg_left (by omega) h
  show 1600000000000000000 + step * (i : Int) ≤ 1600000000000000000 + step * (j : Int)
  omega

example : MonoClock exEnv := exEnvWith_mono _ (by decide) _ _

/-- One connection changing in every block. -/
def busyBlocks : List MessageBlock := [exBlock 1 [exMsg 1 0 1], exBlock 2 [exMsg 1 1 1], exBlock 3 [exMsg 1 2 1], exBlock 4 [exMsg 1 3 1]]

/-- C34 violated in its strict form: with 25 minutes between clock readings, the second record is put into file number 1, whose time ended 5 minutes ago. -/
theorem C34_violated : ((runSaver (exEnvWith (25 * 60000000000) [] 3) busyBlocks).map (fun s => lifeRun false "1" none s.trace)) = some none := by
  decide +kernel

-- the lenient monitor accepts, and several files are opened
example : ((runSaver (exEnvWith (25 * 60000000000) [] 3) busyBlocks).map (fun s => (lifeRun true "1" none s.trace).isSome)) = some true := by
  decide +kernel
example : ((runSaver (exEnvWith (25 * 60000000000) [] 3) busyBlocks).map (fun s => s.nextWriter)) = some 4 := by decide +kernel

/-! ## C35 -/

/-- Clock times at which the files of a UUID were opened. -/
def openTimes (u : String) (tr : List Stamped) : List Int :=
  tr.filterMap (fun a => match a.act with | .openFile _ n _ => if n.uuid = u then some a.time else none | _ => none)

/-- An environment whose clock jumps by 35 minutes after the first block and then advances a second per reading. -/
def jumpEnv : Env := { exEnv with now := fun n => if n < 5 then 1600000000000000000 else 1600002100000000000 + 1000000000 * (n : Int) }

theorem jumpEnv_mono : MonoClock jumpEnv := by
  refine ⟨by simp [jumpEnv], ?_⟩
  intro i j hij
  show (if i < 5 then (1600000000000000000 : Int) else 1600002100000000000 + 1000000000 * (i : Int)) ≤
    (if j < 5 then (1600000000000000000 : Int) else 1600002100000000000 + 1000000000 * (j : Int))
  split <;> split <;> omega

/-- C35 violated: a connection that was silent for 35 minutes is rotated three times within seconds, once per new record. -/
theorem C35_violated : MonoClock jumpEnv ∧ ((runSaver jumpEnv busyBlocks).map (fun s => openTimes "1" s.trace))
    = some [1600000000000000000, 1600002106000000000, 1600002111000000000, 1600002116000000000] :=
  ⟨jumpEnv_mono, by decide +kernel⟩

/-- What the monitor says at a file creation, read off the trace. -/
theorem open_life (env : Env) (hc : MonoClock env) (bs : List MessageBlock) (s : Saver) (h : runSaver env bs = some s)
    (tr1 tr2 : List Stamped) (x : Stamped) (w : Nat) (n : FileName) (hd : ArchivalRecord) (htr : s.trace = tr1 ++ x :: tr2)
    (hx : x.act = .openFile w n hd) :
    ∃ z ∈ tr1, ∃ t id, z.act = .flowCreated t n.uuid id
      ∧ hd = { timestamp := zeroTime, rawIDM := none, attributes := none, metadata := some ⟨n.uuid, n.sequence, t⟩ }
      ∧ (n.sequence ≠ 0 → x.time > z.time + tenMinutes * n.sequence) := by
  have hmem : ∀ (u : String) (tr : List Stamped) (l : Life), lifeRun true u none tr = some (some l) →
      ∃ z ∈ tr, ∃ id, z.act = .flowCreated l.start u id ∧ z.time = l.created := by
    intro u tr
    induction tr using snoc_induction with
    | nil => intro l hl; simp [lifeRun] at hl
    | step tr a ih =>
      intro l hl
      rw [lifeRun_snoc] at hl
      obtain ⟨st, h1, h2⟩ := Option.bind_eq_some_iff.1 hl
      have old : ∀ l0, st = some l0 → l0.start = l.start → l0.created = l.created →
          ∃ z ∈ tr ++ [a], ∃ id, z.act = .flowCreated l.start u id ∧ z.time = l.created := by
        intro l0 e e1 e2
        subst e
        obtain ⟨z, hz, id, h3, h4⟩ := ih l0 h1
        exact ⟨z, List.mem_append_left _ hz, id, by rw [h3, e1], by rw [h4, e2]⟩
      unfold lifeStep at h2
      split at h2
      · rename_i t u' id ha
        split at h2
        · rename_i hu; subst hu
          injection h2 with h2; injection h2 with h2; subst h2
          exact ⟨a, by simp, id, ha, rfl⟩
        · injection h2 with h2; exact old l h2 rfl rfl
      · split at h2
        · split at h2
          · simp at h2
          · rename_i l0
            split at h2
            · injection h2 with h2; injection h2 with h2; subst h2
              exact old l0 rfl rfl rfl
            · simp at h2
        · injection h2 with h2; exact old l h2 rfl rfl
      · split at h2
        · simp at h2
        · rename_i l0
          split at h2
          · split at h2
            · injection h2 with h2; injection h2 with h2; subst h2
              exact old l0 rfl rfl rfl
            · simp at h2
          · injection h2 with h2; exact old l h2 rfl rfl
      · injection h2 with h2; exact old l h2 rfl rfl
  obtain ⟨s1, rfl, hst, -⟩ := runSaver_closed h
  have hxm : x ∈ s1.trace := by
    have : x ∈ (s1.emit .closeChans).trace := by rw [htr]; simp
    rcases List.mem_append.1 this with h | h
    · exact h
    · have : x = ⟨s1.clock, .closeChans⟩ := by simpa using h
      subst this; simp at hx
  obtain ⟨k, hk⟩ := finv_name (finv_run hst) hxm hx
  have hr := C34_files_partial env hc bs _ h k
  rw [← hk, htr, lifeRun_append] at hr
  cases h1 : lifeRun true n.uuid none tr1 with
  | none => rw [h1] at hr; simp at hr
  | some st1 =>
    rw [h1] at hr
    simp only [Option.bind_some, lifeRun] at hr
    cases h2 : lifeStep true n.uuid st1 x with
    | none => rw [h2] at hr; simp at hr
    | some st2 =>
      unfold lifeStep at h2
      simp only [hx, if_true] at h2
      split at h2
      · simp at h2
      · rename_i l
        split at h2
        · rename_i hcond
          obtain ⟨z, hz, id, h3, h4⟩ := hmem _ _ l h1
          refine ⟨z, hz, l.start, id, h3, ?_, ?_⟩
          · rw [hcond.1]; exact hcond.2.1
          · intro h0; rw [hcond.1, h4]; exact hcond.2.2 (by rw [← hcond.1]; exact h0)
        · simp at h2

/-- C35. At least, on average: file number n of a connection is opened more than n times ten minutes after the connection was announced.
(Missing: two successive rotations can be closer together than ten minutes, see `C35_violated`.) -/
theorem C35_average_partial (env : Env) (hc : MonoClock env) (bs : List MessageBlock) (s : Saver) (h : runSaver env bs = some s)
    (tr1 tr2 : List Stamped) (x : Stamped) (w : Nat) (n : FileName) (hd : ArchivalRecord) (htr : s.trace = tr1 ++ x :: tr2)
    (hx : x.act = .openFile w n hd) (hn : n.sequence ≠ 0) :
    ∃ z ∈ tr1, ∃ t id, z.act = .flowCreated t n.uuid id ∧ x.time > z.time + tenMinutes * n.sequence := by
  obtain ⟨z, hz, t, id, h1, -, h3⟩ := open_life env hc bs s h tr1 tr2 x w n hd htr hx
  exact ⟨z, hz, t, id, h1, h3 hn⟩

/-- C37. The start time in a file's metadata line is the time of an open event of that connection sent before. -/
theorem C37_start_time (env : Env) (hc : MonoClock env) (bs : List MessageBlock) (s : Saver) (h : runSaver env bs = some s)
    (tr1 tr2 : List Stamped) (x : Stamped) (w : Nat) (n : FileName) (hd : ArchivalRecord) (htr : s.trace = tr1 ++ x :: tr2)
    (hx : x.act = .openFile w n hd) :
    ∃ z ∈ tr1, ∃ t id, z.act = .flowCreated t n.uuid id ∧ hd.metadata = some ⟨n.uuid, n.sequence, t⟩ := by
  obtain ⟨z, hz, t, id, h1, h2, -⟩ := open_life env hc bs s h tr1 tr2 x w n hd htr hx
  exact ⟨z, hz, t, id, h1, by rw [h2]⟩

-- the run of C35_violated opens files number 0 to 3
example : ((runSaver jumpEnv busyBlocks).map (fun s => s.trace.filterMap (fun a => match a.act with
    | .openFile _ n _ => some n.sequence | _ => none))) = some [0, 1, 2, 3] := by decide +kernel

/-! ## C36 -/

/-- C36. If two file creations use the same name, then in between the connection was announced anew: its cookie had vanished from the
kernel's reports for a cycle and come back. (Missing from the full property: exactly this case, see `C36_violated`.) -/
theorem C36_names_partial (env : Env) (hc : MonoClock env) (bs : List MessageBlock) (s : Saver) (h : runSaver env bs = some s)
    (tr1 tr2 tr3 : List Stamped) (x y : Stamped) (w w' : Nat) (n : FileName) (hd hd' : ArchivalRecord)
    (htr : s.trace = tr1 ++ x :: (tr2 ++ y :: tr3)) (hx : x.act = .openFile w n hd) (hy : y.act = .openFile w' n hd') :
    ∃ z ∈ tr2, ∃ t id, z.act = .flowCreated t n.uuid id := by
  apply Classical.byContradiction
  intro hno
  have hno' : ∀ a ∈ tr2, ∀ t id, a.act ≠ .flowCreated t n.uuid id := fun a ha t id he => hno ⟨a, ha, t, id, he⟩
  obtain ⟨s1, rfl, hst, -⟩ := runSaver_closed h
  have hxm : x ∈ s1.trace := by
    have : x ∈ (s1.emit .closeChans).trace := by rw [htr]; simp
    rcases List.mem_append.1 this with h | h
    · exact h
    · have : x = ⟨s1.clock, .closeChans⟩ := by simpa using h
      subst this; simp at hx
  obtain ⟨k, hk⟩ := finv_name (finv_run hst) hxm hx
  have hr := C34_files_partial env hc bs _ h k
  rw [← hk, htr, lifeRun_append] at hr
  obtain ⟨tx, ax⟩ := x
  obtain ⟨ty, ay⟩ := y
  simp only at hx hy
  subst hx; subst hy
  cases h1 : lifeRun true n.uuid none tr1 with
  | none => rw [h1] at hr; simp at hr
  | some st1 =>
    rw [h1] at hr
    simp only [Option.bind_some, lifeRun] at hr
    cases h2 : lifeStep true n.uuid st1 ⟨tx, .openFile w n hd⟩ with
    | none => rw [h2] at hr; simp at hr
    | some st2 =>
      rw [h2] at hr
      simp only [Option.bind_some, lifeRun_append] at hr
      obtain ⟨l, l', e1, e2, e3, e4⟩ := lifeStep_open rfl h2
      cases h3 : lifeRun true n.uuid st2 tr2 with
      | none => rw [h3] at hr; simp at hr
      | some st3 =>
        rw [h3] at hr
        simp only [Option.bind_some, lifeRun] at hr
        subst e2
        obtain ⟨l3, rfl, hle⟩ := lifeRun_files _ _ _ hno' _ _ h3
        cases h4 : lifeStep true n.uuid (some l3) ⟨ty, .openFile w' n hd'⟩ with
        | none => rw [h4] at hr; simp at hr
        | some st4 =>
          obtain ⟨l5, -, e5, -, e6, -⟩ := lifeStep_open rfl h4
          injection e5 with e5; subst e5
          omega

/-- Names of the files opened, in order. -/
def openNames (tr : List Stamped) : List FileName := tr.filterMap (fun a => match a.act with | .openFile _ n _ => some n | _ => none)

/-- Connection 1 is missing from the second poll (for instance because that poll failed, see C57). -/
def gapBlocks : List MessageBlock := [exBlock 1 [exMsg 1 0 1], exBlock 2 [], exBlock 3 [exMsg 1 0 1]]

/-- C36 violated: a connection missing from one poll gets a second file with the same name as its first one; `os.Create` truncates the first. -/
theorem C36_violated : ((runSaver exEnv gapBlocks).map (fun s => openNames s.trace)) = some [⟨"0", "1", 0⟩, ⟨"0", "1", 0⟩] := by
  decide +kernel

-- non-vacuity of C36_names_partial: the same run has two creations with the same name
example : ((runSaver exEnv gapBlocks).map (fun s => s.trace.map (fun a => match a.act with
    | .openFile _ n _ => some (n.uuid, true) | .flowCreated _ u _ => some (u, false) | _ => none)))
    = some [some ("1", false), some ("1", true), none, none, none, none, none, some ("1", false), some ("1", true), none, none, none, none] := by
  decide +kernel

end TcpInfo
