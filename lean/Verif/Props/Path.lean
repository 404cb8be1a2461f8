import Verif.Lemmas.Path
import Verif.Props.SaverFiles
/-!
# C92: where the files of a connection are found
-/

namespace TcpInfo
open Spec

/-- C92. In every run, the first file of a connection lies in the directory of the date of the connection's start time, the one in the file's metadata line
(which is the time of its `FlowCreated`, C34); each later file in that of the date at which it is created. -/
theorem C92_directory (env : Env) (bs : List MessageBlock) (s : Saver) (h : runSaver env bs = some s) (x : Stamped) (hx : x ∈ s.trace) (w : Nat) (n : FileName)
    (hd : ArchivalRecord) (ha : x.act = .openFile w n hd) :
    ∃ st, hd.metadata = some ⟨n.uuid, n.sequence, st⟩ ∧ n.dir = env.date (if n.sequence = 0 then st else env.wall x.time) := by
  obtain ⟨s1, rfl, hst, -⟩ := runSaver_closed h
  rcases List.mem_append.1 (show x ∈ s1.trace ++ [_] from hx) with hx | hx
  · exact dirInv_run hst x hx w n hd ha
  · have : x = ⟨s1.clock, .closeChans⟩ := by simpa using hx
    subst this; simp at ha

/-- The files of a UUID that are opened in a part of a trace. -/
def filesOpened (u : String) (tr : List Stamped) : Nat := (tr.filter (fun z => match z.act with | .openFile _ n _ => decide (n.uuid = u) | _ => false)).length

theorem lifeRun_opens (b : Bool) (u : String) (tr : List Stamped) (hno : ∀ a ∈ tr, ∀ t id, a.act ≠ .flowCreated t u id) (l : Life) (st : Option Life)
    (h : lifeRun b u (some l) tr = some st) : ∃ l', st = some l' ∧ l'.files = l.files + filesOpened u tr ∧ l'.start = l.start := by
  induction tr generalizing l with
  | nil => simp only [lifeRun] at h; injection h with h; exact ⟨l, h.symm, rfl, rfl⟩
  | cons x tr ih =>
    simp only [lifeRun] at h
    obtain ⟨st1, h1, h2⟩ := Option.bind_eq_some_iff.1 h
    have hstep : ∃ l1, st1 = some l1 ∧ l1.files = l.files + filesOpened u [x] ∧ l1.start = l.start := by
      unfold lifeStep at h1
      unfold filesOpened
      split at h1
      · rename_i t u' id ha
        split at h1
        · rename_i hu; subst hu
          exact absurd ha (hno x (by simp) t id)
        · injection h1 with h1; exact ⟨l, h1.symm, by simp [ha], rfl⟩
      · rename_i w n hd ha
        split at h1
        · rename_i hu
          simp only at h1
          split at h1
          · injection h1 with h1; exact ⟨_, h1.symm, by simp [ha, hu], rfl⟩
          · simp at h1
        · rename_i hu
          injection h1 with h1; exact ⟨l, h1.symm, by simp [ha, hu], rfl⟩
      · rename_i ha
        simp only at h1
        split at h1
        · split at h1
          · injection h1 with h1; exact ⟨_, h1.symm, by simp [ha], rfl⟩
          · simp at h1
        · injection h1 with h1; exact ⟨l, h1.symm, by simp [ha], rfl⟩
      · rename_i ha1 ha2 ha3
        injection h1 with h1
        refine ⟨l, h1.symm, ?_, rfl⟩
        cases ha : x.act with
        | openFile w n hd => exact absurd ha (ha2 w n hd)
        | _ => simp [ha]
    obtain ⟨l1, rfl, hle, hst⟩ := hstep
    obtain ⟨l', e, hle', hst'⟩ := ih (fun a ha => hno a (List.mem_cons_of_mem _ ha)) l1 h2
    refine ⟨l', e, ?_, hst'.trans hst⟩
    rw [hle', hle, Nat.add_assoc]
    congr 1
    rw [show x :: tr = [x] ++ tr from rfl]
    unfold filesOpened
    rw [List.filter_append, List.length_append]

/-- C92. The same in terms of what happens. A connection is announced at time `t`, and since then not again. The first file that is opened for it lies in the directory of the date
of `t`, and every further one in that of the date at which it is opened; the number in its name is the number of files that were opened for it before. -/
theorem C92_files (env : Env) (hc : MonoClock env) (bs : List MessageBlock) (s : Saver) (h : runSaver env bs = some s) (tr1 tr2 tr3 : List Stamped) (c x : Stamped)
    (t : Int) (id : SockID) (w : Nat) (n : FileName) (hd : ArchivalRecord) (htr : s.trace = tr1 ++ c :: (tr2 ++ x :: tr3)) (hcr : c.act = .flowCreated t n.uuid id)
    (hno : ∀ z ∈ tr2, ∀ t id, z.act ≠ .flowCreated t n.uuid id) (hx : x.act = .openFile w n hd) :
    n.sequence = filesOpened n.uuid tr2 ∧ n.dir = env.date (if filesOpened n.uuid tr2 = 0 then t else env.wall x.time) := by
  obtain ⟨st, hmd, hdir⟩ := C92_directory env bs s h x (by rw [htr]; simp) w n hd hx
  obtain ⟨s1, rfl, hst, -⟩ := runSaver_closed h
  have hxm : x ∈ s1.trace := by
    have : x ∈ (s1.emit .closeChans).trace := by rw [htr]; simp
    rcases List.mem_append.1 this with h | h
    · exact h
    · have : x = ⟨s1.clock, .closeChans⟩ := by simpa using h
      subst this; simp at hx
  obtain ⟨k, hk⟩ := finv_name (finv_run hst) hxm hx
  have hr := C34_files_partial env hc bs _ h k
  rw [← hk, htr, lifeRun_append] at hr
  obtain ⟨tx, ax⟩ := x
  obtain ⟨tc, ac⟩ := c
  simp only at hx hcr
  subst hx; subst hcr
  cases h1 : lifeRun true n.uuid none tr1 with
  | none => rw [h1] at hr; simp at hr
  | some st1 =>
    rw [h1] at hr
    simp only [Option.bind_some, lifeRun] at hr
    have h2 : lifeStep true n.uuid st1 ⟨tc, .flowCreated t n.uuid id⟩ = some (some ⟨tc, t, 0, none, false⟩) := by simp [lifeStep]
    rw [h2] at hr
    simp only [Option.bind_some, lifeRun_append] at hr
    cases h3 : lifeRun true n.uuid (some ⟨tc, t, 0, none, false⟩) tr2 with
    | none => rw [h3] at hr; simp at hr
    | some st3 =>
      rw [h3] at hr
      simp only [Option.bind_some, lifeRun] at hr
      obtain ⟨l3, rfl, hle, hs3⟩ := lifeRun_opens _ _ _ hno _ _ h3
      simp only [Nat.zero_add] at hle hs3
      cases h4 : lifeStep true n.uuid (some l3) ⟨tx, .openFile w n hd⟩ with
      | none => rw [h4] at hr; simp at hr
      | some st4 =>
        unfold lifeStep at h4
        simp only [if_true] at h4
        split at h4
        · rename_i hcnd
          obtain ⟨e1, e2, _⟩ := hcnd
          have es : n.sequence = filesOpened n.uuid tr2 := e1.trans hle
          refine ⟨es, ?_⟩
          rw [hdir, ← es]
          have : st = t := by
            rw [e2] at hmd
            simp only [Option.some.injEq, Metadata.mk.injEq] at hmd
            rw [← hmd.2.2, hs3]
          rw [this]
        · simp at h4

/-- C92. The directory of a time from 1970 on is named after the date in the Gregorian calendar, in UTC: year, month and day, separated by slashes, as
decimals of four (until the year 9999), two and two digits. -/
theorem C92_date (t : Int) (ht : 0 ≤ t) :
    ∃ y m d : List Char, datePath t = y ++ '/' :: (m ++ '/' :: d) ∧ ((dateAfter (t.toNat / (86400 * 1000000000))).1 < 10000 → y.length = 4)
      ∧ m.length = 2 ∧ d.length = 2 ∧ (∀ c ∈ y ++ m ++ d, c.isDigit)
      ∧ (readNat 10 y, readNat 10 m, readNat 10 d) = dateAfter (t.toNat / (86400 * 1000000000)) := by
  have hn : t / nsPerSec / 86400 = ((t.toNat / (86400 * 1000000000) : Nat) : Int) := by
    unfold nsPerSec; omega
  have hc := civil_dateAfter (t.toNat / (86400 * 1000000000))
  have hv : (dateAfter (t.toNat / (86400 * 1000000000))).2.1 ≤ 12 ∧ (dateAfter (t.toNat / (86400 * 1000000000))).2.2 ≤ 31 := by
    have h := civil_valid ((t.toNat / (86400 * 1000000000) : Nat) : Int)
    rw [hc] at h
    have h31 : ∀ (y : Int) (m : Nat), daysIn y m ≤ 31 := by intro y m; unfold daysIn; split <;> (try split) <;> omega
    exact ⟨h.1.2, Nat.le_trans h.2.2 (h31 _ _)⟩
  refine ⟨fmtPad 4 (dateAfter (t.toNat / (86400 * 1000000000))).1, fmtPad 2 (dateAfter (t.toNat / (86400 * 1000000000))).2.1,
    fmtPad 2 (dateAfter (t.toNat / (86400 * 1000000000))).2.2, ?_, (fmtPad_length 4 _ (by decide)).2.1, (fmtPad_length 2 _ (by decide)).2.1 (by have := hv.1; omega),
    (fmtPad_length 2 _ (by decide)).2.1 (by have := hv.2; omega), ?_, ?_⟩
  · unfold datePath
    simp only
    rw [hn, hc]
    simp only
    rw [if_neg (by omega), Int.natAbs_natCast]
    rfl
  · intro c hc
    simp only [List.mem_append] at hc
    rcases hc with (hc | hc) | hc <;> exact fmtPad_digit hc
  · simp only [read_fmtPad]

/-- C92. In that directory the file is named after the connection's UUID and its number, with five digits or as many as are needed. -/
theorem C92_name (n : FileName) : ∃ seq : List Char, n.path = n.dir.toList ++ "/".toList ++ n.uuid.toList ++ ".".toList ++ seq ++ ".jsonl.zst".toList
    ∧ (∀ c ∈ seq, c.isDigit) ∧ readNat 10 seq = n.sequence ∧ 5 ≤ seq.length ∧ (n.sequence < 100000 → seq.length = 5) := by
  refine ⟨fmtPad 5 n.sequence, ?_, fun c hc => fmtPad_digit hc, read_fmtPad 5 n.sequence, (fmtPad_length 5 _ (by decide)).1, (fmtPad_length 5 _ (by decide)).2.1⟩
  unfold FileName.path
  simp only [List.append_assoc]
  rfl

/-- C92. The text of a file's name determines its directory, connection and number, if UUIDs contain no slash: two files never share a path unless they agree
in all three (see C36 for when that happens). -/
theorem C92_unambiguous (n n' : FileName) (h : '/' ∉ n.uuid.toList) (h' : '/' ∉ n'.uuid.toList) (e : n.path = n'.path) :
    n.dir = n'.dir ∧ n.uuid = n'.uuid ∧ n.sequence = n'.sequence := by
  have := path_injective h h' e
  subst this
  exact ⟨rfl, rfl, rfl⟩

/-- C36 for the paths as text (partial like `C36_names_partial`): a path is created a second time only after the connection has been announced anew. -/
theorem C36_paths_partial (env : Env) (hc : MonoClock env) (hu : ∀ k, '/' ∉ (env.uuid k).toList) (bs : List MessageBlock) (s : Saver)
    (h : runSaver env bs = some s) (tr1 tr2 tr3 : List Stamped) (x y : Stamped) (w w' : Nat) (n n' : FileName) (hd hd' : ArchivalRecord)
    (htr : s.trace = tr1 ++ x :: (tr2 ++ y :: tr3)) (hx : x.act = .openFile w n hd) (hy : y.act = .openFile w' n' hd') (e : n.path = n'.path) :
    ∃ z ∈ tr2, ∃ t id, z.act = .flowCreated t n.uuid id := by
  have hname : ∀ a ∈ s.trace, ∀ w n hd, a.act = .openFile w n hd → '/' ∉ n.uuid.toList := by
    obtain ⟨s1, rfl, hst, -⟩ := runSaver_closed h
    intro a ha w n hd hact
    rcases List.mem_append.1 (show a ∈ s1.trace ++ [_] from ha) with ha | ha
    · obtain ⟨k, hk⟩ := finv_name (finv_run hst) ha hact
      rw [hk]; exact hu k
    · have : a = ⟨s1.clock, .closeChans⟩ := by simpa using ha
      subst this; simp at hact
  have h1 := hname x (by rw [htr]; simp) w n hd hx
  have h2 := hname y (by rw [htr]; simp) w' n' hd' hy
  have := path_injective h1 h2 e
  subst this
  exact C36_names_partial env hc bs s h tr1 tr2 tr3 x y w w' n hd hd' htr hx hy

/-- C36, exactly when it fails. A connection has been announced at time `t`, and another time at time `t'` (or these are the same announcement). Two of its files, opened after these, each before the
next announcement, get the same path, so that one replaces the other, exactly if both have the same number since their announcement and the same date: for the first files that of the two times, for later
files that of the moments at which they are opened. -/
theorem C36_exact (env : Env) (hc : MonoClock env) (bs : List MessageBlock) (s : Saver) (h : runSaver env bs = some s) (u : String)
    (tr1 tr2 tr3 tr1' tr2' tr3' : List Stamped) (c x c' x' : Stamped) (t t' : Int) (id id' : SockID) (w w' : Nat) (n n' : FileName) (hd hd' : ArchivalRecord)
    (hu : '/' ∉ u.toList) (hn : n.uuid = u) (hn' : n'.uuid = u)
    (htr : s.trace = tr1 ++ c :: (tr2 ++ x :: tr3)) (hcr : c.act = .flowCreated t u id) (hno : ∀ z ∈ tr2, ∀ t id, z.act ≠ .flowCreated t u id)
    (hx : x.act = .openFile w n hd)
    (htr' : s.trace = tr1' ++ c' :: (tr2' ++ x' :: tr3')) (hcr' : c'.act = .flowCreated t' u id') (hno' : ∀ z ∈ tr2', ∀ t id, z.act ≠ .flowCreated t u id)
    (hx' : x'.act = .openFile w' n' hd') :
    n.path = n'.path ↔ filesOpened u tr2 = filesOpened u tr2'
      ∧ env.date (if filesOpened u tr2 = 0 then t else env.wall x.time) = env.date (if filesOpened u tr2' = 0 then t' else env.wall x'.time) := by
  subst hn
  obtain ⟨a1, a2⟩ := C92_files env hc bs s h tr1 tr2 tr3 c x t id w n hd htr hcr hno hx
  obtain ⟨b1, b2⟩ := C92_files env hc bs s h tr1' tr2' tr3' c' x' t' id' w' n' hd' htr' (by rw [hn']; exact hcr') (by rw [hn']; exact hno') hx'
  rw [hn'] at b1 b2
  constructor
  · intro e
    obtain ⟨e1, -, e3⟩ := C92_unambiguous n n' hu (by rw [hn']; exact hu) e
    exact ⟨a1.symm.trans (e3.trans b1), a2.symm.trans (e1.trans b2)⟩
  · rintro ⟨e1, e2⟩
    obtain ⟨d0, u0, q0⟩ := n
    obtain ⟨d1, u1, q1⟩ := n'
    simp only at hn' a1 a2 b1 b2
    subst hn'
    rw [a2, b2, a1, b1, e2, e1]

-- cases that meet the hypotheses: a trace with an announcement and files after it; with a clock that advances by a day per reading, the files of a run with the day on which each is created; a leap day;
-- the text of a name
example : ((runSaver (exEnvWith 86400000000000 [] 3) exBlocks).map (fun s => s.trace.filterMap (fun x => match x.act with
    | .openFile _ n _ => some (n, x.time / 86400000000000) | _ => none)))
    = some [(⟨"18518", "1", 0⟩, 18519), (⟨"18518", "2", 0⟩, 18522), (⟨"18528", "2", 1⟩, 18528)] := by decide +kernel
example : ((runSaver (exEnvWith 86400000000000 [] 3) exBlocks).map (fun s => s.trace.filterMap (fun x => match x.act with
    | .openFile _ n _ => some (false, n.uuid) | .flowCreated _ u _ => some (true, u) | _ => none)))
    = some [(true, "1"), (false, "1"), (true, "2"), (false, "2"), (false, "2")] := by decide +kernel
-- `C36_exact`: a connection that is announced twice, with its first file each time
example : ((runSaver exEnv gapBlocks).map (fun s => s.trace.filterMap (fun x => match x.act with
    | .openFile _ n _ => some (n.sequence, n.dir, n.uuid) | .flowCreated t u _ => some (1000, exEnv.date t, u) | _ => none)))
    = some [(1000, "0", "1"), (0, "0", "1"), (1000, "0", "1"), (0, "0", "1")] := by decide +kernel
example : datePath 1605571200000000000 = "2020/11/17".toList := by decide +kernel
example : datePath 951782400000000000 = "2000/02/29".toList := by decide +kernel
example : (FileName.mk "2020/11/17" "host_1_00000000000000AB" 7).path = "2020/11/17/host_1_00000000000000AB.00007.jsonl.zst".toList := by decide +kernel

end TcpInfo
