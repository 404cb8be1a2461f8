import Verif.Lemmas.Killed
/-!
# Property C103: what a killed command leaves on disk
-/

namespace TcpInfo
open Spec

/-- C103 (partial: the compressor had been started, see `C103_violated`; it follows from its ending well). The command is killed at any moment of any
schedule. Every compressor that ends without failing has then put on disk at least everything the command had written to the file in calls that had
returned, and only a tail is missing from what the complete run would have written. -/
theorem C103_left_partial (me : MEnv) (env : Env) (cap : Nat) (bs : List MessageBlock) (s : Saver) (h : runSaver env bs = some s) (hm : 0 < env.marshallers)
    (hm' : env.marshallers < 2 ^ 64) (cs : List DChoice) (d : Disk) (hr : runDisk me env cap bs cs = some d) (w : Nat) (z : Zstd.ZState)
    (hz : d.writers w = some z) (cs' : List Zstd.Choice) (z' : Zstd.ZState) (hx : z.orphan.exec cap cs' = some z') (hok : z'.child = .exited true) :
    ∃ n hd, ∃ ws : List ArchivalRecord, ∃ q data, fileEvents w s.trace = .opened n hd :: ws.map (.wrote q) ++ [.closed q] ∧ z'.disk = some data
      ∧ contents (d.proc.m.files w) <+: data ∧ data <+: fileText me.json me.anon.f hd ws := by
  have hre := ((dinv_run h hm hm' hr).zs w z hz).1.reachable
  have hne : z.child ≠ .exited false := by
    intro hc
    cases cs' with
    | nil =>
      simp only [Zstd.ZState.exec, Option.some.injEq] at hx
      subst hx
      simp [Zstd.ZState.orphan, hc] at hok
    | cons c cs' =>
      simp only [Zstd.ZState.exec] at hx
      obtain ⟨z1, h1, -⟩ := Option.bind_eq_some_iff.1 hx
      have := (Zstd.oinv_step (Zstd.oinv_start hre) h1).2.1
      simp [Zstd.ZState.orphan, hc] at this
  obtain ⟨n, hd, ws, q, he, h1, h2⟩ := killed_accepted h hm hm' hr hz hne
  have ho := Zstd.oinv_exec cs' (Zstd.oinv_start hre) hx
  obtain ⟨hp, hdk⟩ := ho.ok hok
  have hall := ho.all
  rw [hp, List.append_nil] at hall
  exact ⟨n, hd, ws, q, z'.consumed, he, hdk, by rw [hall]; exact h1, by rw [hall]; exact h2⟩

/-- C103. A compressor that was running when the command was killed is not kept waiting: as long as it runs, it can read what is left or it sees end of
file. It takes at most as many steps as bytes are left and one more; and if it does not fail it ends well. -/
theorem C103_ends (me : MEnv) (env : Env) (cap : Nat) (bs : List MessageBlock) (s : Saver) (h : runSaver env bs = some s) (hm : 0 < env.marshallers)
    (hm' : env.marshallers < 2 ^ 64) (cs : List DChoice) (d : Disk) (hr : runDisk me env cap bs cs = some d) (w : Nat) (z : Zstd.ZState)
    (hz : d.writers w = some z) (cs' : List Zstd.Choice) (z' : Zstd.ZState) (hx : z.orphan.exec cap cs' = some z') :
    cs'.length ≤ cap + 1
    ∧ (z'.child = .running → ∃ c, c ≠ .crash ∧ (z'.step cap c).isSome)
    ∧ (.crash ∉ cs' → z.child = .running → (∀ c, c ≠ .crash → z'.step cap c = none) → z'.child = .exited true) := by
  have hre := ((dinv_run h hm hm' hr).zs w z hz).1.reachable
  have ho := Zstd.oinv_exec cs' (Zstd.oinv_start hre) hx
  have hprog : z'.child = .running → ∃ c, c ≠ .crash ∧ (z'.step cap c).isSome := by
    intro hc
    cases hp : z'.pipe with
    | nil => exact ⟨.finish, by simp, by simp [Zstd.ZState.step, hc, hp, ho.wOpen]⟩
    | cons b t => exact ⟨.read 1, by simp, by simp [Zstd.ZState.step, hc, hp]⟩
  refine ⟨?_, hprog, ?_⟩
  · have key : ∀ (cs' : List Zstd.Choice) (acc : Bytes) (y y' : Zstd.ZState), Zstd.OInv acc y → y.exec cap cs' = some y' →
        cs'.length ≤ y.pipe.length + (if y.child = .running then 1 else 0) := by
      intro cs'
      induction cs' with
      | nil => intros; simp
      | cons c cs' ih =>
        intro acc y y' hy hx
        simp only [Zstd.ZState.exec] at hx
        obtain ⟨y1, h1, h2⟩ := Option.bind_eq_some_iff.1 hx
        obtain ⟨g1, g2, -⟩ := Zstd.oinv_step hy h1
        have := ih acc y1 y' g1 h2
        rw [if_pos g2]
        cases c with
        | user k => simp [Zstd.ZState.step, Zstd.ZState.userStep, hy.user.1, hy.user.2] at h1
        | gor st => simp [Zstd.ZState.step, Zstd.ZState.gorStep, hy.gpc] at h1
        | read k =>
          simp only [Zstd.ZState.step] at h1
          split at h1
          · rename_i hk
            simp only [Option.some.injEq] at h1; subst h1
            simp only [List.length_drop, g2, if_true, List.length_cons] at this ⊢
            omega
          · simp at h1
        | finish =>
          simp only [Zstd.ZState.step] at h1
          split at h1
          · simp only [Option.some.injEq] at h1; subst h1
            simp only [reduceCtorEq, if_false, List.length_cons] at this ⊢
            omega
          · simp at h1
        | crash =>
          simp only [Zstd.ZState.step] at h1
          split at h1
          · simp only [Option.some.injEq] at h1; subst h1
            simp only [reduceCtorEq, if_false, List.length_cons] at this ⊢
            omega
          · rename_i hc; exact absurd g2 hc
    have h1 := key cs' _ _ _ (Zstd.oinv_start hre) hx
    have h2 : z.orphan.pipe.length ≤ cap := (Zstd.fits_reachable hre).pipe
    split at h1 <;> omega
  · intro hnc hrun hend
    have key : ∀ (cs' : List Zstd.Choice) (acc : Bytes) (y y' : Zstd.ZState), .crash ∉ cs' → Zstd.OInv acc y → y.child = .running ∨ y.child = .exited true →
        y.exec cap cs' = some y' → y'.child = .running ∨ y'.child = .exited true := by
      intro cs'
      induction cs' with
      | nil => intro acc y y' _ _ hc hx; simp only [Zstd.ZState.exec, Option.some.injEq] at hx; exact hx ▸ hc
      | cons c cs' ih =>
        intro acc y y' hn hy hc hx
        simp only [Zstd.ZState.exec] at hx
        obtain ⟨y1, h1, h2⟩ := Option.bind_eq_some_iff.1 hx
        refine ih acc y1 y' (fun x => hn (List.mem_cons_of_mem _ x)) (Zstd.oinv_step hy h1).1 ?_ h2
        cases c with
        | user k => simp [Zstd.ZState.step, Zstd.ZState.userStep, hy.user.1, hy.user.2] at h1
        | gor st => simp [Zstd.ZState.step, Zstd.ZState.gorStep, hy.gpc] at h1
        | read k =>
          simp only [Zstd.ZState.step] at h1
          split at h1
          · simp only [Option.some.injEq] at h1; subst h1; exact hc
          · simp at h1
        | finish =>
          simp only [Zstd.ZState.step] at h1
          split at h1
          · simp only [Option.some.injEq] at h1; subst h1; exact Or.inr rfl
          · simp at h1
        | crash => simp at hn
    rcases key cs' _ _ _ hnc (Zstd.oinv_start hre) (Or.inl hrun) hx with hc | hc
    · obtain ⟨c, h1, h2⟩ := hprog hc
      rw [hend c h1] at h2; simp at h2
    · exact hc

/-- C103 (partial, as above). Read back: such a file is decompressed and loaded; the records are those of the complete run in order, a tail missing. Records
whose text and newline had been written when the command was killed are not in that tail. If there is an error it is that the last line is cut off. -/
theorem C103_archive_partial (zone : Int → Int) (hzn : ∀ t, (zone t).natAbs < 24 * 60) (anon : Anonymizer) (env : Env) (cap : Nat) (bs : List MessageBlock)
    (hi : ShortInput env bs) (s : Saver) (h : runSaver env bs = some s) (hm : 0 < env.marshallers) (hm' : env.marshallers < 2 ^ 64) (cs : List DChoice)
    (d : Disk) (hr : runDisk (jsonEnv zone anon) env cap bs cs = some d) (w : Nat) (z : Zstd.ZState) (hz : d.writers w = some z) (cs' : List Zstd.Choice)
    (z' : Zstd.ZState) (hx : z.orphan.exec cap cs' = some z') (hok : z'.child = .exited true) :
    ∃ n hd, ∃ ws : List ArchivalRecord, ∃ q data, fileEvents w s.trace = .opened n hd :: ws.map (.wrote q) ++ [.closed q] ∧ z'.disk = some data
      ∧ ∀ cap' r, Zstd.DReachable cap' data true r → r.eof = true →
        ∃ out e, loadAllArchivalRecords ⟨r.received, .eof⟩ = (out, e) ∧ (e = none ∨ e = some .json)
          ∧ out.length ≤ (hd :: ws.filterMap (anonymized anon.f)).length
          ∧ (∀ (i : Nat) (a b : ArchivalRecord), (hd :: ws.filterMap (anonymized anon.f))[i]? = some a → out[i]? = some b → SameContents a b)
          ∧ ∀ k ≤ (hd :: ws.filterMap (anonymized anon.f)).length,
              ((hd :: ws.filterMap (anonymized anon.f)).take k).flatMap (lineOf (jsonEnv zone anon).json) <+: contents (d.proc.m.files w) → k ≤ out.length := by
  obtain ⟨n, hd, ws, q, data, he, hdk, h1, h2⟩ := C103_left_partial _ env cap bs s h hm hm' cs d hr w z hz cs' z' hx hok
  refine ⟨n, hd, ws, q, data, he, hdk, fun cap' r hr1 hr2 => ?_⟩
  rw [(C70_eof cap' _ true r hr1 hr2).1]
  have hfit := short_lines hzn anon hi h he
  generalize hrs : hd :: ws.filterMap (anonymized anon.f) = rs at hfit ⊢
  have hx1 : rs.map (marshalRecord zone) = (rs.map (jsonEnv zone anon).json).map some := by
    rw [List.map_map]
    refine List.map_congr_left (fun r hr => ?_)
    obtain ⟨b, hb, _⟩ := (hfit r hr).1
    simp [jsonEnv, hb]
  have hx2 : ∀ l ∈ rs.map (jsonEnv zone anon).json, l.length < 65536 := by
    intro l hl
    obtain ⟨r, hr, rfl⟩ := List.mem_map.mp hl
    obtain ⟨b, hb, hlen⟩ := (hfit r hr).1
    simpa [jsonEnv, hb] using hlen
  have hlt : ∀ rs : List ArchivalRecord, rs.flatMap (lineOf (jsonEnv zone anon).json) = linesText (rs.map (jsonEnv zone anon).json) := by
    intro rs
    unfold linesText
    rw [List.flatMap_map]; rfl
  have hft : fileText (jsonEnv zone anon).json (jsonEnv zone anon).anon.f hd ws = linesText (rs.map (jsonEnv zone anon).json) := by
    rw [← hrs, ← hlt]; rfl
  rw [hft] at h2
  obtain ⟨full, g1, g2, g3⟩ := C22_roundtrip zone hzn rs _ hx1 (fun r hr => (hfit r hr).2) hx2
  have hlen : data.length ≤ (linesText (rs.map (jsonEnv zone anon).json)).length := h2.length_le
  have hcut := C24_cut zone hzn rs _ hx1 (fun r hr => (hfit r hr).2) hx2 data.length hlen
  rw [← List.prefix_iff_eq_take.1 h2, g1] at hcut
  refine ⟨_, _, hcut, ?_, ?_, ?_, ?_⟩
  · split
    · exact Or.inl rfl
    · exact Or.inr rfl
  · rw [List.length_take, g2]; omega
  · intro i a b ha hb
    refine g3 i a b ha ?_
    rw [List.getElem?_take] at hb
    split at hb
    · exact hb
    · simp at hb
  · intro k hk hpre
    have hpre := hpre.trans h1
    rw [hlt, List.map_take] at hpre
    obtain ⟨p, hp⟩ := hpre
    obtain ⟨t, ht⟩ := h2
    have hw := C24_written_before zone hzn rs _ hx1 (fun r hr => (hfit r hr).2) hx2 k p t (by rw [hp, ht])
    rw [hp, hcut, g1] at hw
    have := hw.length_le
    simp only [List.length_take, g2] at this ⊢
    omega

/-- C103. A compressor that had not been started when the command was killed never puts anything on disk; what is lost is at most what fits into the pipe. -/
theorem C103_unstarted (me : MEnv) (env : Env) (cap : Nat) (bs : List MessageBlock) (s : Saver) (h : runSaver env bs = some s) (hm : 0 < env.marshallers)
    (hm' : env.marshallers < 2 ^ 64) (cs : List DChoice) (d : Disk) (hr : runDisk me env cap bs cs = some d) (w : Nat) (z : Zstd.ZState)
    (hz : d.writers w = some z) (hc : z.child = .notStarted) :
    (contents (d.proc.m.files w)).length ≤ cap ∧ ∀ cs' z', z.orphan.exec cap cs' = some z' → z'.disk = none := by
  have hre := ((dinv_run h hm hm' hr).zs w z hz).1.reachable
  constructor
  · obtain ⟨n, hd, ws, q, -, h1, -⟩ := killed_accepted h hm hm' hr hz (by rw [hc]; simp)
    have hf := Zstd.fits_reachable hre
    have hp := (Zstd.inv_reachable hre).pipe
    rw [hf.unread hc, List.nil_append] at hp
    have := h1.length_le
    rw [← hp] at this
    exact Nat.le_trans this hf.pipe
  · intro cs' z' hx
    have ho := Zstd.oinv_start hre
    cases cs' with
    | nil =>
      simp only [Zstd.ZState.exec, Option.some.injEq] at hx
      subst hx
      cases hd : z.orphan.disk with
      | none => rfl
      | some b =>
        have := ho.none b hd
        simp [Zstd.ZState.orphan, hc] at this
    | cons c cs' =>
      simp only [Zstd.ZState.exec] at hx
      obtain ⟨z1, h1, -⟩ := Option.bind_eq_some_iff.1 hx
      have := (Zstd.oinv_step ho h1).2.1
      simp [Zstd.ZState.orphan, hc] at this

/-! ## Concrete runs -/

/-- Calls return at once, no compressor is started yet. -/
def killedTurns : List DChoice := (List.range 40).flatMap (fun _ =>
  [.proc .main, .proc .saver, .proc (.worker 0), .proc (.worker 1), .proc (.worker 2), .zstd 0 (.user 1), .zstd 1 (.user 1)])
def killedLate : Option Disk := runDisk exMEnv exEnv 64 exBlocks (diskSkip exMEnv exEnv 64 killedTurns (diskInit exBlocks 3)).1

/-- C103 fails: header and first record of the second file had been written, with their newlines and without any error, when the command was killed. The
compressor had not been started; nothing reaches the disk, whatever happens. -/
theorem C103_violated : ∃ (s : Saver) (cs : List DChoice) (d : Disk) (z : Zstd.ZState), runSaver exEnv exBlocks = some s
    ∧ runDisk exMEnv exEnv 64 exBlocks cs = some d ∧ d.writers 1 = some z
    ∧ z.rets = [.wrote [1] true, .wrote [10] true, .wrote [2, 2, 10, 0] true, .wrote [10] true, .wrote [2, 2, 10, 0] true]
    ∧ contents (d.proc.m.files 1) = [1, 10, 2, 2, 10, 0, 10, 2, 2, 10, 0]
    ∧ ∀ cs' z', z.orphan.exec 64 cs' = some z' → z'.disk = none := by
  have h : (runSaver exEnv exBlocks).isSome && killedLate.any (fun d => decide (contents (d.proc.m.files 1) = [1, 10, 2, 2, 10, 0, 10, 2, 2, 10, 0])
      && (d.writers 1).any (fun z => decide (z.child = .notStarted
        ∧ z.rets = [.wrote [1] true, .wrote [10] true, .wrote [2, 2, 10, 0] true, .wrote [10] true, .wrote [2, 2, 10, 0] true]))) = true := by
    decide +kernel
  cases hs : runSaver exEnv exBlocks with
  | none => rw [hs] at h; simp at h
  | some s =>
    cases hr : killedLate with
    | none => rw [hr] at h; simp at h
    | some d =>
      cases hz : d.writers 1 with
      | none => rw [hr] at h; simp [hz] at h
      | some z =>
        rw [hr] at h
        simp only [Option.any_some, hz, Bool.and_eq_true, decide_eq_true_eq] at h
        obtain ⟨-, h1, h2, h3⟩ := h
        exact ⟨s, _, d, z, rfl, hr, hz, h3, h1, (C103_unstarted exMEnv exEnv 64 exBlocks s hs (by decide) (by decide) _ d hr 1 z hz h2).2⟩

/-- The command of `exFull`, killed in the middle of the second record of the second file, with a byte in the pipe. -/
def exKilled : Option Disk :=
  runDisk exMEnv exEnv 4 exBlocks (diskSkip exMEnv exEnv 4 (diskTurns 36 (fun _ => [.finish]) ++ [.zstd 1 (.user 1)]) (diskInit exBlocks 3)).1
def exOrphan : Option Zstd.ZState := exKilled.bind (fun d => (d.writers 1).bind (fun z => z.orphan.exec 4 [.read 1, .finish]))

/-- Header and first record had been written; they are on disk, and the beginning of the second record. -/
example : exKilled.map (fun d => (contents (d.proc.m.files 1), (d.writers 1).map (fun z => (z.pipe, z.child))))
    = some ([1, 10, 2, 2, 10, 0, 10], some ([10], .running)) := by decide +kernel
example : exOrphan.map (fun z => (z.disk, z.child)) = some (some [1, 10, 2, 2, 10, 0, 10, 2, 2, 10], .exited true) := by decide +kernel

/-- The same with the real text of the records, killed when 230 bytes of the second record have been written. -/
def exKilledJson : Option Disk :=
  runDisk exJsonEnv exEnv 700 exBlocks (diskSkip exJsonEnv exEnv 700 ((List.range 48).flatMap (fun _ =>
    [.proc .main, .proc .saver, .proc (.worker 0), .proc (.worker 1), .proc (.worker 2)] ++ (List.range 2).flatMap (fun w =>
      [.zstd w (.gor true), .zstd w (.user 0), .zstd w (.user 108), .zstd w (.user 121), .zstd w (.user 1), .zstd w (.read 108), .zstd w (.read 121),
       .zstd w (.read 1)]))) (diskInit exBlocks 3)).1
def exLoaded : Option (List ArchivalRecord × Option GoErr) := exKilledJson.bind (fun d => (d.writers 1).bind (fun z => (z.orphan.exec 700 [.finish]).bind
  (fun z => z.disk.map (fun data => loadAllArchivalRecords ⟨data, .eof⟩))))

/-- Header and first record are loaded. -/
example : exKilledJson.map (fun d => (splitLines (contents (d.proc.m.files 1))).map List.length) = some [108, 484] := by decide +kernel
set_option synthInstance.maxSize 1000 in
example : exLoaded.map (fun r => (r.1.map (fun r => (r.metadata.map (fun m => (m.uuid, m.sequence)), r.raw.length, r.attrs.length)), r.2))
    = some ([(some ("2", 0), 0, 0), (none, 72, 3)], some .json) := by decide +kernel

end TcpInfo
