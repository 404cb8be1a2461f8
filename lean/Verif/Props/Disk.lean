import Verif.Lemmas.Disk
/-!
# Properties C100 to C102: the command together with its compressors
-/

namespace TcpInfo
open Spec

/-! ## C100 -/

theorem disk_proc {me : MEnv} {env : Env} {cap : Nat} {bs : List MessageBlock} {cs : List DChoice} {d : Disk} (hr : runDisk me env cap bs cs = some d) :
    ∃ ps, runProc me env bs ps = some d.proc := by
  have key : ∀ (cs : List DChoice) (d0 d : Disk), (∃ ps, runProc me env bs ps = some d0.proc) → Disk.exec me env cap cs d0 = some d →
      ∃ ps, runProc me env bs ps = some d.proc := by
    intro cs
    induction cs with
    | nil => intro d0 d hi hx; simp only [Disk.exec, Option.some.injEq] at hx; rw [← hx]; exact hi
    | cons c cs ih =>
      intro d0 d hi hx
      simp only [Disk.exec] at hx
      obtain ⟨d1, h1, h2⟩ := Option.bind_eq_some_iff.1 hx
      refine ih d1 d ?_ h2
      obtain ⟨ps, hps⟩ := hi
      have go : ∀ c p, d0.proc.step me env c = some p → ∃ ps, runProc me env bs ps = some p := fun c p hp => ⟨ps ++ [c], runProc_then hps hp⟩
      unfold Disk.step at h1
      split at h1
      · simp at h1
      · cases c with
        | zstd w c =>
          obtain ⟨z, h3, h4⟩ := Option.bind_eq_some_iff.1 h1
          obtain ⟨z', h5, h6⟩ := Option.map_eq_some_iff.1 h4
          rw [← h6]; exact ⟨ps, hps⟩
        | proc c =>
          cases c with
          | main =>
            obtain ⟨p, h3, h4⟩ := Option.map_eq_some_iff.1 h1
            rw [← h4]; exact go _ p h3
          | saver =>
            simp only [Disk.saverStep] at h1
            split at h1
            · split at h1
              · split at h1
                · simp at h1
                · split at h1
                  · obtain ⟨p, h3, h4⟩ := Option.map_eq_some_iff.1 h1
                    rw [← h4]; exact go _ p h3
                  · simp at h1
              · split at h1
                · simp at h1
                · simp only [Option.some.injEq] at h1
                  rw [← h1]; exact ⟨ps, hps⟩
            · obtain ⟨p, h3, h4⟩ := Option.map_eq_some_iff.1 h1
              rw [← h4]; exact go _ p h3
          | worker i =>
            simp only [Disk.workerStep] at h1
            split at h1
            · obtain ⟨p, h3, h4⟩ := Option.map_eq_some_iff.1 h1
              rw [← h4]; exact go _ p h3
            · split at h1
              · simp at h1
              · split at h1
                · split at h1
                  · obtain ⟨p, h3, h4⟩ := Option.map_eq_some_iff.1 h1
                    rw [← h4]; exact go _ p h3
                  · simp at h1
                · simp only [Option.some.injEq] at h1
                  rw [← h1]; exact ⟨ps, hps⟩
  exact key cs _ d ⟨[], rfl⟩ hr

theorem zCalls_count (ops : List FileOp) (h : FileOp.close ∉ ops) : (zCalls (ops ++ [.close])).count .close = 1 := by
  rw [zCalls_append, List.count_append]
  have : (zCalls ops).count .close = 0 := by
    rw [List.count_eq_zero]
    intro hm
    obtain ⟨o, h1, h2⟩ := List.mem_map.1 hm
    cases o with
    | data b => simp at h2
    | close => exact h h1
  rw [this]; rfl

theorem opened_mem {s : Saver} {w : Nat} {n : FileName} {hd : ArchivalRecord} (h : FileEvent.opened n hd ∈ fileEvents w s.trace) : .openFile w n hd ∈ program s := by
  obtain ⟨a, ha, hae⟩ := List.mem_filterMap.1 h
  refine List.mem_map.2 ⟨a, ha, ?_⟩
  unfold fileEvent at hae
  split at hae
  · split at hae
    · rename_i w' n' h' hx hw
      simp only [Option.some.injEq, FileEvent.opened.injEq] at hae
      rw [hx, hw, hae.1, hae.2]
    · simp at hae
  · split at hae <;> simp at hae
  · split at hae <;> simp at hae
  · simp at hae

/-- The state of the writers when `main` has returned. -/
theorem returned_writers {me : MEnv} {env : Env} {cap : Nat} {bs : List MessageBlock} (hm : 0 < env.marshallers) (hm' : env.marshallers < 2 ^ 64)
    {cs : List DChoice} {d : Disk} (hr : runDisk me env cap bs cs = some d) (hp : d.proc.pc = .returned) {s : Saver} (h : runSaver env bs = some s) (w : Nat) :
    d.proc.m.files w = (program s).flatMap (actOps me w)
      ∧ ((d.proc.m.files w = [] ∧ d.writers w = none)
        ∨ ∃ z ops, d.writers w = some z ∧ d.proc.m.files w = ops ++ [.close] ∧ .close ∉ ops ∧ Zstd.Reachable cap (zCalls (d.proc.m.files w)) z
          ∧ .closed true ∈ z.rets) := by
  have hi := dinv_run h hm hm' hr
  obtain ⟨ps, hps, -⟩ := hi.proc
  obtain ⟨s', cs', h1, h2, h3, h4, h5, h6, h7⟩ := returned_all (runProc_inv hps) hp
  rw [h] at h1
  obtain rfl : s = s' := by simpa using h1
  obtain ⟨done, hinv⟩ := process_inv me env bs s h hm hm' cs' d.proc.m h2
  have hf := (wg_zero (program_ok env bs s h hm hm') hinv).1 h3
  have hfi := finished_files hinv hf w
  refine ⟨hfi, ?_⟩
  have hwk : ∀ i, d.proc.m.callOf i = none := by
    intro i
    unfold MState.callOf
    cases hx : d.proc.m.workers[i]? with
    | none => rfl
    | some wk =>
      have := ((C42_wait me env bs s h hm hm' cs' d.proc.m h2 h3).2.1 wk (List.mem_of_getElem? hx)).1
      simp [this, PC.call]
  have hsv : d.saverIn = false := by
    cases hx : d.saverIn with
    | false => rfl
    | true =>
      obtain ⟨w', n, hd, rem, hrem, -⟩ := hi.inS hx
      rw [h4] at hrem; simp at hrem
  have hcs : d.curSaver me w = [] := by simp [Disk.curSaver, hsv]
  have hcw : d.curWorker (homeOf s w) w = [] := by simp [Disk.curWorker, hwk]
  have hnew : program s = program s ++ (d.proc.m.rem ++ newActions d.proc.loop.svr s) := by
    rw [h4, h7]; simp [newActions]
  rcases file_ops me env bs s h w with hnil | ⟨ops, ho, hno⟩
  · left
    refine ⟨by rw [hfi, hnil], ?_⟩
    apply Classical.byContradiction
    intro hne
    rcases hi.known _ hnew w hne with ⟨n, hd, hmem⟩ | ⟨hx, -⟩
    · have : (FileOp.data (me.json hd)) ∈ (program s).flatMap (actOps me w) := List.mem_flatMap.2 ⟨_, hmem, by simp [actOps]⟩
      rw [hnil] at this; simp at this
    · rw [hsv] at hx; simp at hx
  · right
    have hop : ∃ n hd, .openFile w n hd ∈ program s := by
      rcases C38_closed_once env bs s h w with he | ⟨n, hd, ws, q, he⟩
      · rw [program, program_ops, he] at ho
        simp at ho
      · exact ⟨n, hd, opened_mem (by rw [he]; simp)⟩
    obtain ⟨n, hd, hmem⟩ := hop
    have hne := hi.opened _ hnew w n hd hmem
    obtain ⟨z, hz⟩ := Option.ne_none_iff_exists'.1 hne
    obtain ⟨ha, hfree⟩ := hi.zs w z hz
    rw [hcs, hcw, List.append_nil, List.append_nil] at ha
    have hfr := hfree (by rw [hcs, hcw]; rfl)
    refine ⟨z, ops, hz, by rw [hfi, ho], hno, ha.reachable, Zstd.closed_once ha.reachable hfr ?_⟩
    rw [hfi, ho]; exact zCalls_count ops hno

/-- C100. `main` has returned, under any schedule of collector, saver, marshallers, pipes and compressors. A file that was opened had its `Close`
return without error and its compressor process is over; if that process did not fail, the file has on disk the complete compressed form of the header
line and all records queued for it, in order, anonymized, each on its line. This holds file by file: the failure of a compressor affects no other file. -/
theorem C100_on_disk (me : MEnv) (env : Env) (cap : Nat) (bs : List MessageBlock) (hm : 0 < env.marshallers) (hm' : env.marshallers < 2 ^ 64)
    (cs : List DChoice) (d : Disk) (hr : runDisk me env cap bs cs = some d) (hp : d.proc.pc = .returned) :
    ∃ s, runSaver env bs = some s ∧ ∀ w, (fileEvents w s.trace = [] ∧ d.writers w = none)
      ∨ ∃ n hd, ∃ ws : List ArchivalRecord, ∃ q z, fileEvents w s.trace = .opened n hd :: ws.map (.wrote q) ++ [.closed q]
        ∧ d.writers w = some z ∧ .closed true ∈ z.rets
        ∧ (z.child = .exited false ∨ (z.child = .exited true ∧ z.disk = some (fileText me.json me.anon.f hd ws))) := by
  obtain ⟨ps, hps⟩ := disk_proc hr
  obtain ⟨s, cs', h1, h2, h3, -⟩ := returned_all (runProc_inv hps) hp
  refine ⟨s, h1, fun w => ?_⟩
  obtain ⟨hfi, hw⟩ := returned_writers hm hm' hr hp h1 w
  rcases C39_contents me env bs s h1 hm hm' cs' d.proc.m h2 h3 w with ⟨he, hf⟩ | ⟨n, hd, ws, q, he, hc⟩
  · left
    refine ⟨he, ?_⟩
    rcases hw with ⟨-, hn⟩ | ⟨z, ops, -, ho, -⟩
    · exact hn
    · rw [hf] at ho; simp at ho
  · right
    rcases hw with ⟨hn, -⟩ | ⟨z, ops, hz, ho, hno, hre, hcl⟩
    · rw [hfi, program, program_ops, he] at hn; simp [evOps] at hn
    · refine ⟨n, hd, ws, q, z, he, hz, hcl, ?_⟩
      obtain ⟨ok, hok⟩ := C58_exited cap _ z hre hcl
      cases ok with
      | false => exact Or.inl hok
      | true =>
        refine Or.inr ⟨hok, ?_⟩
        rw [C58_on_disk_partial cap _ z hre hcl (by rw [hok]; simp), ← hc, ho, beforeClose_calls ops hno]

/-- C100. Read back: each such file is decompressed, under every schedule of the decompressor, and loaded without error as the header record followed by
exactly the records queued for it. Messages of at most 48000 bytes, block times in the years 0 to 9999 (`ShortInput`). -/
theorem C100_archive (zone : Int → Int) (hz : ∀ t, (zone t).natAbs < 24 * 60) (anon : Anonymizer) (env : Env) (cap : Nat) (bs : List MessageBlock)
    (hi : ShortInput env bs) (hm : 0 < env.marshallers) (hm' : env.marshallers < 2 ^ 64) (cs : List DChoice) (d : Disk)
    (hr : runDisk (jsonEnv zone anon) env cap bs cs = some d) (hp : d.proc.pc = .returned) :
    ∃ s, runSaver env bs = some s ∧ ∀ w, (fileEvents w s.trace = [] ∧ d.writers w = none)
      ∨ ∃ n hd, ∃ ws : List ArchivalRecord, ∃ q z, fileEvents w s.trace = .opened n hd :: ws.map (.wrote q) ++ [.closed q] ∧ d.writers w = some z
        ∧ (z.child ≠ .exited false → ∃ data, z.disk = some data ∧ ∀ cap' r, Zstd.DReachable cap' data true r → r.eof = true →
            ∃ out, loadAllArchivalRecords ⟨r.received, .eof⟩ = (out, none)
              ∧ out.length = (hd :: ws.filterMap (anonymized anon.f)).length
              ∧ ∀ (i : Nat) (a b : ArchivalRecord), (hd :: ws.filterMap (anonymized anon.f))[i]? = some a → out[i]? = some b → SameContents a b) := by
  obtain ⟨ps, hps⟩ := disk_proc hr
  obtain ⟨s, h1, ha⟩ := C74_archive zone hz anon env bs hi hm hm' ps d.proc hps hp
  refine ⟨s, h1, fun w => ?_⟩
  obtain ⟨hfi, hw⟩ := returned_writers hm hm' hr hp h1 w
  rcases ha w with ⟨he, hf⟩ | ⟨n, hd, ws, q, he, hc⟩
  · left
    refine ⟨he, ?_⟩
    rcases hw with ⟨-, hn⟩ | ⟨z, ops, -, ho, -⟩
    · exact hn
    · rw [hf] at ho; simp at ho
  · right
    rcases hw with ⟨hn, -⟩ | ⟨z, ops, hz, ho, hno, hre, hcl⟩
    · rw [hfi, program, program_ops, he] at hn; simp [evOps] at hn
    · exact ⟨n, hd, ws, q, z, he, hz, fun hok => hc cap z hre hcl hok⟩

/-! ## C101 -/

theorem opWork_prefix {a b : List Zstd.Op} (h : a <+: b) : Zstd.opWork a ≤ Zstd.opWork b := by
  obtain ⟨t, rfl⟩ := h
  induction a with
  | nil => simp [Zstd.opWork]
  | cons o a ih => cases o <;> simp [Zstd.opWork] <;> omega

theorem zCalls_prefix {a b : List FileOp} (h : a <+: b) : zCalls a <+: zCalls b := by
  obtain ⟨t, rfl⟩ := h
  rw [zCalls_append]; exact List.prefix_append _ _

theorem length_parts (W : List Nat) (cs : List DChoice) (h : ∀ w, zPart w cs ≠ [] → w ∈ W) :
    cs.length ≤ procCount cs + (W.map (fun w => (zPart w cs).length)).sum := by
  have hW : ∀ w c, DChoice.zstd w c ∈ cs → w ∈ W := by
    intro w c hm
    refine h w fun hn => ?_
    have : c ∈ zPart w cs := List.mem_filterMap.2 ⟨_, hm, by simp⟩
    rw [hn] at this; simp at this
  clear h
  induction cs with
  | nil => simp
  | cons c cs ih =>
    have ih := ih fun w c hm => hW w c (List.mem_cons_of_mem _ hm)
    cases c with
    | proc c =>
      have e1 : procCount (.proc c :: cs) = procCount cs + 1 := by simp [procCount]
      have e2 : ∀ w, zPart w (.proc c :: cs) = zPart w cs := by intro w; simp [zPart]
      simp only [e1, e2, List.length_cons]
      omega
    | zstd v c =>
      have e1 : procCount (.zstd v c :: cs) = procCount cs := by simp [procCount]
      have e2 : ∀ w, (zPart w (.zstd v c :: cs)).length = (zPart w cs).length + if v = w then 1 else 0 := by
        intro w
        by_cases e : v = w <;> simp [zPart, e]
      have key : ∀ W : List Nat, v ∈ W →
          (W.map (fun w => (zPart w cs).length)).sum + 1 ≤ (W.map (fun w => (zPart w cs).length + if v = w then 1 else 0)).sum := by
        intro W
        induction W with
        | nil => simp
        | cons u W ihW =>
          intro hv
          simp only [List.map_cons, List.sum_cons]
          have mono : (W.map (fun w => (zPart w cs).length)).sum ≤ (W.map (fun w => (zPart w cs).length + if v = w then 1 else 0)).sum := by
            clear ihW hv
            induction W with
            | nil => simp
            | cons u W ihm => simp only [List.map_cons, List.sum_cons]; omega
          by_cases e : v = u
          · simp only [e, if_true]
            rw [e] at mono
            omega
          · have := ihW (by simpa [e] using hv)
            simp only [if_neg e]
            omega
      have := key W (hW v c (List.mem_cons_self ..))
      simp only [e1, e2, List.length_cons]
      omega

/-- What a writer has been called with is the beginning of what the complete run calls it with. -/
theorem hist_prefix {me : MEnv} {env : Env} {cap : Nat} {bs : List MessageBlock} {s : Saver} (h : runSaver env bs = some s) (hm : 0 < env.marshallers)
    (hm' : env.marshallers < 2 ^ 64) {cs : List DChoice} {d : Disk} (hi : DInv me env cap bs s cs d) (w : Nat) :
    zCalls (d.proc.m.files w) ++ (d.curSaver me w ++ d.curWorker (homeOf s w) w) <+: zCalls ((program s).flatMap (actOps me w)) := by
  obtain ⟨ps, hps, -⟩ := hi.proc
  have hcr := (C73_returns me env bs s h hm hm' ps d.proc hps).2.1
  obtain ⟨done, hinv⟩ := proc_minv h hm hm' (runProc_inv hps) hcr
  have hpre : d.proc.m.files w <+: (program s).flatMap (actOps me w) := files_prefix hinv w
  have hsp : program s = done ++ (d.proc.m.rem ++ newActions d.proc.loop.svr s) := hinv.split
  by_cases hw : ∃ op, d.proc.m.callOf (homeOf s w) = some (w, op) ∧ d.workerIn (homeOf s w) = true
  · obtain ⟨op, hop, hin⟩ := hw
    have h1 : d.curWorker (homeOf s w) w = [op] := by simp [Disk.curWorker, hin, hop]
    have h2 : d.curSaver me w = [] := by
      unfold Disk.curSaver
      split
      · split
        · rename_i w' n hd rem hrem
          split
          · rename_i e
            subst e
            exact absurd hop ((open_fresh (program_ok env bs s h hm hm') hinv hrem).2.2 _ op)
          · rfl
        · rfl
      · rfl
    obtain ⟨-, rest, hrest⟩ := call_home hinv hop
    rw [h1, h2, hsp, List.flatMap_append, hrest, List.nil_append, ← zCalls_fileOp, ← zCalls_append]
    refine zCalls_prefix ?_
    rw [List.append_assoc]
    exact (List.prefix_append_right_inj _).2 (by exact ⟨_, rfl⟩)
  · have h1 : d.curWorker (homeOf s w) w = [] := by
      unfold Disk.curWorker
      split
      · rename_i hin
        split
        · rename_i w' op hc
          split
          · rename_i e
            subst e
            exact absurd ⟨op, hc, hin⟩ hw
          · rfl
        · rfl
      · rfl
    rw [h1, List.append_nil]
    unfold Disk.curSaver
    split
    · split
      · rename_i w' n hd rem hrem
        split
        · rename_i e
          subst e
          obtain ⟨h3, h4, -⟩ := open_fresh (program_ok env bs s h hm hm') hinv hrem
          rw [h4, hsp, List.flatMap_append, h3, hrem]
          simp [zCalls, actOps, headerCalls]
        · rw [List.append_nil]; exact zCalls_prefix hpre
      · rw [List.append_nil]; exact zCalls_prefix hpre
    · rw [List.append_nil]; exact zCalls_prefix hpre

/-- C101. No schedule of the command with its compressors is infinite: its length is bounded by a number that depends only on the input. -/
theorem C101_finite (me : MEnv) (env : Env) (cap : Nat) (bs : List MessageBlock) (s : Saver) (h : runSaver env bs = some s) (hm : 0 < env.marshallers)
    (hm' : env.marshallers < 2 ^ 64) : ∃ N, ∀ cs d, runDisk me env cap bs cs = some d → cs.length ≤ N := by
  let W : List Nat := (program s).filterMap (fun a => match a with | .openFile w _ _ => some w | _ => none)
  let B : Nat → Nat := fun w => Zstd.opWork (zCalls ((program s).flatMap (actOps me w))) + 5
  refine ⟨2 * (6 * s.trace.length + 2 * bs.length + env.marshallers + 4) + (env.marshallers + 1) + (W.map B).sum, fun cs d hr => ?_⟩
  have hi := dinv_run h hm hm' hr
  obtain ⟨ps, hps, hcount⟩ := hi.proc
  obtain ⟨hlen, hcr, -⟩ := C73_returns me env bs s h hm hm' ps d.proc hps
  obtain ⟨done, hinv⟩ := proc_minv h hm hm' (runProc_inv hps) hcr
  have hsp : program s = done ++ (d.proc.m.rem ++ newActions d.proc.loop.svr s) := hinv.split
  have hpart : ∀ w, zPart w cs ≠ [] → w ∈ W := by
    intro w hne
    have hwr : d.writers w ≠ none := fun hn => hne (hi.zn w hn)
    have hop : ∃ n hd, Action.openFile w n hd ∈ program s := by
      rcases hi.known done hsp w hwr with ⟨n, hd, hmem⟩ | ⟨-, n, hd, rem, hrem⟩
      · exact ⟨n, hd, by rw [hsp]; exact List.mem_append_left _ hmem⟩
      · exact ⟨n, hd, by rw [hsp, hrem]; simp⟩
    obtain ⟨n, hd, hmem⟩ := hop
    exact List.mem_filterMap.2 ⟨_, hmem, rfl⟩
  have h1 := length_parts W cs hpart
  have hB : ∀ w, (zPart w cs).length ≤ B w := by
    intro w
    cases hz : d.writers w with
    | none => rw [hi.zn w hz]; simp
    | some z =>
      obtain ⟨s0, h0, h2⟩ := (hi.zs w z hz).1
      have h3 := C58_terminates cap _ s0 z _ h0 h2
      have h4 := opWork_prefix (hist_prefix h hm hm' hi w)
      show _ ≤ Zstd.opWork _ + 5
      omega
  have h2 : ∀ W : List Nat, (W.map (fun w => (zPart w cs).length)).sum ≤ (W.map B).sum := by
    intro W
    induction W with
    | nil => simp
    | cons w W ih => simp only [List.map_cons, List.sum_cons]; have := hB w; omega
  have h2 := h2 W
  have h3 : d.calls env.marshallers ≤ env.marshallers + 1 := by
    have : ∀ n, ((List.range n).map (fun i => if d.workerIn i then 1 else 0)).sum ≤ n := by
      intro n
      induction n with
      | zero => simp
      | succ n ih =>
        rw [List.range_succ, List.map_append, List.sum_append]
        simp only [List.map_cons, List.map_nil, List.sum_cons, List.sum_nil]
        split <;> omega
    have := this env.marshallers
    unfold Disk.calls
    split <;> omega
  omega

/-- A step that is not a failure: no compressor dies (`crash`) or cannot be started (`gor false`). -/
def DChoice.good : DChoice → Prop
  | .zstd _ .crash => False
  | .zstd _ (.gor false) => False
  | _ => True

/-- C101. There is no deadlock between the collector, the saver, the marshallers, the pipes and the compressors: until `main` has returned some step is
possible that is not a failure. -/
theorem C101_no_deadlock (me : MEnv) (env : Env) (cap : Nat) (hcap : 0 < cap) (bs : List MessageBlock) (s : Saver) (h : runSaver env bs = some s)
    (hm : 0 < env.marshallers) (hm' : env.marshallers < 2 ^ 64) (cs : List DChoice) (d : Disk) (hr : runDisk me env cap bs cs = some d)
    (hp : d.proc.pc ≠ .returned) : ∃ c d', c.good ∧ d.step me env cap c = some d' := by
  have hi := dinv_run h hm hm' hr
  obtain ⟨ps, hps, -⟩ := hi.proc
  obtain ⟨-, hcr, hst⟩ := C73_returns me env bs s h hm hm' ps d.proc hps
  have hlive : ¬ (d.proc.m.crashed = true ∨ d.proc.pc = .returned) := by simp [hcr, hp]
  obtain ⟨c, hc⟩ := Classical.not_forall.1 (fun hn => hp (hst hn))
  obtain ⟨p, hpp⟩ := Option.ne_none_iff_exists'.1 hc
  have hwait : ∀ w z, d.writers w = some z → z.free = false → ∃ c d', c.good ∧ d.step me env cap c = some d' := by
    intro w z hz hf
    have hnd : ¬ z.userDone := by
      intro hu; rw [Zstd.free_iff.2 hu] at hf; simp at hf
    obtain ⟨c, z', h1, h2, h3⟩ := C58_no_deadlock cap hcap _ z (hi.zs w z hz).1.reachable hnd
    refine ⟨.zstd w c, d.setWriter w z', ?_, ?_⟩
    · unfold DChoice.good
      split
      · simp_all
      · simp_all
      · trivial
    · simp [Disk.step, hlive, hz, h3]
  cases c with
  | main => exact ⟨.proc .main, { d with proc := p }, trivial, by simp [Disk.step, hlive, hpp]⟩
  | saver =>
    by_cases hrem : ∃ w n hd rem, d.proc.m.rem = .openFile w n hd :: rem
    · obtain ⟨w, n, hd, rem, hrem⟩ := hrem
      by_cases hin : d.saverIn = true
      · obtain ⟨w', n', hd', rem', hrem', hwr⟩ := hi.inS hin
        rw [hrem] at hrem'
        simp only [List.cons.injEq, Action.openFile.injEq] at hrem'
        rw [← hrem'.1.1] at hwr
        obtain ⟨z, hz⟩ := Option.ne_none_iff_exists'.1 hwr
        cases hf : z.free with
        | false => exact hwait w z hz hf
        | true => exact ⟨.proc .saver, { d with proc := p, saverIn := false }, trivial, by simp [Disk.step, hlive, Disk.saverStep, hrem, hin, hz, hf, hpp]⟩
      · refine ⟨.proc .saver, ?_⟩
        simp [Disk.step, hlive, Disk.saverStep, hrem, hin, Zstd.newWriter, DChoice.good]
    · refine ⟨.proc .saver, { d with proc := p }, trivial, ?_⟩
      simp only [Disk.step, if_neg hlive, Disk.saverStep]
      split
      · rename_i w n hd rem hr'
        exact absurd ⟨w, n, hd, rem, hr'⟩ hrem
      · simp [hpp]
  | worker i =>
    cases hcall : d.proc.m.callOf i with
    | none =>
      refine ⟨.proc (.worker i), { d with proc := p }, trivial, ?_⟩
      unfold MState.callOf at hcall
      simp only [Disk.step, if_neg hlive, Disk.workerStep, hcall, hpp, Option.map_some]
    | some x =>
      obtain ⟨w, op⟩ := x
      obtain ⟨z, hz⟩ := Option.ne_none_iff_exists'.1 (call_writer h hm hm' hi hcr hcall)
      unfold MState.callOf at hcall
      by_cases hin : d.workerIn i = true
      · cases hf : z.free with
        | false => exact hwait w z hz hf
        | true =>
          refine ⟨.proc (.worker i), { d with proc := p, workerIn := fun j => if j = i then false else d.workerIn j }, trivial, ?_⟩
          simp only [Disk.step, if_neg hlive, Disk.workerStep, hcall, hz, hin, hf, if_true, hpp, Option.map_some]
      · refine ⟨.proc (.worker i), { d.setWriter w (z.call [op]) with workerIn := fun j => if j = i then true else d.workerIn j }, trivial, ?_⟩
        simp only [Disk.step, if_neg hlive, Disk.workerStep, hcall, hz, if_neg hin]

theorem Disk.exec_append (me : MEnv) (env : Env) (cap : Nat) (cs cs' : List DChoice) (d : Disk) :
    Disk.exec me env cap (cs ++ cs') d = (Disk.exec me env cap cs d).bind (Disk.exec me env cap cs') := by
  induction cs generalizing d with
  | nil => rfl
  | cons c cs ih =>
    simp only [List.cons_append, Disk.exec]
    cases d.step me env cap c with
    | none => rfl
    | some d1 => exact ih d1

/-- C101. From every state that can be reached, whatever has failed before, `main` can still return without any further failure; by `C101_finite` it does,
unless one of the processes or goroutines stops moving. -/
theorem C101_can_return (me : MEnv) (env : Env) (cap : Nat) (hcap : 0 < cap) (bs : List MessageBlock) (s : Saver) (h : runSaver env bs = some s)
    (hm : 0 < env.marshallers) (hm' : env.marshallers < 2 ^ 64) (cs : List DChoice) (d : Disk) (hr : runDisk me env cap bs cs = some d) :
    ∃ cs' d', (∀ c ∈ cs', c.good) ∧ runDisk me env cap bs (cs ++ cs') = some d' ∧ d'.proc.pc = .returned := by
  obtain ⟨N, hN⟩ := C101_finite me env cap bs s h hm hm'
  have key : ∀ k cs d, runDisk me env cap bs cs = some d → N < cs.length + k →
      ∃ cs' d', (∀ c ∈ cs', c.good) ∧ runDisk me env cap bs (cs ++ cs') = some d' ∧ d'.proc.pc = .returned := by
    intro k
    induction k with
    | zero => intro cs d hr hk; have := hN cs d hr; omega
    | succ k ih =>
      intro cs d hr hk
      by_cases hp : d.proc.pc = .returned
      · exact ⟨[], d, by simp, by rw [List.append_nil]; exact hr, hp⟩
      · obtain ⟨c, d1, hg, hs⟩ := C101_no_deadlock me env cap hcap bs s h hm hm' cs d hr hp
        have hr1 : runDisk me env cap bs (cs ++ [c]) = some d1 := by
          unfold runDisk at hr ⊢
          rw [Disk.exec_append, hr]
          simp [Disk.exec, hs]
        obtain ⟨cs', d', h1, h2, h3⟩ := ih (cs ++ [c]) d1 hr1 (by simp; omega)
        refine ⟨c :: cs', d', ?_, by rw [List.append_assoc] at h2; exact h2, h3⟩
        intro c' hc'
        rcases List.mem_cons.1 hc' with rfl | hc'
        · exact hg
        · exact h1 c' hc'
  exact key (N + 1) cs d hr (by omega)

/-! ## C102 -/

/-- The marshaller of a writer, from what the saver queued. -/
theorem home_closed {s : Saver} {w q : Nat} (h : .closed q ∈ fileEvents w s.trace) {n : FileName} {hd : ArchivalRecord} {ws : List ArchivalRecord} {q' : Nat}
    (he : fileEvents w s.trace = .opened n hd :: ws.map (.wrote q') ++ [.closed q']) : homeOf s w = q ∧ q' = q := by
  have e : q' = q := by rw [he] at h; simp at h; exact h.symm
  refine ⟨?_, e⟩
  unfold homeOf
  rw [he, List.getLast?_concat]
  exact e

/-- C102 (partial: while fewer than 100 tasks wait behind it, see `C102_violated`). The call in which marshaller `i` is does not return, whatever the reason
(a compressor that is slow, hangs or is stopped): the schedule has gone on until nothing else can move. Then, if the queue of this marshaller is not full,
all polls have been processed and the files of all other marshallers are complete on disk (or their own compressors failed). -/
theorem C102_others_partial (me : MEnv) (env : Env) (cap : Nat) (hcap : 0 < cap) (bs : List MessageBlock) (s : Saver) (h : runSaver env bs = some s)
    (hm : 0 < env.marshallers) (hm' : env.marshallers < 2 ^ 64) (cs : List DChoice) (d : Disk) (hr : runDisk me env cap bs cs = some d) (i w : Nat) (op : Zstd.Op)
    (wk : Worker) (hwk : d.proc.m.workers[i]? = some wk) (hcall : wk.pc.call = some (w, op)) (hq : wk.queue.length < 100)
    (hn : ∀ c, c.good → c ≠ .proc (.worker i) → (∀ c', c ≠ .zstd w c') → d.step me env cap c = none) :
    d.proc.polls = [] ∧ d.proc.chan = [] ∧ d.proc.m.rem = [] ∧ d.proc.loop.svr = s
      ∧ ∀ w' q, .closed q ∈ fileEvents w' s.trace → q ≠ i → ∃ n hd, ∃ ws : List ArchivalRecord, ∃ z,
        fileEvents w' s.trace = .opened n hd :: ws.map (.wrote q) ++ [.closed q]
        ∧ d.writers w' = some z ∧ .closed true ∈ z.rets
        ∧ (z.child = .exited false ∨ (z.child = .exited true ∧ z.disk = some (fileText me.json me.anon.f hd ws))) := by
  have hi := dinv_run h hm hm' hr
  obtain ⟨ps, hps, -⟩ := hi.proc
  have hpi := runProc_inv hps
  obtain ⟨-, hcr, -⟩ := C73_returns me env bs s h hm hm' ps d.proc hps
  have hok := program_ok env bs s h hm hm'
  obtain ⟨done, hinv⟩ := proc_minv h hm hm' hpi hcr
  have hcall' : d.proc.m.callOf i = some (w, op) := by unfold MState.callOf; rw [hwk]; exact hcall
  have hhome := (call_home hinv hcall').1
  have hpc : d.proc.pc ≠ .returned := by
    intro hp
    have := ((C73_complete me env bs hm hm' ps d.proc hps hp).2.2.2.2 wk (List.mem_of_getElem? hwk)).1
    rw [this] at hcall; simp [PC.call] at hcall
  have hlive : ¬ (d.proc.m.crashed = true ∨ d.proc.pc = .returned) := by simp [hcr, hpc]
  have hp1 : d.proc.step me env .main = d.proc.mainStep := by unfold Proc.step; rw [if_neg hlive]
  have hp2 : d.proc.step me env .saver = d.proc.saverStep me env := by unfold Proc.step; rw [if_neg hlive]
  have hp3 : ∀ j, d.proc.step me env (.worker j) = (d.proc.m.workerStep me j).map (fun m => { d.proc with m := m }) := by
    intro j; unfold Proc.step; rw [if_neg hlive]
  -- a call on another writer makes progress
  have hfree : ∀ w' z, w' ≠ w → d.writers w' = some z → z.free = true := by
    intro w' z hne hz
    cases hf : z.free with
    | true => rfl
    | false =>
      exfalso
      have hnd : ¬ z.userDone := by intro hu; rw [Zstd.free_iff.2 hu] at hf; simp at hf
      obtain ⟨c, z', h1, h2, h3⟩ := C58_no_deadlock cap hcap _ z (hi.zs w' z hz).1.reachable hnd
      have := hn (.zstd w' c) (by
        unfold DChoice.good
        split
        · simp_all
        · simp_all
        · trivial) (by simp) (by intro c' hc'; simp at hc'; exact hne hc'.1)
      simp [Disk.step, hlive, hz, h3] at this
  have hmain : d.proc.mainStep = none := by
    have := hn (.proc .main) trivial (by simp) (by simp)
    simp only [Disk.step, if_neg hlive, hp1, Option.map_eq_none_iff] at this
    exact this
  -- the saver is not opening a file
  have hopen : ∀ w' n hd rem, d.proc.m.rem ≠ .openFile w' n hd :: rem := by
    intro w' n hd rem hrem
    have hs := hn (.proc .saver) trivial (by simp) (by simp)
    have hne : w' ≠ w := by
      intro e
      subst e
      exact (open_fresh hok hinv hrem).2.2 i op hcall'
    simp only [Disk.step, if_neg hlive, Disk.saverStep, hrem] at hs
    split at hs
    · rename_i hin
      obtain ⟨w2, n2, hd2, rem2, hrem2, hwr⟩ := hi.inS hin
      rw [hrem] at hrem2
      simp only [List.cons.injEq, Action.openFile.injEq] at hrem2
      rw [← hrem2.1.1] at hwr
      obtain ⟨z, hz⟩ := Option.ne_none_iff_exists'.1 hwr
      have hf := hfree w' z hne hz
      simp [hz, hf, hp2, Proc.saverStep, hrem, MState.saverStep] at hs
    · simp [Zstd.newWriter] at hs
  have hsaver : d.proc.saverStep me env = none := by
    have hs := hn (.proc .saver) trivial (by simp) (by simp)
    simp only [Disk.step, if_neg hlive, Disk.saverStep, hp2, Option.map_eq_none_iff] at hs
    exact hs
  -- the other marshallers cannot move
  have hworker : ∀ j, j ≠ i → d.proc.m.workerStep me j = none := by
    intro j hj
    have hs := hn (.proc (.worker j)) trivial (by simpa using hj) (by simp)
    simp only [Disk.step, if_neg hlive, Disk.workerStep] at hs
    split at hs
    · simpa [hp3] using hs
    · rename_i w' op' hcj
      have hcj' : d.proc.m.callOf j = some (w', op') := hcj
      have hne : w' ≠ w := by
        intro e
        subst e
        exact hj ((call_home hinv hcj').1.symm.trans hhome)
      obtain ⟨z, hz⟩ := Option.ne_none_iff_exists'.1 (call_writer h hm hm' hi hcr hcj')
      have hf := hfree w' z hne hz
      simp only [hz, hf, if_true] at hs
      split at hs
      · simpa [hp3] using hs
      · simp at hs
  have hidle : ∀ j wj, j ≠ i → d.proc.m.workers[j]? = some wj → (wj.pc = .idle ∧ wj.queue = [] ∧ d.proc.m.closed = false) ∨ wj.pc = .exited := by
    intro j wj hj hwj
    have := hworker j hj
    unfold MState.workerStep at this
    simp only [hwj] at this
    split at this
    · rename_i hid
      left
      split at this
      · simp at this
      · rename_i hqe
        split at this
        · simp at this
        · rename_i hcl
          exact ⟨hid, hqe, by simpa using hcl⟩
    · simp at this
    · simp at this
    · simp at this
    · split at this <;> simp at this
    · simp at this
    · simp at this
    · right; assumption
  -- the saver has nothing left to do
  have hrem : d.proc.m.rem = [] := by
    cases hrem : d.proc.m.rem with
    | nil => rfl
    | cons a rem =>
      exfalso
      unfold Proc.saverStep at hsaver
      simp only [hrem, Option.map_eq_none_iff] at hsaver
      unfold MState.saverStep at hsaver
      simp only [hrem] at hsaver
      cases a with
      | openFile w' n hd => exact hopen w' n hd rem hrem
      | send q t =>
        simp only at hsaver
        split at hsaver
        · simp at hsaver
        · rename_i wq hwq
          split at hsaver
          · simp at hsaver
          · split at hsaver
            · simp at hsaver
            · rename_i hfull
              by_cases e : q = i
              · subst e
                rw [hwk] at hwq
                simp only [Option.some.injEq] at hwq
                rw [← hwq] at hfull
                exact hfull hq
              · rcases hidle q wq e hwq with ⟨-, hqe, -⟩ | hex
                · rw [hqe] at hfull; simp at hfull
                · have := (hinv.exited wq (List.mem_of_getElem? hwq) hex).1
                  rw [this] at hfull; simp at hfull
      | closeChans =>
        simp only at hsaver
        split at hsaver <;> simp at hsaver
      | _ => simp at hsaver
  have hend : d.proc.ended = true := by
    cases he : d.proc.ended with
    | true => rfl
    | false =>
      exfalso
      unfold Proc.saverStep at hsaver
      simp only [hrem, he, Bool.false_eq_true, if_false] at hsaver
      cases hch : d.proc.chan with
      | cons b rest =>
        simp only [hch] at hsaver
        split at hsaver <;> simp at hsaver
      | nil =>
        simp only [hch] at hsaver
        cases hcc : d.proc.chanClosed with
        | true =>
          simp only [hcc, if_true] at hsaver
          split at hsaver <;> simp at hsaver
        | false =>
          have hcol : d.proc.pc = .collecting := by
            apply Classical.byContradiction
            intro hx
            rw [hpi.open_.2 hx] at hcc; simp at hcc
          unfold Proc.mainStep at hmain
          simp only [hcol, hch] at hmain
          split at hmain <;> simp at hmain
  obtain ⟨e1, e2⟩ := hpi.ended hend
  have hsv := (loop_prefix hpi h hcr).2.1 hend
  have hnew : newActions d.proc.loop.svr s = [] := by rw [hsv]; simp [newActions]
  refine ⟨hpi.polls e2, e1, hrem, hsv, fun w' q hcl hqi => ?_⟩
  have hdone : program s = done := by
    have : program s = done ++ (d.proc.m.rem ++ newActions d.proc.loop.svr s) := hinv.split
    rw [this, hrem, hnew]; simp
  have hclosed : d.proc.m.closed = true := by
    refine hinv.closed.2 ?_
    obtain ⟨p, hp, -⟩ := hok.ends
    rw [← hdone, hp]; simp
  rcases C38_closed_once env bs s h w' with he | ⟨n, hd, ws, q', he⟩
  · rw [he] at hcl; simp at hcl
  obtain ⟨hh, rfl⟩ := home_closed hcl he
  have hfi : d.proc.m.files w' = (program s).flatMap (actOps me w') := by
    have := hinv.files w'
    rw [hdone, ← this]
    have hpend : pendAt me w' d.proc.m.workers (homeOf s w') = [] := by
      unfold pendAt
      cases hx : d.proc.m.workers[homeOf s w']? with
      | none => rfl
      | some wj =>
        rcases hidle _ wj (by rw [hh]; exact hqi) hx with ⟨h1, h2, h3⟩ | hex
        · rw [hclosed] at h3; simp at h3
        · have := (hinv.exited wj (List.mem_of_getElem? hx) hex).1
          simp [pend, hex, this, pcOps]
    show _ = d.proc.m.files w' ++ pendAt me w' d.proc.m.workers (homeOf s w')
    rw [hpend, List.append_nil]
  rcases file_ops me env bs s h w' with hnil | ⟨ops, ho, hno⟩
  · rw [program, program_ops, he] at hnil; simp [evOps] at hnil
  have hmem : .openFile w' n hd ∈ program s := opened_mem (by rw [he]; simp)
  obtain ⟨z, hz⟩ := Option.ne_none_iff_exists'.1 (hi.opened done hinv.split w' n hd (by rw [← hdone]; exact hmem))
  have hcw : d.curWorker (homeOf s w') w' = [] := by
    unfold Disk.curWorker
    split
    · rename_i hin
      obtain ⟨w2, op2, hc2⟩ := hi.inW _ hin
      exfalso
      unfold MState.callOf at hc2
      obtain ⟨wj, h1, h2⟩ := Option.bind_eq_some_iff.1 hc2
      rcases hidle _ wj (by rw [hh]; exact hqi) h1 with ⟨h3, -, -⟩ | hex
      · rw [h3] at h2; simp [PC.call] at h2
      · rw [hex] at h2; simp [PC.call] at h2
    · rfl
  have hcs : d.curSaver me w' = [] := by simp [Disk.curSaver, hrem]
  obtain ⟨ha, hf⟩ := hi.zs w' z hz
  rw [hcs, hcw, List.append_nil, List.append_nil, hfi] at ha
  have hre := ha.reachable
  have hcl2 := Zstd.closed_once hre (hf (by rw [hcs, hcw]; rfl)) (by rw [ho]; exact zCalls_count ops hno)
  refine ⟨n, hd, ws, z, he, hz, hcl2, ?_⟩
  obtain ⟨ok, hok⟩ := C58_exited cap _ z hre hcl2
  cases ok with
  | false => exact Or.inl hok
  | true =>
    refine Or.inr ⟨hok, ?_⟩
    rw [C58_on_disk_partial cap _ z hre hcl2 (by rw [hok]; simp), ho, beforeClose_calls ops hno, ← ho, program, program_ops, he]
    exact congrArg some (contents_events me n hd ws q')

/-- The tasks for marshaller `i` among the saver's actions. -/
def tasksFor (i : Nat) (l : List Action) : List Task := l.filterMap (fun a => match a with | .send q t => if q = i then some t else none | _ => none)

theorem tasksFor_append (i : Nat) (a b : List Action) : tasksFor i (a ++ b) = tasksFor i a ++ tasksFor i b := by simp [tasksFor]

/-- What a step of the saver does to the queue of a marshaller. -/
theorem saver_queue {me : MEnv} {env : Env} {p p' : Proc} (h : p.step me env .saver = some p') (hc : p'.m.crashed = false) {i : Nat} {wk : Worker}
    (hw : p.m.workers[i]? = some wk) : ∃ q, p'.m.workers[i]? = some ⟨wk.queue ++ q, wk.pc⟩ ∧ q = tasksFor i (p.m.rem.take 1)
      ∧ (q ≠ [] → wk.queue.length < 100 ∧ q.length = 1) := by
  have hg := step_guard h
  unfold Proc.step at h
  rw [if_neg (by simp [hg.1, hg.2])] at h
  simp only [Proc.saverStep] at h
  cases hr : p.m.rem with
  | nil =>
    refine ⟨[], ?_, rfl, by simp⟩
    simp only [hr] at h
    split at h
    · simp at h
    · split at h
      · split at h
        · simp only [Option.some.injEq] at h; rw [← h] at hc; simp at hc
        · simp only [Option.some.injEq] at h; rw [← h]; simpa using hw
      · split at h
        · split at h
          · simp only [Option.some.injEq] at h; rw [← h] at hc; simp at hc
          · simp only [Option.some.injEq] at h; rw [← h]; simpa using hw
        · simp at h
  | cons a rem =>
    simp only [hr] at h
    obtain ⟨m, h1, h2⟩ := Option.map_eq_some_iff.1 h
    rw [← h2] at hc ⊢
    simp only at hc ⊢
    unfold MState.saverStep at h1
    simp only [hr] at h1
    cases a with
    | openFile w n hd =>
      simp only [Option.some.injEq] at h1
      exact ⟨[], by rw [← h1]; simpa [MState.op] using hw, by simp [tasksFor], by simp⟩
    | closeChans =>
      simp only at h1
      split at h1
      · simp only [Option.some.injEq] at h1; rw [← h1] at hc; simp at hc
      · simp only [Option.some.injEq] at h1
        exact ⟨[], by rw [← h1]; simpa using hw, by simp [tasksFor], by simp⟩
    | send q t =>
      simp only at h1
      split at h1
      · simp only [Option.some.injEq] at h1; rw [← h1] at hc; simp at hc
      · rename_i wq hwq
        split at h1
        · simp only [Option.some.injEq] at h1; rw [← h1] at hc; simp at hc
        · split at h1
          · rename_i hfull
            simp only [Option.some.injEq] at h1
            by_cases e : q = i
            · subst e
              rw [hw] at hwq
              simp only [Option.some.injEq] at hwq
              rw [← hwq] at h1 hfull
              refine ⟨[t], ?_, by simp [tasksFor], fun _ => ⟨hfull, rfl⟩⟩
              have hlt : q < p.m.workers.length := by
                rcases Nat.lt_or_ge q p.m.workers.length with hl | hl
                · exact hl
                · rw [List.getElem?_eq_none hl] at hw; simp at hw
              rw [← h1]
              simp only
              rw [List.getElem?_set_self hlt]
            · refine ⟨[], ?_, by simp [tasksFor, e], by simp⟩
              rw [← h1]
              simp only
              rw [List.getElem?_set_ne e]
              simpa using hw
          · simp at h1
    | _ =>
      simp only [Option.some.injEq] at h1
      exact ⟨[], by rw [← h1]; simpa using hw, by simp [tasksFor], by simp⟩

theorem worker_other {me : MEnv} {env : Env} {p p' : Proc} {i j : Nat} (h : p.step me env (.worker j) = some p') (hij : j ≠ i) :
    p'.m.workers[i]? = p.m.workers[i]? := by
  have hg := step_guard h
  unfold Proc.step at h
  rw [if_neg (by simp [hg.1, hg.2])] at h
  simp only at h
  obtain ⟨m, h1, h2⟩ := Option.map_eq_some_iff.1 h
  rw [← h2]
  unfold MState.workerStep at h1
  split at h1
  · simp at h1
  · simp only at h1
    split at h1
    · split at h1
      · simp only [Option.some.injEq] at h1; rw [← h1]; simp [List.getElem?_set_ne hij]
      · split at h1
        · simp only [Option.some.injEq] at h1; rw [← h1]; simp [List.getElem?_set_ne hij]
        · simp at h1
    · simp only [Option.some.injEq] at h1; rw [← h1]
    · simp only [Option.some.injEq] at h1; rw [← h1]; simp [MState.op, List.getElem?_set_ne hij]
    · simp only [Option.some.injEq] at h1; rw [← h1]
    · split at h1
      · simp only [Option.some.injEq] at h1; rw [← h1]; simp [List.getElem?_set_ne hij]
      · simp only [Option.some.injEq] at h1; rw [← h1]; simp [List.getElem?_set_ne hij]
    · simp only [Option.some.injEq] at h1; rw [← h1]; simp [MState.op, List.getElem?_set_ne hij]
    · simp only [Option.some.injEq] at h1; rw [← h1]; simp [MState.op, List.getElem?_set_ne hij]
    · simp at h1

/-- Marshaller `i` is in the `Close` of writer `w`, whose compressor is running. -/
structure InClose (d : Disk) (i w : Nat) (q : List Task) : Prop where
  wk : d.proc.m.workers[i]? = some ⟨q, .got ⟨none, some w⟩⟩
  inn : d.workerIn i = true
  z : ∃ z, d.writers w = some z ∧ z.pc = .waiting ∧ z.child = .running ∧ z.gpc = .run

theorem inClose_step {me : MEnv} {env : Env} {cap : Nat} {bs : List MessageBlock} {s : Saver} (h : runSaver env bs = some s) (hm : 0 < env.marshallers)
    (hm' : env.marshallers < 2 ^ 64) {cs : List DChoice} {d d' : Disk} (hr : runDisk me env cap bs cs = some d) {c : DChoice}
    (hs : d.step me env cap c = some d') (hr' : runDisk me env cap bs (cs ++ [c]) = some d') {i w : Nat} {q : List Task} (hk : InClose d i w q)
    (hf : c ≠ .zstd w .finish) (hcr : c ≠ .zstd w .crash) :
    ∃ new, d.proc.m.rem ++ newActions d.proc.loop.svr s = new ++ (d'.proc.m.rem ++ newActions d'.proc.loop.svr s)
      ∧ InClose d' i w (q ++ tasksFor i new) ∧ (tasksFor i new ≠ [] → q.length < 100 ∧ (tasksFor i new).length = 1) := by
  have hi := dinv_run h hm hm' hr
  have hi' := dinv_run h hm hm' hr'
  obtain ⟨ps, hps, -⟩ := hi.proc
  obtain ⟨ps', hps', -⟩ := hi'.proc
  obtain ⟨-, hc, -⟩ := C73_returns me env bs s h hm hm' ps d.proc hps
  obtain ⟨-, hc', -⟩ := C73_returns me env bs s h hm hm' ps' d'.proc hps'
  have hl := (loop_prefix (runProc_inv hps) h hc).1
  have hl' := (loop_prefix (runProc_inv hps') h hc').1
  have hok := program_ok env bs s h hm hm'
  obtain ⟨done, hinv⟩ := proc_minv h hm hm' (runProc_inv hps) hc
  obtain ⟨hwk, hin, z, hz, hz1, hz2, hz3⟩ := hk
  have hcall : d.proc.m.callOf i = some (w, .close) := by unfold MState.callOf; rw [hwk]; rfl
  unfold Disk.step at hs
  split at hs
  · simp at hs
  cases c with
  | zstd w' c =>
    obtain ⟨z', h3, h4⟩ := Option.bind_eq_some_iff.1 hs
    obtain ⟨z2, h5, h6⟩ := Option.map_eq_some_iff.1 h4
    refine ⟨[], by rw [← h6]; rfl, ?_, by simp [tasksFor]⟩
    rw [← h6]
    by_cases e : w' = w
    · subst e
      rw [hz] at h3
      simp only [Option.some.injEq] at h3
      subst h3
      have hi2 := Zstd.inv_reachable (hi.zs w' z hz).1.reachable
      refine ⟨by simpa [Disk.setWriter, tasksFor] using hwk, hin, z2, by simp [Disk.setWriter], ?_⟩
      cases c with
      | user k =>
        have hwg : z.wgDone = false := by
          cases hx : z.wgDone with
          | false => rfl
          | true => have := hi2.wg.1 hx; rw [hz3] at this; simp at this
        simp [Zstd.ZState.step, Zstd.ZState.userStep, hz1, hwg] at h5
      | gor ok => simp [Zstd.ZState.step, Zstd.ZState.gorStep, hz2, hz3] at h5
      | read k =>
        simp only [Zstd.ZState.step] at h5
        split at h5
        · simp only [Option.some.injEq] at h5; rw [← h5]; exact ⟨hz1, hz2, hz3⟩
        · simp at h5
      | finish => exact absurd rfl hf
      | crash => exact absurd rfl hcr
    · exact ⟨by simpa [Disk.setWriter, tasksFor] using hwk, hin, z, by simp [Disk.setWriter, Ne.symm e, hz], hz1, hz2, hz3⟩
  | proc c =>
    cases c with
    | main =>
      obtain ⟨p, h3, h4⟩ := Option.map_eq_some_iff.1 hs
      obtain ⟨e1, e2⟩ := step_main h3
      refine ⟨[], by rw [← h4]; simp [e1, e2], ?_, by simp [tasksFor]⟩
      rw [← h4]
      exact ⟨by simpa [e1, tasksFor] using hwk, hin, z, hz, hz1, hz2, hz3⟩
    | worker j =>
      by_cases hj : j = i
      · subst hj
        simp only [Disk.workerStep] at hs
        rw [show (d.proc.m.workers[j]?).bind (fun wk => wk.pc.call) = some (w, .close) from hcall] at hs
        simp only [hz, hin, if_true] at hs
        rw [if_neg (by rw [Zstd.free_iff, hz1]; simp)] at hs
        simp at hs
      · have hgo : ∀ p, d.proc.step me env (.worker j) = some p → p.m.crashed = false → p.m.rem = d.proc.m.rem ∧ p.loop = d.proc.loop
            ∧ p.m.workers[i]? = d.proc.m.workers[i]? := by
          intro p hp hcp
          obtain ⟨e1, e2, -⟩ := step_worker hp hcp
          exact ⟨e2, e1, worker_other hp hj⟩
        simp only [Disk.workerStep] at hs
        split at hs
        · obtain ⟨p, h3, h4⟩ := Option.map_eq_some_iff.1 hs
          obtain ⟨e1, e2, e3⟩ := hgo p h3 (by rw [← h4] at hc'; exact hc')
          refine ⟨[], by rw [← h4]; simp [e1, e2], ?_, by simp [tasksFor]⟩
          rw [← h4]
          exact ⟨by simpa [e3, tasksFor] using hwk, hin, z, hz, hz1, hz2, hz3⟩
        · rename_i w' op' hcj
          have hcj' : d.proc.m.callOf j = some (w', op') := hcj
          have hne : w' ≠ w := by
            intro e
            subst e
            exact hj ((call_home hinv hcj').1.symm.trans (call_home hinv hcall).1)
          split at hs
          · simp at hs
          · rename_i zj hzj
            split at hs
            · split at hs
              · obtain ⟨p, h3, h4⟩ := Option.map_eq_some_iff.1 hs
                obtain ⟨e1, e2, e3⟩ := hgo p h3 (by rw [← h4] at hc'; exact hc')
                refine ⟨[], by rw [← h4]; simp [e1, e2], ?_, by simp [tasksFor]⟩
                rw [← h4]
                exact ⟨by simpa [e3, tasksFor] using hwk, by simp [Ne.symm hj, hin], z, hz, hz1, hz2, hz3⟩
              · simp at hs
            · simp only [Option.some.injEq] at hs
              refine ⟨[], by rw [← hs]; rfl, ?_, by simp [tasksFor]⟩
              rw [← hs]
              exact ⟨by simpa [Disk.setWriter, tasksFor] using hwk, by simp [Ne.symm hj, hin], z, by simp [Disk.setWriter, Ne.symm hne, hz], hz1, hz2, hz3⟩
    | saver =>
      have hgo : ∀ p, d.proc.step me env .saver = some p → p.m.crashed = false → p.loop.svr.trace <+: s.trace →
          ∃ new, d.proc.m.rem ++ newActions d.proc.loop.svr s = new ++ (p.m.rem ++ newActions p.loop.svr s)
            ∧ p.m.workers[i]? = some ⟨q ++ tasksFor i new, .got ⟨none, some w⟩⟩
            ∧ (tasksFor i new ≠ [] → q.length < 100 ∧ (tasksFor i new).length = 1) := by
        intro p hp hcp hlp
        obtain ⟨t, e1, e2, e3⟩ := saver_queue hp hcp hwk
        refine ⟨d.proc.m.rem.take 1, ?_, by rw [← e2]; exact e1, by rw [← e2]; exact e3⟩
        by_cases hrem : ∃ w' n hd rem, d.proc.m.rem = .openFile w' n hd :: rem
        · obtain ⟨w', n, hd, rem, hrem⟩ := hrem
          rw [step_open hrem hp, hrem]
          simp [MState.op]
        · obtain ⟨-, -, ⟨a, ha, -, hlo⟩ | ⟨ha, hb, hpre⟩⟩ := step_saver (fun w' n hd rem hx => hrem ⟨w', n, hd, rem, hx⟩) hp hcp
          · rw [ha, hlo]; simp
          · rw [ha, hb]
            simp only [List.nil_append, List.take_nil]
            have g1 := newActions_append hl
            rw [newActions_append hlp, newActions_append hpre, List.append_assoc] at g1
            exact (List.append_cancel_left g1).symm
      simp only [Disk.saverStep] at hs
      split at hs
      · rename_i w' n hd rem hrem
        split at hs
        · split at hs
          · simp at hs
          · split at hs
            · obtain ⟨p, h3, h4⟩ := Option.map_eq_some_iff.1 hs
              obtain ⟨new, g1, g2, g3⟩ := hgo p h3 (by rw [← h4] at hc'; exact hc') (by rw [← h4] at hl'; exact hl')
              exact ⟨new, by rw [← h4]; exact g1, by rw [← h4]; exact ⟨g2, hin, z, hz, hz1, hz2, hz3⟩, g3⟩
            · simp at hs
        · have hne : w' ≠ w := by
            intro e
            subst e
            exact (open_fresh hok hinv hrem).2.2 i .close hcall
          split at hs
          · simp at hs
          · simp only [Option.some.injEq] at hs
            refine ⟨[], by rw [← hs]; rfl, ?_, by simp [tasksFor]⟩
            rw [← hs]
            exact ⟨by simpa [Disk.setWriter, tasksFor] using hwk, hin, z, by simp [Disk.setWriter, Ne.symm hne, hz], hz1, hz2, hz3⟩
      · obtain ⟨p, h3, h4⟩ := Option.map_eq_some_iff.1 hs
        obtain ⟨new, g1, g2, g3⟩ := hgo p h3 (by rw [← h4] at hc'; exact hc') (by rw [← h4] at hl'; exact hl')
        exact ⟨new, by rw [← h4]; exact g1, by rw [← h4]; exact ⟨g2, hin, z, hz, hz1, hz2, hz3⟩, g3⟩

theorem inClose_exec {me : MEnv} {env : Env} {cap : Nat} {bs : List MessageBlock} {s : Saver} (h : runSaver env bs = some s) (hm : 0 < env.marshallers)
    (hm' : env.marshallers < 2 ^ 64) {i w : Nat} (cs' : List DChoice) : ∀ {cs : List DChoice} {d d' : Disk} {q : List Task}, runDisk me env cap bs cs = some d →
    Disk.exec me env cap cs' d = some d' → InClose d i w q → .zstd w .finish ∉ cs' → .zstd w .crash ∉ cs' →
    ∃ new, d.proc.m.rem ++ newActions d.proc.loop.svr s = new ++ (d'.proc.m.rem ++ newActions d'.proc.loop.svr s)
      ∧ InClose d' i w (q ++ tasksFor i new) ∧ (tasksFor i new ≠ [] → q.length + (tasksFor i new).length ≤ 100) := by
  induction cs' with
  | nil =>
    intro cs d d' q hr hx hk hf hc
    simp only [Disk.exec, Option.some.injEq] at hx
    subst hx
    exact ⟨[], rfl, by simpa [tasksFor] using hk, by simp [tasksFor]⟩
  | cons c cs' ih =>
    intro cs d d' q hr hx hk hf hc
    simp only [Disk.exec] at hx
    obtain ⟨d1, h1, h2⟩ := Option.bind_eq_some_iff.1 hx
    have hr1 : runDisk me env cap bs (cs ++ [c]) = some d1 := by
      unfold runDisk at hr ⊢
      rw [Disk.exec_append, hr]
      simp [Disk.exec, h1]
    obtain ⟨n1, e1, e2, e3⟩ := inClose_step h hm hm' hr h1 hr1 hk (fun e => hf (by rw [e]; exact List.mem_cons_self ..)) (fun e => hc (by rw [e]; exact List.mem_cons_self ..))
    obtain ⟨n2, g1, g2, g3⟩ := ih hr1 h2 e2 (fun hx => hf (List.mem_cons_of_mem _ hx)) (fun hx => hc (List.mem_cons_of_mem _ hx))
    refine ⟨n1 ++ n2, by rw [e1, g1, List.append_assoc], by rw [tasksFor_append, ← List.append_assoc]; exact g2, ?_⟩
    rw [tasksFor_append]
    intro hne
    by_cases hn2 : tasksFor i n2 = []
    · rw [hn2, List.append_nil] at hne ⊢
      have := e3 hne
      omega
    · have := g3 hn2
      simp only [List.length_append] at this ⊢
      omega

/-- C102: what a compressor that hangs does. Marshaller `i` is in the `Close` of a writer whose compressor is running, and the compressor does not end. Then
in every continuation `main` does not return, and the saver hands over at most 100 tasks to this marshaller: of its remaining actions (in the order of the
complete run) it gets only to a prefix with at most 100 tasks for it. -/
theorem C102_hangs (me : MEnv) (env : Env) (cap : Nat) (bs : List MessageBlock) (s : Saver) (h : runSaver env bs = some s) (hm : 0 < env.marshallers)
    (hm' : env.marshallers < 2 ^ 64) (cs : List DChoice) (d : Disk) (hr : runDisk me env cap bs cs = some d) (i w : Nat) (q : List Task)
    (hw : d.proc.m.workers[i]? = some ⟨q, .got ⟨none, some w⟩⟩) (hin : d.workerIn i = true) (z : Zstd.ZState) (hz : d.writers w = some z)
    (hz1 : z.pc = .waiting) (hz2 : z.child = .running) (cs' : List DChoice) (hf : .zstd w .finish ∉ cs') (hc : .zstd w .crash ∉ cs') (d' : Disk)
    (hx : Disk.exec me env cap cs' d = some d') :
    d'.proc.pc ≠ .returned
      ∧ ∃ new, d.proc.m.rem ++ newActions d.proc.loop.svr s = new ++ (d'.proc.m.rem ++ newActions d'.proc.loop.svr s) ∧ (tasksFor i new).length ≤ 100 := by
  have hi := dinv_run h hm hm' hr
  have hi2 := Zstd.inv_reachable (hi.zs w z hz).1.reachable
  have hg : z.gpc = .run := by
    apply Classical.byContradiction
    intro hn
    obtain ⟨ok, hok⟩ := hi2.run hn
    rw [hz2] at hok; simp at hok
  obtain ⟨new, e1, e2, e3⟩ := inClose_exec h hm hm' cs' hr hx ⟨hw, hin, z, hz, hz1, hz2, hg⟩ hf hc
  refine ⟨?_, new, e1, ?_⟩
  · intro hp
    have hr' : runDisk me env cap bs (cs ++ cs') = some d' := by
      unfold runDisk at hr ⊢
      rw [Disk.exec_append, hr]
      exact hx
    obtain ⟨ps, hps⟩ := disk_proc hr'
    have := ((C73_complete me env bs hm hm' ps d'.proc hps hp).2.2.2.2 _ (List.mem_of_getElem? e2.wk)).1
    simp at this
  · by_cases hn : tasksFor i new = []
    · rw [hn]; simp
    · have := e3 hn; omega

/-- Run a schedule, skipping choices that are not possible. -/
def diskSkip (me : MEnv) (env : Env) (cap : Nat) : List DChoice → Disk → List DChoice × Disk
  | [], d => ([], d)
  | c :: cs, d => match d.step me env cap c with
    | none => diskSkip me env cap cs d
    | some d' => let r := diskSkip me env cap cs d'; (c :: r.1, r.2)

/-- One marshaller. -/
def stuckEnv : Env := exEnvWith 1000000000 [] 1
/-- Three polls: one connection; another one; a hundred and twenty others. -/
def stuckBlocks : List MessageBlock :=
  [exBlock 1600000000000000000 [exMsg 1 0 1], exBlock 1600000010000000000 [exMsg 2 0 1],
   exBlock 1600000020000000000 ((List.range 120).map (fun i => exMsg (UInt8.ofNat (i + 3)) 0 1))]
/-- The goroutine of the writer, its user and the compressor take turns. -/
def zTurns (w : Nat) : List DChoice := [.zstd w (.gor true), .zstd w (.user 1), .zstd w (.read 1)]
def stuckTurns : List DChoice :=
  (List.range 14).flatMap (fun _ => [.proc .main, .proc .saver] ++ (List.range 6).flatMap (fun _ => zTurns 0 ++ zTurns 1))
    ++ (List.range 50).flatMap (fun _ => [.proc (.worker 0)] ++ zTurns 0 ++ zTurns 1)
/-- Until the marshaller is in the `Close` of the first connection's file. -/
def exStuck : List DChoice := (diskSkip exMEnv stuckEnv 4 stuckTurns (diskInit stuckBlocks 1)).1

def Action.opens (w : Nat) : Action → Bool
  | .openFile w' _ _ => decide (w' = w)
  | _ => false

def stuckOk (d : Disk) (s : Saver) : Bool :=
  decide (d.proc.m.workers[0]? = some ⟨[], .got ⟨none, some 0⟩⟩) && d.workerIn 0
    && (d.writers 0).any (fun z => decide (z.pc = .waiting ∧ z.child = .running)) && (d.writers 121).isNone
    && decide ((fileEvents 121 s.trace).length = 3)
    && ((d.proc.m.rem ++ newActions d.proc.loop.svr s).take 360).all (fun a => !a.opens 121)
    && decide (100 < (tasksFor 0 ((d.proc.m.rem ++ newActions d.proc.loop.svr s).take 360)).length)

/-- C102 violated: with one marshaller, the compressor of the file of the first connection hangs when the file is closed. Then, in every continuation in which
it goes on hanging, `main` does not return and the file of the last of the 120 connections of the next poll (writer 121, which the complete run opens, writes
and closes) is never even created. -/
theorem C102_violated : ∃ (s : Saver) (cs : List DChoice) (d : Disk), runSaver stuckEnv stuckBlocks = some s
    ∧ runDisk exMEnv stuckEnv 4 stuckBlocks cs = some d ∧ (fileEvents 121 s.trace).length = 3
    ∧ ∀ cs' d', .zstd 0 .finish ∉ cs' → .zstd 0 .crash ∉ cs' → Disk.exec exMEnv stuckEnv 4 cs' d = some d' →
      d'.proc.pc ≠ .returned ∧ d'.writers 121 = none := by
  have h : (runSaver stuckEnv stuckBlocks).any (fun s => (runDisk exMEnv stuckEnv 4 stuckBlocks exStuck).any (fun d => stuckOk d s)) = true := by
    decide +kernel
  cases hs : runSaver stuckEnv stuckBlocks with
  | none => rw [hs] at h; simp at h
  | some s =>
    cases hr : runDisk exMEnv stuckEnv 4 stuckBlocks exStuck with
    | none => rw [hs, hr] at h; simp at h
    | some d =>
      rw [hs, hr] at h
      simp only [Option.any_some, stuckOk, Bool.and_eq_true, decide_eq_true_eq, Option.isNone_iff_eq_none, List.all_eq_true, Bool.not_eq_true'] at h
      obtain ⟨⟨⟨⟨⟨⟨h1, h2⟩, h3⟩, h4⟩, h5⟩, h6⟩, h7⟩ := h
      refine ⟨s, exStuck, d, rfl, hr, h5, fun cs' d' hf hc hx => ?_⟩
      cases hz : d.writers 0 with
      | none => rw [hz] at h3; simp at h3
      | some z =>
        rw [hz] at h3
        simp only [Option.any_some, decide_eq_true_eq] at h3
        have hm : 0 < stuckEnv.marshallers := by decide
        have hm' : stuckEnv.marshallers < 2 ^ 64 := by decide
        obtain ⟨a1, new, a2, a3⟩ := C102_hangs exMEnv stuckEnv 4 stuckBlocks s hs hm hm' exStuck d hr 0 0 [] h1 h2 z hz h3.1 h3.2 cs' hf hc d' hx
        refine ⟨a1, ?_⟩
        have hr' : runDisk exMEnv stuckEnv 4 stuckBlocks (exStuck ++ cs') = some d' := by
          unfold runDisk at hr ⊢
          rw [Disk.exec_append, hr]
          exact hx
        have hi := dinv_run hs hm hm' hr
        have hi' := dinv_run hs hm hm' hr'
        obtain ⟨ps, hps, -⟩ := hi.proc
        obtain ⟨-, hcr, -⟩ := C73_returns exMEnv stuckEnv stuckBlocks s hs hm hm' ps d.proc hps
        obtain ⟨done, hinv⟩ := proc_minv hs hm hm' (runProc_inv hps) hcr
        have hsp : program s = done ++ (d.proc.m.rem ++ newActions d.proc.loop.svr s) := hinv.split
        have hsp' : program s = (done ++ new) ++ (d'.proc.m.rem ++ newActions d'.proc.loop.svr s) := by rw [hsp, a2, List.append_assoc]
        -- if the saver had got to it, it would have handed over more than 100 tasks
        have far : ∀ a : Action, a.opens 121 = true → a ∈ new ++ (d'.proc.m.rem ++ newActions d'.proc.loop.svr s).take 1 → False := by
          intro a ha hmem
          have hlong : 360 ≤ new.length := by
            apply Classical.byContradiction
            intro hlt
            have : a ∈ (d.proc.m.rem ++ newActions d.proc.loop.svr s).take 360 := by
              rw [a2, List.take_append]
              rcases List.mem_append.1 hmem with hx | hx
              · exact List.mem_append_left _ (by rw [List.take_of_length_le (by omega)]; exact hx)
              · exact List.mem_append_right _ ((List.take_sublist_take_left (by omega)).subset hx)
            rw [h6 a this] at ha; simp at ha
          have : (tasksFor 0 ((d.proc.m.rem ++ newActions d.proc.loop.svr s).take 360)).length ≤ (tasksFor 0 new).length := by
            rw [a2, List.take_append_of_le_length hlong]
            exact ((List.take_sublist 360 new).filterMap _).length_le
          omega
        apply Classical.byContradiction
        intro hne
        rcases hi'.known _ hsp' 121 hne with ⟨n, hd, hmem⟩ | ⟨-, n, hd, rem, hrem⟩
        · rcases List.mem_append.1 hmem with hx | hx
          · exact hi.opened done hsp 121 n hd hx h4
          · exact far _ (by simp [Action.opens]) (List.mem_append_left _ hx)
        · exact far (.openFile 121 n hd) (by simp [Action.opens]) (List.mem_append_right _ (by rw [hrem]; simp))

/-! ## Concrete runs -/

/-- All take turns, for each compressor with a way to end. -/
def diskTurns (n : Nat) (fin : Nat → List Zstd.Choice) : List DChoice := (List.range n).flatMap (fun _ =>
  [.proc .main, .proc .saver, .proc (.worker 0), .proc (.worker 1), .proc (.worker 2)]
    ++ (List.range 2).flatMap (fun w => zTurns w ++ (fin w).map (.zstd w)))

def exFull (fin : Nat → List Zstd.Choice) : Option Disk :=
  runDisk exMEnv exEnv 4 exBlocks (diskSkip exMEnv exEnv 4 (diskTurns 60 fin) (diskInit exBlocks 3)).1

def diskSees (d : Disk) (w : Nat) : Option (Option Bytes × Zstd.Child) := (d.writers w).map (fun z => (z.disk, z.child))

set_option synthInstance.maxSize 1000 in
/-- C100, C101: `main` returns and both files are on disk. -/
example : (exFull (fun _ => [.finish])).map (fun d => (d.proc.pc, [diskSees d 0, diskSees d 1]))
    = some (.returned, [some (some [1, 10, 2, 1, 10, 0, 10], .exited true), some (some [1, 10, 2, 2, 10, 0, 10, 2, 2, 10, 0, 10], .exited true)]) := by
  decide +kernel
set_option synthInstance.maxSize 1000 in
/-- One compressor dies: the other file is complete all the same. -/
example : (exFull (fun w => if w = 0 then [.crash] else [.finish])).map (fun d => (d.proc.pc, [diskSees d 0, diskSees d 1]))
    = some (.returned, [some (none, .exited false), some (some [1, 10, 2, 2, 10, 0, 10, 2, 2, 10, 0, 10], .exited true)]) := by decide +kernel

/-- Nothing belonging to this writer can move. -/
theorem quiet_step {cap : Nat} {z : Zstd.ZState} (h : z.free = true ∧ z.child = .exited true ∧ z.gpc = .finished) (c : Zstd.Choice) : z.step cap c = none := by
  obtain ⟨h1, h2, h3⟩ := h
  obtain ⟨h4, h5⟩ := Zstd.free_iff.1 h1
  cases c <;> simp [Zstd.ZState.step, Zstd.ZState.userStep, Zstd.ZState.gorStep, h2, h3, h4, h5]

def hangOk (d : Disk) : Bool :=
  decide (d.proc.m.workers.length = 3) && (d.proc.step exMEnv exEnv .main).isNone && (d.proc.step exMEnv exEnv .saver).isNone && d.proc.m.rem.isEmpty
    && (d.proc.step exMEnv exEnv (.worker 0)).isNone && (d.proc.step exMEnv exEnv (.worker 2)).isNone
    && ((d.proc.m.workers[0]?).bind (fun wk => wk.pc.call)).isNone && ((d.proc.m.workers[2]?).bind (fun wk => wk.pc.call)).isNone
    && (d.writers 1).any (fun z => decide (z.free = true ∧ z.child = .exited true ∧ z.gpc = .finished))
    && (d.proc.m.workers[1]?).any (fun wk => decide (wk.pc.call = some (0, .close) ∧ wk.queue.length = 0))

/-- C102: marshaller 1 hangs in the `Close` of writer 0; the hypotheses of `C102_others_partial` are met, with another file (writer 1) complete on disk. -/
example : ∃ (s : Saver) (cs : List DChoice) (d : Disk) (wk : Worker), runSaver exEnv exBlocks = some s ∧ runDisk exMEnv exEnv 4 exBlocks cs = some d
    ∧ d.proc.m.workers[1]? = some wk ∧ wk.pc.call = some (0, .close) ∧ wk.queue.length < 100
    ∧ (∀ c : DChoice, c.good → c ≠ .proc (.worker 1) → (∀ c', c ≠ .zstd 0 c') → d.step exMEnv exEnv 4 c = none)
    ∧ FileEvent.closed 2 ∈ fileEvents 1 s.trace := by
  have h : (runSaver exEnv exBlocks).any (fun s => (exFull (fun w => if w = 0 then [] else [.finish])).any (fun d => hangOk d
      && decide (FileEvent.closed 2 ∈ fileEvents 1 s.trace) && (program s).all (fun a => match a with | .openFile w _ _ => decide (w < 2) | _ => true))) = true := by
    decide +kernel
  cases hs : runSaver exEnv exBlocks with
  | none => rw [hs] at h; simp at h
  | some s =>
    cases hr : exFull (fun w => if w = 0 then [] else [.finish]) with
    | none => rw [hs, hr] at h; simp at h
    | some d =>
      rw [hs, hr] at h
      simp only [Option.any_some, hangOk, Bool.and_eq_true, decide_eq_true_eq, Option.isNone_iff_eq_none, List.isEmpty_iff, List.all_eq_true] at h
      obtain ⟨⟨⟨⟨⟨⟨⟨⟨⟨⟨⟨h1, h2⟩, h3⟩, h4⟩, h5⟩, h6⟩, h7⟩, h8⟩, h9⟩, h10⟩, h11⟩, h12⟩ := h
      cases hw : d.proc.m.workers[1]? with
      | none => rw [hw] at h10; simp at h10
      | some wk =>
        rw [hw] at h10
        simp only [Option.any_some, decide_eq_true_eq] at h10
        refine ⟨s, _, d, wk, rfl, hr, hw, h10.1, by omega, ?_, h11⟩
        intro c hg hc1 hc2
        unfold Disk.step
        split
        · rfl
        rename_i hlive
        cases c with
        | zstd w c =>
          cases hz : d.writers w with
          | none => simp [hz]
          | some z =>
            have hi := dinv_run hs (by decide) (by decide) hr
            obtain ⟨ps, hps, -⟩ := hi.proc
            obtain ⟨done, hinv⟩ := proc_minv hs (by decide) (by decide) (runProc_inv hps) (by
              cases hx : d.proc.m.crashed with
              | false => rfl
              | true => exact absurd (Or.inl hx) hlive)
            have hsp : program s = done ++ (d.proc.m.rem ++ newActions d.proc.loop.svr s) := hinv.split
            have hlt : w < 2 := by
              rcases hi.known done hsp w (by rw [hz]; simp) with ⟨n, hd, hmem⟩ | ⟨-, n, hd, rem, hrem⟩
              · have := h12 (.openFile w n hd) (by rw [hsp]; exact List.mem_append_left _ hmem)
                simpa using this
              · rw [h4] at hrem; simp at hrem
            have hw1 : w = 1 := by
              have : w ≠ 0 := fun e => hc2 c (by rw [e])
              omega
            subst hw1
            rw [hz] at h9
            simp only [Option.any_some, decide_eq_true_eq] at h9
            simp [hz, quiet_step h9 c]
        | proc c =>
          cases c with
          | main => simp [h2]
          | saver => simp [Disk.saverStep, h4, h3]
          | worker j =>
            have hj : j ≠ 1 := fun e => hc1 (by rw [e])
            simp only [Disk.workerStep]
            by_cases hj0 : j = 0
            · subst hj0; simp only [h7, h5]; rfl
            · by_cases hj2 : j = 2
              · subst hj2; simp only [h8, h6]; rfl
              · have hnone : d.proc.m.workers[j]? = none := List.getElem?_eq_none (by omega)
                have : d.proc.step exMEnv exEnv (.worker j) = none := by
                  unfold Proc.step
                  split
                  · rfl
                  · simp [MState.workerStep, hnone]
                simp [hnone, this]

end TcpInfo
