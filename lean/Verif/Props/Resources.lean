import Verif.Props.Disk
import Verif.Props.SaverState
/-!
# C115: what the command holds at any moment
-/

namespace TcpInfo
open Spec

/-- Something of a writer is in use: an end of its pipe is open in this process, or its compressor is running. -/
def InUse (z : Zstd.ZState) : Prop := z.wOpen = true ∨ z.rOpen = true ∨ z.child = .running

theorem not_inUse {cap : Nat} {ops : List Zstd.Op} {z : Zstd.ZState} (h : Zstd.Reachable cap ops z) (hc : .closed true ∈ z.rets) : ¬ InUse z := by
  obtain ⟨h1, h2⟩ := C59_pipe_partial cap ops z h hc
  obtain ⟨ok, h3⟩ := C58_exited cap ops z h hc
  rintro (h | h | h)
  · rw [h2] at h; simp at h
  · rw [h1] at h; simp at h
  · rw [h3] at h; simp at h

/-- A file that has been created is open for a connection, or its closing has been queued. -/
theorem open_or_closing {me : MEnv} {env : Env} {bs : List MessageBlock} {p : Proc} (hi : PInv me env bs p) (hc : p.m.crashed = false) {w : Nat} {n : FileName}
    {hd : ArchivalRecord} (hw : .openFile w n hd ∈ program p.loop.svr) :
    (∃ k c, p.loop.svr.conns.get k = some c ∧ c.writer = some w) ∨ ∃ q, .send q ⟨none, some w⟩ ∈ program p.loop.svr := by
  have hev : fileEvents w p.loop.svr.trace ≠ [] := by
    obtain ⟨a, ha, hact⟩ := List.mem_map.1 hw
    intro he
    have := List.filterMap_eq_nil_iff.1 he a ha
    rw [hact] at this
    simp [fileEvent] at this
  have hback : ∀ q, FileEvent.closed q ∈ fileEvents w p.loop.svr.trace → .send q ⟨none, some w⟩ ∈ program p.loop.svr := by
    intro q hq
    obtain ⟨a, ha, hae⟩ := List.mem_filterMap.1 hq
    refine List.mem_map.2 ⟨a, ha, ?_⟩
    revert hae
    unfold fileEvent
    split
    · split <;> simp
    · split <;> simp
    · rename_i q' w' hx
      split
      · rename_i e
        subst e
        intro h
        simp only [Option.some.injEq, FileEvent.closed.injEq] at h
        rw [hx, h]
      · simp
    · simp
  obtain ⟨seen, l, -, h2, h3, h4⟩ := hi.seen hc
  cases he : p.ended with
  | false =>
    rw [h3 he] at hev hback ⊢
    have hf := finv_run (steps_run env seen l h2)
    by_cases hlt : w < l.svr.nextWriter
    · obtain ⟨k, n', hd', ws, -, hh⟩ := hf.files w hlt
      rcases hh with ⟨-, ⟨c, hc1, hc2⟩, -⟩ | ⟨e, -⟩
      · exact Or.inl ⟨k, c, hc1, hc2⟩
      · exact Or.inr ⟨_, hback (queueOf env k) (by rw [e]; simp)⟩
    · exact absurd (hf.fresh w (by omega)) hev
  | true =>
    have hrun : runSaver env seen = some p.loop.svr := by
      unfold runSaver
      rw [h2]; exact h4 he
    rcases C38_closed_once env seen _ hrun w with e | ⟨n', hd', ws, q, e⟩
    · exact absurd e hev
    · exact Or.inr ⟨q, hback q (by rw [e]; simp)⟩

/-- The marshaller has the task to close file `w`, in its queue or at hand. -/
def Worker.Closing (wk : Worker) (w : Nat) : Prop := ⟨none, some w⟩ ∈ wk.queue ∨ wk.pc = .got ⟨none, some w⟩

theorem closing_of_pend {me : MEnv} {w : Nat} {wk : Worker} (h : .close ∈ pend me w wk) : wk.Closing w := by
  have ht : ∀ t : Task, .close ∈ taskOps me w t → t = ⟨none, some w⟩ := by
    rintro ⟨m, wr⟩ ht
    unfold taskOps at ht
    split at ht
    · rename_i e
      simp only at e
      subst e
      split at ht
      · rename_i e; simp only at e; rw [e]
      · split at ht <;> simp at ht
    · simp at ht
  rcases List.mem_append.1 h with h | h
  · right
    cases hp : wk.pc with
    | got t => rw [hp] at h; rw [ht t h]
    | write1 w' b => rw [hp] at h; simp only [pcOps] at h; split at h <;> simp at h
    | write2 w' => rw [hp] at h; simp only [pcOps] at h; split at h <;> simp at h
    | idle => rw [hp] at h; simp [pcOps] at h
    | exited => rw [hp] at h; simp [pcOps] at h
  · left
    obtain ⟨t, h1, h2⟩ := List.mem_flatMap.1 h
    rw [← ht t h2]; exact h1

/-- C115 (partial: pipes and processes; the descriptors of the files themselves stay, `C115_violated`). At any moment of any schedule: if an end of the pipe of
an output file is open, or its compressor is running, then a connection that the saver knows has this file, or the saver is about to queue the task to close it,
or a marshaller has that task. -/
theorem C115_in_use_partial (me : MEnv) (env : Env) (cap : Nat) (bs : List MessageBlock) (s : Saver) (h : runSaver env bs = some s) (hm : 0 < env.marshallers)
    (hm' : env.marshallers < 2 ^ 64) (cs : List DChoice) (d : Disk) (hr : runDisk me env cap bs cs = some d) (w : Nat) (z : Zstd.ZState)
    (hw : d.writers w = some z) (hu : InUse z) :
    (∃ k c, d.proc.loop.svr.conns.get k = some c ∧ c.writer = some w) ∨ (∃ q, .send q ⟨none, some w⟩ ∈ d.proc.m.rem)
      ∨ ∃ wk ∈ d.proc.m.workers, wk.Closing w := by
  have hi := dinv_run h hm hm' hr
  obtain ⟨ps, hps, -⟩ := hi.proc
  have hcr := (C73_returns me env bs s h hm hm' ps d.proc hps).2.1
  obtain ⟨done, hinv⟩ := proc_minv h hm hm' (runProc_inv hps) hcr
  have hsp : program s = done ++ (d.proc.m.rem ++ newActions d.proc.loop.svr s) := hinv.split
  have hpl : program d.proc.loop.svr = done ++ d.proc.m.rem := by
    have := newActions_append (loop_prefix (runProc_inv hps) h hcr).1
    rw [hsp, ← List.append_assoc] at this
    exact (List.append_cancel_right this).symm
  have hop : ∃ n hd, .openFile w n hd ∈ program d.proc.loop.svr := by
    rw [hpl]
    rcases hi.known done hsp w (by rw [hw]; simp) with ⟨n, hd, hx⟩ | ⟨-, n, hd, rem, hx⟩
    · exact ⟨n, hd, List.mem_append_left _ hx⟩
    · exact ⟨n, hd, List.mem_append_right _ (by rw [hx]; simp)⟩
  obtain ⟨n, hd, hop⟩ := hop
  rcases open_or_closing (runProc_inv hps) hcr hop with hk | ⟨q, hq⟩
  · exact Or.inl hk
  rw [hpl] at hq
  rcases List.mem_append.1 hq with hq | hq
  · have hcl : FileOp.close ∈ d.proc.m.files w ++ pendAt me w d.proc.m.workers (homeOf s w) := by
      rw [show d.proc.m.files w ++ pendAt me w d.proc.m.workers (homeOf s w) = done.flatMap (actOps me w) from hinv.files w]
      exact List.mem_flatMap.2 ⟨_, hq, by simp [actOps, taskOps]⟩
    rcases List.mem_append.1 hcl with hcl | hcl
    · exfalso
      have hpre : d.proc.m.files w <+: (program s).flatMap (actOps me w) := files_prefix hinv w
      have hfull : d.proc.m.files w = (program s).flatMap (actOps me w) := by
        rcases file_ops me env bs s h w with hnil | ⟨ops, ho, hno⟩
        · rw [hnil] at hpre
          rw [hnil]; exact List.prefix_nil.1 hpre
        · obtain ⟨t, ht⟩ := hpre
          rw [ho] at ht ⊢
          rcases List.eq_nil_or_concat t with rfl | ⟨t', x, rfl⟩
          · simpa using ht
          · rw [List.concat_eq_append, ← List.append_assoc] at ht
            have := (List.append_inj' ht rfl).1
            exact absurd (this ▸ List.mem_append_left _ hcl) hno
      obtain ⟨ha, hfree⟩ := hi.zs w z hw
      have hp2 := hist_prefix h hm hm' hi w
      rw [hfull] at hp2 ha
      have hcur : d.curSaver me w ++ d.curWorker (homeOf s w) w = [] := by
        obtain ⟨t, ht⟩ := hp2
        rw [List.append_assoc] at ht
        have := List.append_right_eq_self.1 ht
        exact (List.append_eq_nil_iff.1 this).1
      have hfr := hfree hcur
      rw [hcur, List.append_nil] at ha
      refine not_inUse ha.reachable (Zstd.closed_once ha.reachable hfr ?_) hu
      rcases file_ops me env bs s h w with hnil | ⟨ops, ho, hno⟩
      · rw [hfull, hnil] at hcl; simp at hcl
      · rw [ho]; exact zCalls_count ops hno
    · right; right
      unfold pendAt at hcl
      cases hx : d.proc.m.workers[homeOf s w]? with
      | none => rw [hx] at hcl; simp at hcl
      | some wk =>
        rw [hx] at hcl
        exact ⟨wk, List.mem_of_getElem? hx, closing_of_pend hcl⟩
  · exact Or.inr (Or.inl ⟨q, hq⟩)

/-- C115. When `main` has returned nothing of any writer is in use: no end of a pipe is open and no compressor is left running, whatever failed. -/
theorem C115_returned (me : MEnv) (env : Env) (cap : Nat) (bs : List MessageBlock) (hm : 0 < env.marshallers) (hm' : env.marshallers < 2 ^ 64)
    (cs : List DChoice) (d : Disk) (hr : runDisk me env cap bs cs = some d) (hp : d.proc.pc = .returned) (w : Nat) (z : Zstd.ZState)
    (hw : d.writers w = some z) : ¬ InUse z := by
  obtain ⟨ps, hps⟩ := disk_proc hr
  obtain ⟨s, cs', h1, -⟩ := returned_all (runProc_inv hps) hp
  obtain ⟨-, ⟨-, hn⟩ | ⟨z', ops, hz, -, -, hre, hcl⟩⟩ := returned_writers hm hm' hr hp h1 w
  · rw [hn] at hw; simp at hw
  · rw [hw] at hz
    obtain rfl : z = z' := by simpa using hz
    exact not_inUse hre hcl

/-! ## The number of them -/

theorem nodup_length {α : Type} [DecidableEq α] (a : List α) (hn : a.Nodup) (b : List α) (hs : ∀ x ∈ a, x ∈ b) : a.length ≤ b.length := by
  induction a generalizing b with
  | nil => simp
  | cons x a ih =>
    have hx := hs x (by simp)
    have h1 := ih (List.nodup_cons.1 hn).2 (b.erase x) (fun y hy => by
      refine (List.mem_erase_of_ne ?_).2 (hs y (List.mem_cons_of_mem _ hy))
      rintro rfl
      exact (List.nodup_cons.1 hn).1 hy)
    rw [List.length_erase_of_mem hx] at h1
    have := List.length_pos_of_mem hx
    simp only [List.length_cons]
    omega

/-- The file that a task closes. -/
def Task.closes : Task → Option Nat
  | ⟨none, w⟩ => w
  | _ => none

/-- The files that a marshaller has tasks to close. -/
def Worker.closes (wk : Worker) : List Nat :=
  (match wk.pc with | .got t => t.closes.toList | _ => []) ++ wk.queue.filterMap Task.closes

theorem mem_closes {wk : Worker} {w : Nat} (h : wk.Closing w) : w ∈ wk.closes := by
  rcases h with h | h
  · exact List.mem_append_right _ (List.mem_filterMap.2 ⟨_, h, rfl⟩)
  · unfold Worker.closes
    simp [h, Task.closes]

theorem closes_length (wk : Worker) : wk.closes.length ≤ 1 + wk.queue.length := by
  unfold Worker.closes
  simp only [List.length_append]
  refine Nat.add_le_add ?_ (List.length_filterMap_le ..)
  split
  · rename_i t _
    cases t.closes <;> simp
  · simp

theorem flatMap_le {α β : Type} (f : α → List β) (c : Nat) (l : List α) (h : ∀ x ∈ l, (f x).length ≤ c) : (l.flatMap f).length ≤ c * l.length := by
  induction l with
  | nil => simp
  | cons x l ih =>
    have h1 := h x (by simp)
    have h2 := ih (fun y hy => h y (List.mem_cons_of_mem _ hy))
    simp only [List.flatMap_cons, List.length_append, List.length_cons, Nat.mul_add]
    omega

/-- C115 (partial as `C115_in_use_partial`; files can be created, cookies are not 0). At any moment at which the saver has carried out everything for the polls it has received,
the last of which is `b`: there are never more compressors running, and never more files with an open pipe, than connections in poll `b` and 101 for each
marshaller, under any schedule and whatever the compressors do. (`ws`: any of the files in use.) -/
theorem C115_bound_partial (me : MEnv) (env : Env) (hf : NoFaults env) (hv : ViewOK env) (cap : Nat) (bs : List MessageBlock) (s : Saver) (h : runSaver env bs = some s)
    (hI : ∀ b ∈ bs, AllInfoOK env.exclude b) (hz : ∀ b ∈ bs, ∀ r ∈ reports env.exclude b, ck r ≠ 0)
    (hm' : env.marshallers < 2 ^ 64) (cs : List DChoice) (d : Disk) (hr : runDisk me env cap bs cs = some d) (taken : List MessageBlock) (b : MessageBlock)
    (ht : bs = (taken ++ [b]) ++ d.proc.chan ++ d.proc.polls) (hrem : d.proc.m.rem = []) (ws : List Nat) (hn : ws.Nodup)
    (hw : ∀ w ∈ ws, ∃ z, d.writers w = some z ∧ InUse z) : ws.length ≤ (reports env.exclude b).length + 101 * env.marshallers := by
  have hm : 0 < env.marshallers := hf.marshallers
  have hi := dinv_run h hm hm' hr
  obtain ⟨ps, hps, -⟩ := hi.proc
  have hcr := (C73_returns me env bs s h hm hm' ps d.proc hps).2.1
  obtain ⟨done, hinv⟩ := proc_minv h hm hm' (runProc_inv hps) hcr
  obtain ⟨cs', hsim⟩ := (runProc_inv hps).sim hcr
  have hq : ∀ wk ∈ d.proc.m.workers, wk.queue.length ≤ 100 :=
    queue_bound cs' (fun wk hwk => by simp [mInit] at hwk; rw [hwk.2]; simp) hsim
  have hlen : d.proc.m.workers.length = env.marshallers := hinv.len
  obtain ⟨seen, l, e1, e2, e3, e4⟩ := (runProc_inv hps).seen hcr
  obtain rfl : seen = taken ++ [b] := by
    rw [ht] at e1
    exact (List.append_cancel_right (List.append_cancel_right e1)).symm
  let W : List Nat := (d.proc.loop.svr.conns.filterMap (fun kc => kc.2.writer)) ++ d.proc.m.workers.flatMap Worker.closes
  have hW : (d.proc.m.workers.flatMap Worker.closes).length ≤ 101 * env.marshallers := by
    rw [← hlen]
    refine flatMap_le _ _ _ (fun wk hwk => ?_)
    have := closes_length wk
    have := hq wk hwk
    omega
  have hC : (d.proc.loop.svr.conns.filterMap (fun kc => kc.2.writer)).length ≤ (reports env.exclude b).length := by
    cases he : d.proc.ended with
    | false =>
      rw [e3 he]
      have hwf := (finv_run (steps_run env _ l e2)).wf
      have hsub := C65_connections_partial env hf hv taken b (fun b' hb' => hI b' (by rw [ht]; simp only [List.mem_append] at hb' ⊢; exact Or.inl (Or.inl hb')))
        (fun b' hb' => hz b' (by rw [ht]; simp only [List.mem_append] at hb' ⊢; exact Or.inl (Or.inl hb'))) l e2
      have h1 : l.svr.conns.keys.length ≤ ((reports env.exclude b).map ck).length :=
        nodup_length _ hwf _ (fun k hk => by
          obtain ⟨r, hr1, hr2⟩ := (hsub k).1 hk
          exact List.mem_map.2 ⟨r, hr1, hr2⟩)
      refine Nat.le_trans (List.length_filterMap_le ..) ?_
      simpa [GoMap.keys] using h1
    | true =>
      have hrun : runSaver env (taken ++ [b]) = some d.proc.loop.svr := by
        unfold runSaver
        rw [e2]; exact e4 he
      obtain ⟨s1, hs1, hst, hnone⟩ := runSaver_closed hrun
      have hwf := (finv_run hst).wf
      rw [hs1]
      have : s1.conns.filterMap (fun kc => kc.2.writer) = [] := by
        refine List.filterMap_eq_nil_iff.2 (fun kc hkc => hnone kc.1 kc.2 ?_)
        exact GoMap.get_of_mem hwf hkc
      rw [show (s1.emit Action.closeChans).conns = s1.conns from rfl, this]
      simp
  have hsub : ∀ w ∈ ws, w ∈ W := by
    intro w hwm
    obtain ⟨z, hz1, hz2⟩ := hw w hwm
    rcases C115_in_use_partial me env cap bs s h hm hm' cs d hr w z hz1 hz2 with ⟨k, c, hk, hc⟩ | ⟨q, hq⟩ | ⟨wk, hwk, hcl⟩
    · exact List.mem_append_left _ (List.mem_filterMap.2 ⟨(k, c), GoMap.mem_of_get hk, hc⟩)
    · rw [hrem] at hq; simp at hq
    · exact List.mem_append_right _ (List.mem_flatMap.2 ⟨wk, hwk, mem_closes hcl⟩)
  have := nodup_length ws hn W hsub
  simp only [W, List.length_append] at this
  omega

/-! ## The output files -/

/-- C115 violated, in general: at any moment of any schedule the descriptors of all output files that have been created are open, also of those that have been closed long
ago, unless a finalizer has closed them (the model has no garbage collector). -/
theorem C115_violated_files (me : MEnv) (env : Env) (cap : Nat) (bs : List MessageBlock) (s : Saver) (h : runSaver env bs = some s) (hm : 0 < env.marshallers)
    (hm' : env.marshallers < 2 ^ 64) (cs : List DChoice) (d : Disk) (hr : runDisk me env cap bs cs = some d) (w : Nat) (z : Zstd.ZState)
    (hw : d.writers w = some z) : z.fOpen = true :=
  C59_violated_file cap _ z ((dinv_run h hm hm' hr).zs w z hw).1.reachable

/-! ## Concrete runs -/

/-- After `k` rounds of all goroutines and processes in turn: actions left, blocks left, files with closing tasks; for each file whether its pipe is in use, whether its compressor is running,
whether the file is open. -/
def exHeld (k : Nat) (fin : Nat → List Zstd.Choice) : Option (List Nat × List (List Nat) × List (List Bool)) :=
  (runDisk exMEnv exEnv 4 exBlocks (diskSkip exMEnv exEnv 4 (diskTurns k fin) (diskInit exBlocks 3)).1).map (fun d =>
    ([d.proc.m.rem.length, d.proc.chan.length + d.proc.polls.length], d.proc.m.workers.map Worker.closes,
      [0, 1].map (fun w => ((d.writers w).map (fun z => [z.wOpen || z.rOpen, decide (z.child = .running), z.fOpen])).getD [])))

set_option synthInstance.maxSize 1000 in
/-- `C115_in_use_partial`: both compressors run for connections that are known; later the first has ended and the second file is still to be closed by its marshaller. -/
example : exHeld 20 (fun _ => [.finish]) = some ([1, 2], [[], [], []], [[true, true, true], [true, true, true]])
    ∧ exHeld 40 (fun _ => [.finish]) = some ([0, 0], [[], [], [1]], [[false, false, true], [true, true, true]]) := by decide +kernel

/-- `C115_bound_partial`: its hypotheses about the input hold in this example, and the saver is idle after 40 rounds (above) and has received all blocks. -/
example : NoFaults exEnv ∧ ViewOK exEnv ∧ (∀ b ∈ exBlocks, ∀ r ∈ reports exEnv.exclude b, ck r ≠ 0) ∧ exBlocks.map (fun b => (reports exEnv.exclude b).length) = [2, 2, 1] :=
  ⟨⟨fun _ => rfl, by decide⟩, fun _ _ => ⟨rfl, rfl, ⟨rfl, rfl, rfl⟩, rfl⟩, by decide +kernel, by decide +kernel⟩

set_option synthInstance.maxSize 1000 in
/-- C115 violated: the connection of the second file is gone in the last poll; compressors and pipes are released, the file is still open when everything is over. -/
theorem C115_violated : ∃ cs d, runDisk exMEnv exEnv 4 exBlocks cs = some d ∧ d.proc.pc = .returned
    ∧ ∀ w < 2, ∃ z, d.writers w = some z ∧ ¬ InUse z ∧ .closed true ∈ z.rets ∧ z.fOpen = true := by
  have h : (exFull (fun _ => [.finish])).any (fun d => decide (d.proc.pc = .returned) && (List.range 2).all (fun w =>
      (d.writers w).any (fun z => !z.wOpen && !z.rOpen && decide (z.child ≠ .running) && decide (.closed true ∈ z.rets) && z.fOpen))) = true := by decide +kernel
  obtain ⟨d, hd, hx⟩ := Option.any_eq_true .. |>.1 h
  simp only [Bool.and_eq_true, decide_eq_true_eq, List.all_eq_true, List.mem_range] at hx
  refine ⟨_, d, hd, hx.1, fun w hw => ?_⟩
  have := hx.2 w hw
  cases hz : d.writers w with
  | none => rw [hz] at this; simp at this
  | some z =>
    rw [hz] at this
    simp only [Option.any_some, Bool.and_eq_true, Bool.not_eq_true', decide_eq_true_eq] at this
    obtain ⟨⟨⟨⟨a1, a2⟩, a3⟩, a4⟩, a5⟩ := this
    refine ⟨z, rfl, ?_, a4, a5⟩
    rintro (h | h | h)
    · rw [a1] at h; simp at h
    · rw [a2] at h; simp at h
    · exact a3 h

end TcpInfo
