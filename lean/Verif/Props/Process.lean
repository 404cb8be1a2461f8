import Verif.Lemmas.Process
import Verif.Props.EndToEnd
import Verif.Props.Zstd
import Verif.Props.ZstdReader
import Verif.Lemmas.LineLength
/-!
# Properties C73, C74 and C75: the process from the first poll to the return of `main`
-/

namespace TcpInfo
open Spec

/-! ## C73 -/

/-- C73. Every schedule is finite, with a bound that depends only on the input. If no goroutine can move then `main` has returned; there is no deadlock
between collector, saver and marshallers, and no crash. (Input on which the saver does not panic, see C44.) -/
theorem C73_returns (me : MEnv) (env : Env) (bs : List MessageBlock) (s : Saver) (h : runSaver env bs = some s) (hm : 0 < env.marshallers)
    (hm' : env.marshallers < 2 ^ 64) (cs : List PChoice) (p : Proc) (hr : runProc me env bs cs = some p) :
    cs.length ≤ 6 * s.trace.length + 2 * bs.length + env.marshallers + 4 ∧ p.m.crashed = false ∧ ((∀ c, p.step me env c = none) → p.pc = .returned) := by
  obtain ⟨a, b⟩ := pexec_ok h hm hm' cs (pinv_init me env bs) rfl hr
  refine ⟨?_, a, fun hn => pstuck (runProc_inv hr) h hm hm' a hn⟩
  have : pcost s.trace.length (procInit bs env.marshallers) = 6 * s.trace.length + 2 * bs.length + env.marshallers + 4 := by
    have hc := cost_init [] env.marshallers
    unfold pcost
    simp [procInit, newLoop, newSaver, MainPC.left, hc]
    omega
  omega

theorem Proc.exec_append (me : MEnv) (env : Env) (cs cs' : List PChoice) (p : Proc) :
    Proc.exec me env (cs ++ cs') p = (Proc.exec me env cs p).bind (Proc.exec me env cs') := by
  induction cs generalizing p with
  | nil => rfl
  | cons c cs ih =>
    simp only [List.cons_append, Proc.exec]
    cases p.step me env c with
    | none => rfl
    | some p1 => exact ih p1

/-- C73. From every state that can be reached `main` can still return: no choice made by the scheduler is fatal. -/
theorem C73_can_return (me : MEnv) (env : Env) (bs : List MessageBlock) (s : Saver) (h : runSaver env bs = some s) (hm : 0 < env.marshallers)
    (hm' : env.marshallers < 2 ^ 64) (cs : List PChoice) (p : Proc) (hr : runProc me env bs cs = some p) :
    ∃ cs' p', runProc me env bs (cs ++ cs') = some p' ∧ p'.pc = .returned := by
  have key : ∀ k cs p, runProc me env bs cs = some p → pcost s.trace.length p ≤ k → ∃ cs' p', runProc me env bs (cs ++ cs') = some p' ∧ p'.pc = .returned := by
    intro k
    induction k with
    | zero =>
      intro cs p hr hk
      have := (C73_returns me env bs s h hm hm' cs p hr).2.1
      simp [pcost, cost, this] at hk
    | succ k ih =>
      intro cs p hr hk
      by_cases hn : ∀ c, p.step me env c = none
      · exact ⟨[], p, by rw [List.append_nil]; exact hr, (C73_returns me env bs s h hm hm' cs p hr).2.2 hn⟩
      · obtain ⟨c, hc⟩ := Classical.not_forall.1 hn
        obtain ⟨p1, h1⟩ := Option.ne_none_iff_exists'.1 hc
        have hr1 : runProc me env bs (cs ++ [c]) = some p1 := by
          unfold runProc at hr ⊢
          rw [Proc.exec_append, hr]
          simp [Proc.exec, h1]
        obtain ⟨cs', p', h2, h3⟩ := ih (cs ++ [c]) p1 hr1 (by have := (pstep_ok (runProc_inv hr) h hm hm' c h1).2; omega)
        exact ⟨c :: cs', p', by rw [List.append_assoc] at h2; exact h2, h3⟩
  exact key _ cs p hr (Nat.le_refl _)

/-- C73. `main` does not return early, and not at all if the saver panics: when it has returned, all blocks have been submitted and processed, the saver has
made all its calls, and every marshaller has finished. -/
theorem C73_complete (me : MEnv) (env : Env) (bs : List MessageBlock) (hm : 0 < env.marshallers) (hm' : env.marshallers < 2 ^ 64) (cs : List PChoice) (p : Proc)
    (hr : runProc me env bs cs = some p) (hp : p.pc = .returned) :
    runSaver env bs = some p.loop.svr ∧ p.polls = [] ∧ p.chan = [] ∧ p.m.rem = [] ∧ ∀ wk ∈ p.m.workers, wk.pc = .exited ∧ wk.queue = [] := by
  obtain ⟨s, cs', h1, h2, h3, h4, h5, h6, h7⟩ := returned_all (runProc_inv hr) hp
  exact ⟨by rw [h7]; exact h1, h6, h5, h4, (C42_wait me env bs s h1 hm hm' cs' p.m h2 h3).2.1⟩

/-! ## C74 -/

/-- The calls a writer of package zstd sees. -/
def zCalls (ops : List FileOp) : List Zstd.Op := ops.map (fun o => match o with | .data b => .write b | .close => .close)

theorem beforeClose_calls (ops : List FileOp) (h : FileOp.close ∉ ops) : Zstd.beforeClose (zCalls (ops ++ [.close])) = contents (ops ++ [.close]) := by
  induction ops with
  | nil => rfl
  | cons o ops ih =>
    cases o with
    | close => simp at h
    | data b =>
      have := ih (fun hm => h (List.mem_cons_of_mem _ hm))
      unfold zCalls contents at this ⊢
      simp only [List.cons_append, List.map_cons, Zstd.beforeClose, List.flatMap_cons]
      rw [this]

/-- `main` has returned after the polls `bs`, under any schedule of collector, saver, marshallers, compressors. Then for every writer that was opened:
once its `Close` has returned and the compressor has not failed, the file on disk decompresses, under every schedule of the decompressor, to an archive that
is loaded without error as the header record followed by exactly the records queued for this file, in order, anonymized. Assumed: each is marshalled to less
than 64 KiB, the file's number is an `int` (see C62). -/
theorem archive_if_short (zone : Int → Int) (hz : ∀ t, (zone t).natAbs < 24 * 60) (anon : Anonymizer) (env : Env) (bs : List MessageBlock)
    (hm : 0 < env.marshallers) (hm' : env.marshallers < 2 ^ 64) (cs : List PChoice) (p : Proc) (hr : runProc (jsonEnv zone anon) env bs cs = some p)
    (hp : p.pc = .returned) :
    ∃ s, runSaver env bs = some s ∧ ∀ w, (fileEvents w s.trace = [] ∧ p.m.files w = [])
      ∨ ∃ n hd, ∃ ws : List ArchivalRecord, ∃ q, fileEvents w s.trace = .opened n hd :: ws.map (.wrote q) ++ [.closed q]
        ∧ ((∀ r ∈ hd :: ws.filterMap (anonymized anon.f), (∃ b, marshalRecord zone r = some b ∧ b.length < 65536)
              ∧ ∀ m, r.metadata = some m → -2 ^ 63 ≤ m.sequence ∧ m.sequence < 2 ^ 63) →
            ∀ cap z, Zstd.Reachable cap (zCalls (p.m.files w)) z → .closed true ∈ z.rets → z.child ≠ .exited false →
              ∃ data, z.disk = some data ∧ ∀ cap' d, Zstd.DReachable cap' data true d → d.eof = true →
                ∃ out, loadAllArchivalRecords ⟨d.received, .eof⟩ = (out, none)
                  ∧ out.length = (hd :: ws.filterMap (anonymized anon.f)).length
                  ∧ ∀ (i : Nat) (a b : ArchivalRecord), (hd :: ws.filterMap (anonymized anon.f))[i]? = some a → out[i]? = some b → SameContents a b) := by
  obtain ⟨s, cs', h1, h2, h3, -⟩ := returned_all (runProc_inv hr) hp
  refine ⟨s, h1, fun w => ?_⟩
  rcases C62_files_load zone hz anon env bs s h1 hm hm' cs' p.m h2 h3 w with he | ⟨n, hd, ws, q, he, hc⟩
  · exact Or.inl he
  · refine Or.inr ⟨n, hd, ws, q, he, fun hfit cap z hz1 hz2 hz3 => ?_⟩
    refine ⟨contents (p.m.files w), ?_, fun cap' d hd1 hd2 => ?_⟩
    · rw [C58_on_disk_partial cap _ z hz1 hz2 hz3]
      obtain ⟨done, hinv⟩ := process_inv _ env bs s h1 hm hm' cs' p.m h2
      have hf := (wg_zero (program_ok env bs s h1 hm hm') hinv).1 h3
      have hfi := finished_files hinv hf w
      rcases file_ops (jsonEnv zone anon) env bs s h1 w with hnil | ⟨ops, ho, hno⟩
      · rw [hfi, hnil]; rfl
      · rw [hfi, ho, beforeClose_calls ops hno]
    · rw [(C70_eof cap' _ true d hd1 hd2).1]
      exact hc hfit

/-- C62. After a complete run, under every schedule, every output file (decompressed) is loaded without error, as the header record followed by the
records queued for the file, in order, each with its addresses anonymized; nothing else. The only assumptions are about the input: messages of at most 48000
bytes, block times in the years 0 to 9999. -/
theorem C62_input (zone : Int → Int) (hz : ∀ t, (zone t).natAbs < 24 * 60) (anon : Anonymizer) (env : Env) (bs : List MessageBlock)
    (hi : ShortInput env bs) (s : Saver) (h : runSaver env bs = some s) (hm : 0 < env.marshallers) (hm' : env.marshallers < 2 ^ 64) (cs : List Choice) (st : MState)
    (hr : runProcess (jsonEnv zone anon) env s cs = some st) (hw : st.wg = 0) (w : Nat) :
    (fileEvents w s.trace = [] ∧ st.files w = [])
    ∨ ∃ n hd, ∃ ws : List ArchivalRecord, ∃ q, fileEvents w s.trace = .opened n hd :: ws.map (.wrote q) ++ [.closed q]
      ∧ ∃ out, loadAllArchivalRecords ⟨contents (st.files w), .eof⟩ = (out, none)
          ∧ out.length = (hd :: ws.filterMap (anonymized anon.f)).length
          ∧ ∀ (i : Nat) (a b : ArchivalRecord), (hd :: ws.filterMap (anonymized anon.f))[i]? = some a → out[i]? = some b → SameContents a b := by
  rcases C62_files_load zone hz anon env bs s h hm hm' cs st hr hw w with he | ⟨n, hd, ws, q, he, hc⟩
  · exact Or.inl he
  · exact Or.inr ⟨n, hd, ws, q, he, hc (short_lines hz anon hi h he)⟩

/-- C74. `main` has returned after the polls `bs`, under any schedule of collector, saver, marshallers, compressors. Then for every writer that was opened:
once its `Close` has returned and the compressor has not failed, the file on disk decompresses, under every schedule of the decompressor, to an archive that
is loaded without error as the header record followed by exactly the records queued for this file, in order, anonymized. -/
theorem C74_archive (zone : Int → Int) (hz : ∀ t, (zone t).natAbs < 24 * 60) (anon : Anonymizer) (env : Env) (bs : List MessageBlock) (hi : ShortInput env bs)
    (hm : 0 < env.marshallers) (hm' : env.marshallers < 2 ^ 64) (cs : List PChoice) (p : Proc) (hr : runProc (jsonEnv zone anon) env bs cs = some p)
    (hp : p.pc = .returned) :
    ∃ s, runSaver env bs = some s ∧ ∀ w, (fileEvents w s.trace = [] ∧ p.m.files w = [])
      ∨ ∃ n hd, ∃ ws : List ArchivalRecord, ∃ q, fileEvents w s.trace = .opened n hd :: ws.map (.wrote q) ++ [.closed q]
        ∧ ∀ cap z, Zstd.Reachable cap (zCalls (p.m.files w)) z → .closed true ∈ z.rets → z.child ≠ .exited false →
            ∃ data, z.disk = some data ∧ ∀ cap' d, Zstd.DReachable cap' data true d → d.eof = true →
              ∃ out, loadAllArchivalRecords ⟨d.received, .eof⟩ = (out, none)
                ∧ out.length = (hd :: ws.filterMap (anonymized anon.f)).length
                ∧ ∀ (i : Nat) (a b : ArchivalRecord), (hd :: ws.filterMap (anonymized anon.f))[i]? = some a → out[i]? = some b → SameContents a b := by
  obtain ⟨s, h, hw⟩ := archive_if_short zone hz anon env bs hm hm' cs p hr hp
  refine ⟨s, h, fun w => ?_⟩
  rcases hw w with he | ⟨n, hd, ws, q, he, hc⟩
  · exact Or.inl he
  · exact Or.inr ⟨n, hd, ws, q, he, hc (short_lines hz anon hi h he)⟩

/-- C74. At every moment of every schedule (so also when the process is killed then) what has been written to a writer, and what its compressor has been
given, whatever has failed, is the beginning of the text the complete run writes: the header line, then the anonymized records in order. Only a tail can be
missing. -/
theorem C74_killed (me : MEnv) (env : Env) (bs : List MessageBlock) (s : Saver) (h : runSaver env bs = some s) (hm : 0 < env.marshallers)
    (hm' : env.marshallers < 2 ^ 64) (cs : List PChoice) (p : Proc) (hr : runProc me env bs cs = some p) (w : Nat) :
    p.m.files w = []
    ∨ ∃ n hd, ∃ ws : List ArchivalRecord, ∃ q, fileEvents w s.trace = .opened n hd :: ws.map (.wrote q) ++ [.closed q]
      ∧ contents (p.m.files w) <+: fileText me.json me.anon.f hd ws
      ∧ ∀ cap z, Zstd.Reachable cap (zCalls (p.m.files w)) z → z.consumed <+: fileText me.json me.anon.f hd ws := by
  have hc := (C73_returns me env bs s h hm hm' cs p hr).2.1
  obtain ⟨cs', hcs⟩ := sim_full (runProc_inv hr) h hc
  obtain ⟨cs2, st, h2, h3⟩ := C42_can_finish me env bs s h hm hm' cs' _ hcs
  obtain ⟨done, hinv⟩ := process_inv me env bs s h hm hm' cs' _ hcs
  have hpre : p.m.files w <+: (program s).flatMap (actOps me w) := files_prefix hinv w
  obtain ⟨done', hinv'⟩ := process_inv me env bs s h hm hm' _ _ h2
  have hfin := finished_files hinv' ((wg_zero (program_ok env bs s h hm hm') hinv').1 h3) w
  rcases C39_contents me env bs s h hm hm' _ st h2 h3 w with ⟨-, he⟩ | ⟨n, hd, ws, q, he, hct⟩
  · left
    rw [← hfin, he] at hpre
    exact List.prefix_nil.1 hpre
  · right
    have hpc : contents (p.m.files w) <+: fileText me.json me.anon.f hd ws := by
      rw [← hct, hfin]
      obtain ⟨t, ht⟩ := hpre
      rw [← ht]
      unfold contents
      rw [List.flatMap_append]
      exact List.prefix_append _ _
    refine ⟨n, hd, ws, q, he, hpc, fun cap z hz => ?_⟩
    refine ((C58_order cap _ z hz).trans ?_).trans hpc
    generalize p.m.files w = ops
    induction ops with
    | nil => exact List.prefix_refl _
    | cons o ops ih =>
      cases o with
      | close => exact List.nil_prefix
      | data b =>
        unfold zCalls contents at ih ⊢
        simp only [List.map_cons, Zstd.beforeClose, List.flatMap_cons]
        exact (List.prefix_append_right_inj b).2 ih

/-! ## C75 -/

/-- C75. At every moment of every schedule at most two polls wait in the channel and at most 100 tasks in the queue of a marshaller; unless the process has
crashed, what the saver has taken, what waits and what is still to be polled make up the input, in order: nothing is lost, repeated or overtaken. -/
theorem C75_bounded (me : MEnv) (env : Env) (bs : List MessageBlock) (cs : List PChoice) (p : Proc) (hr : runProc me env bs cs = some p) :
    p.chan.length ≤ 2 ∧ (p.m.crashed = false → (∀ wk ∈ p.m.workers, wk.queue.length ≤ 100) ∧ ∃ taken l, bs = taken ++ p.chan ++ p.polls ∧ runBlocks env taken = some l
      ∧ (p.ended = false → p.loop = l)) := by
  have hi := runProc_inv hr
  refine ⟨hi.chan, fun hc => ⟨?_, ?_⟩⟩
  · obtain ⟨cs', h⟩ := hi.sim hc
    exact queue_bound cs' (fun wk hwk => by simp [mInit] at hwk; rw [hwk.2]; simp) h
  · obtain ⟨seen, l, h1, h2, h3, -⟩ := hi.seen hc
    exact ⟨seen, l, h1, h2, h3⟩

/-- C75. The collector is delayed only by a full channel: as long as it has polls to submit, it can move exactly when fewer than two are waiting. -/
theorem C75_delay (me : MEnv) (env : Env) (p : Proc) (hc : p.m.crashed = false) (hpc : p.pc = .collecting) (b : MessageBlock) (rest : List MessageBlock)
    (hp : p.polls = b :: rest) : (p.step me env .main ≠ none ↔ p.chan.length < 2)
      ∧ (p.chan.length < 2 → p.step me env .main = some { p with polls := rest, chan := p.chan ++ [b] }) := by
  have : p.step me env .main = if p.chan.length < 2 then some { p with polls := rest, chan := p.chan ++ [b] } else none := by
    unfold Proc.step Proc.mainStep
    rw [if_neg (by simp [hc, hpc])]
    simp only [hpc, hp]
  rw [this]
  refine ⟨?_, fun h => if_pos h⟩
  split <;> simp_all

/-! ## Examples -/

/-- Run a schedule, skipping choices that are not possible. -/
def procSkip (me : MEnv) (env : Env) : List PChoice → Proc → List PChoice × Proc
  | [], p => ([], p)
  | c :: cs, p => match p.step me env c with
    | none => procSkip me env cs p
    | some p' => let r := procSkip me env cs p'; (c :: r.1, r.2)

/-- Everybody in turn. -/
def exTurns : List PChoice := (List.range 40).flatMap (fun _ => [.main, .saver, .worker 0, .worker 1, .worker 2])

def exProc : Option Proc := runProc exJsonEnv exEnv exBlocks (procSkip exJsonEnv exEnv exTurns (procInit exBlocks 3)).1

-- this input is of ordinary size
theorem exShort : ShortInput exEnv exBlocks where
  times := by unfold ModernTime; decide +kernel
  sizes := by
    have h : ∀ b ∈ exBlocks, ∀ o ∈ b.v4Messages ++ b.v6Messages, (o.map (fun m => m.data.length)).getD 0 ≤ 48000 := by decide +kernel
    intro b hb m hm
    exact h b hb _ hm
  count := by decide +kernel
  uuids := by
    intro k
    have := toDigits_length 19 k.toNat (by have := k.toNat_lt; omega)
    show (Nat.repr k.toNat).length ≤ 10000
    simp only [Nat.repr, String.length_ofList]
    omega
-- three polls, two connections: `main` returns, with the file of the second connection complete
example : exProc.map (fun p => (p.pc, p.m.wg, p.chan.length, (loadAllArchivalRecords ⟨contents (p.m.files 1), .eof⟩).2,
    (loadAllArchivalRecords ⟨contents (p.m.files 1), .eof⟩).1.length)) = some (.returned, 0, 0, none, 3) := by decide +kernel
-- the collector is stopped by a saver that does not move
example : (runProc exJsonEnv exEnv exBlocks [.main, .main]).map (fun p => (p.chan.length, p.polls.length, (p.step exJsonEnv exEnv .main).isSome))
    = some (2, 1, false) := by decide +kernel

/-- A schedule for a writer and its compressor: start, then each piece is written and read at once. -/
def exZip (ops : List FileOp) : List Zstd.Choice :=
  .gor true :: ops.flatMap (fun o => match o with
    | .data b => if b = [] then [.user 0, .user 0] else [.user 0, .user b.length, .read b.length, .user 0]
    | .close => [.user 0, .finish, .gor true, .gor true, .gor true, .user 0])

/-- The file of the second connection, on disk. -/
def exDisk : Option Bytes := exProc.bind (fun p => (zRun 65536 (zCalls (p.m.files 1)) (exZip (p.m.files 1))).bind (fun z =>
  if .closed true ∈ z.rets ∧ z.child = .exited true then z.disk else none))

/-- What is read from it. -/
def exRead : Option Bytes := exDisk.bind (fun data => (Zstd.newReader true true data true).bind (fun d =>
  (d.exec 65536 [.gor true, .write data.length, .finish, .read data.length, .gor true, .gor true, .read 0]).bind (fun d =>
    if d.eof then some d.received else none)))

-- the whole way: polls, saver, marshaller, compressor, disk, decompressor, loader
example : exRead.map (fun b => (loadAllArchivalRecords ⟨b, .eof⟩).2) = some none := by decide +kernel
example : exRead.map (fun b => (loadAllArchivalRecords ⟨b, .eof⟩).1.map (fun r => (r.metadata.map (fun m => (m.uuid, m.sequence)), r.raw.length, r.attrs.length)))
    = some [(some ("2", 0), 0, 0), (none, 72, 3), (none, 72, 3)] := by decide +kernel
-- in the middle of the run one poll is waiting and the same file has its header line and one record
example : (runProc exJsonEnv exEnv exBlocks (procSkip exJsonEnv exEnv (exTurns.take 55) (procInit exBlocks 3)).1).map
    (fun p => (p.chan.length, (splitLines (contents (p.m.files 1))).map List.length)) = some (1, [108, 484]) := by decide +kernel

end TcpInfo
