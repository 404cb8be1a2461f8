import Verif.Props.Resources
/-!
# C116: events and files
-/

namespace TcpInfo
open Spec

/-! ## The order of the saver's actions -/

/-- Every announcement of a connection is followed at once by the creation of its first file. -/
def Started (env : Env) (tr : List Stamped) : Prop := ∀ a x b, tr = a ++ x :: b → ∀ t u id, x.act = .flowCreated t u id →
  ∃ y c w hd, b = y :: c ∧ y.act = .openFile w ⟨env.date t, u, 0⟩ hd

theorem started_append {env : Env} {tr tr' : List Stamped} (h : Started env tr) (h' : Started env tr') : Started env (tr ++ tr') := by
  intro a x b he t u id hx
  rcases List.append_eq_append_iff.1 he with ⟨m, h1, h2⟩ | ⟨m, h1, h2⟩
  · exact h' m x b h2 t u id hx
  · cases m with
    | nil =>
      simp only [List.nil_append] at h2
      exact h' [] x b h2.symm t u id hx
    | cons z m =>
      simp only [List.cons_append, List.cons.injEq] at h2
      obtain ⟨rfl, rfl⟩ := h2
      obtain ⟨y, c, w, hd, e, hy⟩ := h a x m h1 t u id hx
      subst e
      exact ⟨y, c ++ tr', w, hd, rfl, hy⟩

theorem started_noOpen {env : Env} {s s' : Saver} (h : Started env s.trace) (he : Ext NoOpen s s') : Started env s'.trace := by
  obtain ⟨ext, h1, h2⟩ := he
  rw [h1]
  refine started_append h ?_
  intro a x b e t u id hx
  exact absurd hx (h2 x (by rw [e]; simp) t u id)

theorem closeExpired_noOpen (env : Env) (s : Saver) (k : UInt64) (c : Conn) : Ext NoOpen s (s.closeExpired env k c).1 := by
  unfold Saver.closeExpired
  simp only
  split
  · exact (Ext.refl (s' := s.readClock env) rfl).emit (by unfold NoOpen; simp) rfl
  · exact .refl rfl

theorem rotate_noOpen (env : Env) (s : Saver) (c : Conn) : Ext NoOpen s (s.rotate env c).1 := by
  have hd : (s.rotateDir env c).1.trace = s.trace := by unfold Saver.rotateDir; split <;> rfl
  unfold Saver.rotate
  simp only
  split
  · exact .refl hd
  · exact (Ext.refl (s' := (s.rotateDir env c).1) hd).emit (by unfold NoOpen; simp) rfl

theorem queue_started {env : Env} (hf : NoFaults env) {s s' : Saver} {r : ArchivalRecord} {e : Option GoErr} (h : s.queue env r = some (s', e))
    (hs : Started env s.trace) : Started env s'.trace := by
  unfold Saver.queue at h
  split at h
  · simp at h
  · simp at h
  · rename_i idm hp
    simp only at h
    split at h
    · injection h with h; injection h with h1 h2; subst h1; exact hs
    · split at h
      · injection h with h; injection h with h1 h2; subst h1; exact hs
      · cases hg : s.conns.get (cookieOf idm) with
        | some c =>
          have e1 : s.getConn env (cookieOf idm) idm r.timestamp = (s, c) := by unfold Saver.getConn; rw [hg]
          rw [e1] at h
          have g2 := closeExpired_noOpen env s (cookieOf idm) c
          simp only at h
          generalize s.closeExpired env (cookieOf idm) c = sc2 at h g2
          have g3 : Ext NoOpen sc2.1 (if sc2.2.writer = none then sc2.1.rotate env sc2.2 else (sc2.1, sc2.2, none)).1 := by
            split
            · exact rotate_noOpen env sc2.1 sc2.2
            · exact .refl rfl
          generalize (if sc2.2.writer = none then sc2.1.rotate env sc2.2 else (sc2.1, sc2.2, none)) = sce at h g3
          have g := g2.trans g3
          refine started_noOpen hs ?_
          split at h
          · injection h with h; injection h with h1 h2; subst h1; exact g.same rfl
          · injection h with h; injection h with h1 h2; subst h1
            exact g.emit (by unfold NoOpen; simp) rfl
        | none =>
          have hck : ∀ t, (newConnection idm r.timestamp t).id.cookieUint64 = cookieOf idm := by
            intro t
            simp [newConnection, LinuxSockID.getSockID, SockID.cookieUint64, cookieOf]
          have e1 : s.getConn env (cookieOf idm) idm r.timestamp = ({ (s.readClock env).emit (.flowCreated r.timestamp (env.uuid (cookieOf idm)) idm.id.getSockID) with
              conns := s.conns.set (cookieOf idm) (newConnection idm r.timestamp (s.readClock env).clock) }, newConnection idm r.timestamp (s.readClock env).clock) := by
            unfold Saver.getConn; rw [hg]; rfl
          rw [e1] at h
          have e2 : ∀ (s : Saver) (t : Int), s.closeExpired env (cookieOf idm) (newConnection idm r.timestamp t) = (s.readClock env, newConnection idm r.timestamp t) := by
            intro s t; unfold Saver.closeExpired; simp [newConnection]
          have e3 : ∀ t, (newConnection idm r.timestamp t).writer = none := fun _ => rfl
          simp only [e2, e3, if_true] at h
          simp only [Saver.rotate, hf.create, Bool.true_eq_false, if_false, Saver.rotateDir, show ∀ t, ¬ (newConnection idm r.timestamp t).sequence > 0 from fun t => by simp [newConnection], hck] at h
          injection h with h; injection h with h1 h2; subst h1
          intro a x b he t u id hx
          simp only [Saver.emit, Saver.readClock, List.append_assoc, List.cons_append, List.nil_append] at he
          refine started_append hs (tr' := [_, _, _]) ?_ a x b he t u id hx
          intro a x b he t u id hx
          rcases a with _ | ⟨y1, _ | ⟨y2, _ | ⟨y3, a⟩⟩⟩
          · simp only [List.nil_append, List.cons.injEq] at he
            obtain ⟨rfl, rfl⟩ := he
            simp only [Action.flowCreated.injEq] at hx
            obtain ⟨rfl, rfl, rfl⟩ := hx
            exact ⟨_, _, _, _, rfl, rfl⟩
          · simp only [List.cons_append, List.nil_append, List.cons.injEq] at he
            obtain ⟨-, rfl, -⟩ := he
            simp at hx
          · simp only [List.cons_append, List.nil_append, List.cons.injEq] at he
            obtain ⟨-, -, rfl, -⟩ := he
            simp at hx
          · simp at he

theorem swap_started {env : Env} (hf : NoFaults env) {s s' : Saver} {r : ArchivalRecord} (h : s.swapAndQueue env r = some s')
    (hs : Started env s.trace) : Started env s'.trace := by
  have hq : ∀ s0 : Saver, s0.trace = s.trace → (s0.queue env r).map (·.1) = some s' → Started env s'.trace := by
    intro s0 h0 h1
    obtain ⟨⟨s1, e⟩, h2, h3⟩ := Option.map_eq_some_iff.1 h1
    subst h3
    exact queue_started hf h2 (h0 ▸ hs)
  unfold Saver.swapAndQueue at h
  simp only at h
  generalize s.cache.update r = cu at h
  obtain ⟨c, o⟩ := cu
  cases o with
  | panic => simp at h
  | err e => simp only [Option.some.injEq] at h; subst h; exact hs
  | ok o =>
    cases o with
    | none => simp only at h; refine hq _ ?_ h; rfl
    | some cached =>
      simp only at h
      generalize hold : env.view s.tick cached = old at h
      split at h
      · simp at h
      · injection h with h; subst h; exact hs
      · split at h
        · simp at h
        · injection h with h; subst h
          rw [(recordClosing_frame _ _ _ _).2.1]; exact hs
        · split at h
          · refine hq _ ?_ h
            exact (recordClosing_frame _ _ _ _).2.1
          · injection h with h; subst h
            rw [(recordClosing_frame _ _ _ _).2.1]; exact hs

theorem started_blocks {env : Env} (hf : NoFaults env) (bs : List MessageBlock) (l : LoopState) (h : runBlocks env bs = some l) : Started env l.svr.trace := by
  refine run_induct env (fun _ l => Started env l.svr.trace) (fun _ => True) ?_ ?_ ?_ bs (fun _ _ _ _ => trivial) l h
  · intro a x b he; simp [newLoop, newSaver] at he
  · intro h l r s' _ _ hp hs; exact swap_started hf hs hp
  · intro h l l1 t s4 s6 r4 r6 hp hfin _ _
    refine started_noOpen (started_noOpen hp ?_) (report_ext l1 t s4 s6 r4 r6)
    unfold LoopState.finish at hfin
    obtain ⟨ext, e1, e2⟩ := expireAll_ext env _ _ _ _ hfin
    exact ⟨ext, e1, e2⟩

theorem started_run {env : Env} (hf : NoFaults env) (bs : List MessageBlock) (s : Saver) (h : runSaver env bs = some s) : Started env s.trace := by
  obtain ⟨l, h1, h2⟩ := Option.bind_eq_some_iff.1 h
  exact started_noOpen (started_blocks hf bs l h1) (close_ext env l.svr s h2)

/-- When the end of a connection that has an open file is announced, the next action is the task to close that file. -/
def EndsClose (s : Saver) : Prop := ∀ a t u b, program s = a ++ .flowDeleted t u :: b → ∀ w n hd, .openFile w n hd ∈ a → n.uuid = u →
  (∀ q, .send q ⟨none, some w⟩ ∉ a) → ∃ q c, b = .send q ⟨none, some w⟩ :: c

theorem program_emit (s : Saver) (a : Action) : program (s.emit a) = program s ++ [a] := by simp [program, Saver.emit]

/-- An open file belongs to a connection that is known. -/
theorem open_conn {env : Env} {s : Saver} (hi : FInv env s) {w : Nat} {n : FileName} {hd : ArchivalRecord} {k : UInt64} (ho : .openFile w n hd ∈ program s)
    (hn : n.uuid = env.uuid k) (hc : ∀ q, .send q ⟨none, some w⟩ ∉ program s) : ∃ c, s.conns.get k = some c ∧ c.writer = some w := by
  obtain ⟨x, hx, hact⟩ := List.mem_map.1 ho
  have hev : FileEvent.opened n hd ∈ fileEvents w s.trace := List.mem_filterMap.2 ⟨x, hx, by rw [hact]; simp [fileEvent]⟩
  by_cases hlt : w < s.nextWriter
  · obtain ⟨k', n', hd', ws, hown, hh⟩ := hi.files w hlt
    have hnn : n = n' := by
      rcases hh with ⟨e, -⟩ | ⟨e, -⟩ <;> rw [e] at hev <;> simp at hev <;> exact hev.1
    subst hnn
    have hk : k = k' := env.uuid_inj _ _ (hn ▸ hown.name)
    subst hk
    rcases hh with ⟨-, hcc, -⟩ | ⟨e, -⟩
    · exact hcc
    · exfalso
      have : FileEvent.closed (queueOf env k) ∈ fileEvents w s.trace := by rw [e]; simp
      obtain ⟨y, hy, hye⟩ := List.mem_filterMap.1 this
      refine hc (queueOf env k) (List.mem_map.2 ⟨y, hy, ?_⟩)
      revert hye
      unfold fileEvent
      split
      · split <;> simp
      · split <;> simp
      · rename_i q' w' hx'
        split
        · rename_i e'
          subst e'
          intro h
          simp only [Option.some.injEq, FileEvent.closed.injEq] at h
          rw [hx', h]
        · simp
      · simp
  · rw [hi.fresh w (by omega)] at hev; simp at hev

theorem endsClose_step {env : Env} {s t : Saver} (hst : Step env s t) (hi : FInv env s) (h : EndsClose s) : EndsClose t := by
  have keep : ∀ t : Saver, program t = program s → EndsClose t := by
    intro t e a tt u b hp; rw [e] at hp; exact h a tt u b hp
  have snoc : ∀ (t : Saver) (x : Action), program t = program s ++ [x] → (∀ tt u, x ≠ .flowDeleted tt u) → EndsClose t := by
    intro t x e hx a tt u b hp w n hd ho hn hc
    rw [e] at hp
    rcases List.eq_nil_or_concat b with rfl | ⟨b', y, rfl⟩
    · have := (List.append_inj' hp rfl).2
      simp only [List.cons.injEq, and_true] at this
      exact absurd this (hx tt u)
    · rw [List.concat_eq_append, ← List.cons_append, ← List.append_assoc] at hp
      have := (List.append_inj' hp rfl).1
      obtain ⟨q, c, e'⟩ := h a tt u b' this w n hd ho hn hc
      exact ⟨q, c ++ [y], by rw [e', List.concat_eq_append]; rfl⟩
  cases hst with
  | other h1 h2 h3 h4 h5 => exact keep _ (by simp [program, h3])
  | clock => exact keep _ rfl
  | observe a ha =>
    refine snoc _ a (program_emit s a) ?_
    rcases ha with ⟨n, rfl⟩ | ⟨n, rfl⟩ <;> simp
  | create k idm ts h1 h2 h3 => exact snoc _ _ (program_emit s _) (by simp)
  | closeExpired k c w h1 h2 h3 => exact snoc _ _ (program_emit s _) (by simp)
  | touch k c h1 => exact keep _ rfl
  | rotate k c dir h1 h2 h3 h4 => exact snoc _ _ (program_emit s _) (by simp)
  | write k c w msg idm h1 h2 h3 h4 h5 => exact snoc _ _ (program_emit s _) (by simp)
  | endClose k c w h1 h2 =>
    intro a tt u b hp w' n hd ho hn hc
    have hp' : program s ++ [.flowDeleted (env.wall s.clock) (env.uuid k), .send (queueOf env k) ⟨none, some w⟩] = a ++ .flowDeleted tt u :: b := by
      rw [← hp]; simp [program, Saver.emit]
    rcases List.eq_nil_or_concat b with rfl | ⟨b', y, rfl⟩
    · rw [show ∀ x y : Action, [x, y] = [x] ++ [y] from fun _ _ => rfl, ← List.append_assoc] at hp'
      have := (List.append_inj' hp' rfl).2
      simp at this
    · rw [List.concat_eq_append] at hp' ⊢
      rw [show ∀ x y : Action, [x, y] = [x] ++ [y] from fun _ _ => rfl, ← List.append_assoc, ← List.cons_append, ← List.append_assoc] at hp'
      obtain ⟨e1, e2⟩ := List.append_inj' hp' rfl
      simp only [List.cons.injEq, and_true] at e2
      subst e2
      rcases List.eq_nil_or_concat b' with rfl | ⟨b'', y', rfl⟩
      · obtain ⟨e3, e4⟩ := List.append_inj' e1 rfl
        simp only [List.cons.injEq, Action.flowDeleted.injEq, and_true] at e4
        subst e3
        obtain ⟨c', hc1, hc2⟩ := open_conn hi ho (hn.trans e4.2.symm) hc
        rw [h1] at hc1
        obtain rfl : c = c' := by simpa using hc1
        rw [h2] at hc2
        obtain rfl : w = w' := by simpa using hc2
        exact ⟨_, [], rfl⟩
      · rw [List.concat_eq_append, ← List.cons_append, ← List.append_assoc] at e1
        have := (List.append_inj' e1 rfl).1
        obtain ⟨q, c', e'⟩ := h a tt u b'' this w' n hd ho hn hc
        exact ⟨q, c' ++ [y'] ++ [_], by rw [e', List.concat_eq_append]; rfl⟩
  | endGone k h1 =>
    intro a tt u b hp w' n hd ho hn hc
    rw [program_emit] at hp
    rcases List.eq_nil_or_concat b with rfl | ⟨b', y, rfl⟩
    · obtain ⟨e3, e4⟩ := List.append_inj' hp rfl
      simp only [List.cons.injEq, Action.flowDeleted.injEq, and_true] at e4
      subst e3
      obtain ⟨c', hc1, hc2⟩ := open_conn hi ho (hn.trans e4.2.symm) hc
      rw [h1 c' hc1] at hc2
      simp at hc2
    · rw [List.concat_eq_append, ← List.cons_append, ← List.append_assoc] at hp
      have := (List.append_inj' hp rfl).1
      obtain ⟨q, c', e'⟩ := h a tt u b' this w' n hd ho hn hc
      exact ⟨q, c' ++ [y], by rw [e', List.concat_eq_append]; rfl⟩

theorem endsClose_steps {env : Env} {s : Saver} (h : Steps env newSaver s) : EndsClose s := by
  have : FInv env s ∧ EndsClose s := by
    refine h.inv (P := fun s => FInv env s ∧ EndsClose s) (fun s t hst hp => ⟨finv_step env s t hst hp.1, endsClose_step hst hp.1 hp.2⟩) ⟨finv_new env, ?_⟩
    intro a t u b hp
    simp [program, newSaver] at hp
  exact this.2

theorem endsClose_emit {s : Saver} (h : EndsClose s) (x : Action) (hx : ∀ tt u, x ≠ .flowDeleted tt u) : EndsClose (s.emit x) := by
  intro a tt u b hp w n hd ho hn hc
  rw [program_emit] at hp
  rcases List.eq_nil_or_concat b with rfl | ⟨b', y, rfl⟩
  · have := (List.append_inj' hp rfl).2
    simp only [List.cons.injEq, and_true] at this
    exact absurd this (hx tt u)
  · rw [List.concat_eq_append, ← List.cons_append, ← List.append_assoc] at hp
    have := (List.append_inj' hp rfl).1
    obtain ⟨q, c, e'⟩ := h a tt u b' this w n hd ho hn hc
    exact ⟨q, c ++ [y], by rw [e', List.concat_eq_append]; rfl⟩

theorem endsClose_run {env : Env} {bs : List MessageBlock} {s : Saver} (h : runSaver env bs = some s) : EndsClose s := by
  obtain ⟨s1, hs1, hst, -⟩ := runSaver_closed h
  rw [hs1]
  exact endsClose_emit (endsClose_steps hst) _ (by simp)

theorem started_program {env : Env} {s : Saver} (h : Started env s.trace) {a b : List Action} {t : Int} {u : String} {id : SockID}
    (hp : program s = a ++ .flowCreated t u id :: b) : ∃ w hd c, b = .openFile w ⟨env.date t, u, 0⟩ hd :: c := by
  unfold program at hp
  obtain ⟨a', b', e1, e2, e3⟩ := List.map_eq_append_iff.1 hp
  obtain ⟨x, c', e4, e5, e6⟩ := List.map_eq_cons_iff.1 e3
  subst e4
  obtain ⟨y, c, w, hd, e7, e8⟩ := h a' x c' e1 t u id e5
  subst e7
  exact ⟨w, hd, c.map (·.act), by rw [← e6, List.map_cons, e8]⟩

/-- C116 (partial: the order of what the saver does; nothing of this has happened yet when the event is sent, `C116_violated_start`, `C116_violated_end`). If files can be created: right
after a connection is announced its first file is created, in the directory of the announced time. -/
theorem C116_start_partial (env : Env) (hf : NoFaults env) (bs : List MessageBlock) (s : Saver) (h : runSaver env bs = some s) (a b : List Action) (t : Int) (u : String)
    (id : SockID) (hp : program s = a ++ .flowCreated t u id :: b) : ∃ w hd c, b = .openFile w ⟨env.date t, u, 0⟩ hd :: c :=
  started_program (started_run hf bs s h) hp

/-- C116 (partial as `C116_start_partial`). Right after the end of a connection is announced the task to close its file is queued, if it has an open file; whatever fails. -/
theorem C116_end_partial (env : Env) (bs : List MessageBlock) (s : Saver) (h : runSaver env bs = some s) (a b : List Action) (t : Int) (u : String)
    (hp : program s = a ++ .flowDeleted t u :: b) (w : Nat) (n : FileName) (hd : ArchivalRecord) (ho : .openFile w n hd ∈ a) (hn : n.uuid = u)
    (hc : ∀ q, .send q ⟨none, some w⟩ ∉ a) : ∃ q c, b = .send q ⟨none, some w⟩ :: c :=
  endsClose_run h a t u b hp w n hd ho hn hc

/-! ## The files at these moments -/

/-- The actions of the saver: those carried out and the rest. -/
theorem done_rem {me : MEnv} {env : Env} {cap : Nat} {bs : List MessageBlock} {s : Saver} (h : runSaver env bs = some s) (hm : 0 < env.marshallers)
    (hm' : env.marshallers < 2 ^ 64) {cs : List DChoice} {d : Disk} (hr : runDisk me env cap bs cs = some d) :
    ∃ done, program s = done ++ (d.proc.m.rem ++ newActions d.proc.loop.svr s) ∧ program d.proc.loop.svr = done ++ d.proc.m.rem
      ∧ ∀ w, d.proc.m.files w ++ pendAt me w d.proc.m.workers (homeOf s w) = done.flatMap (actOps me w) := by
  obtain ⟨ps, hps, -⟩ := (dinv_run h hm hm' hr).proc
  have hcr := (C73_returns me env bs s h hm hm' ps d.proc hps).2.1
  obtain ⟨done, hinv⟩ := proc_minv h hm hm' (runProc_inv hps) hcr
  have hsp : program s = done ++ (d.proc.m.rem ++ newActions d.proc.loop.svr s) := hinv.split
  refine ⟨done, hsp, ?_, hinv.files⟩
  have := newActions_append (loop_prefix (runProc_inv hps) h hcr).1
  rw [hsp, ← List.append_assoc] at this
  exact (List.append_cancel_right this).symm

/-- A file whose task to close is not yet queued is not complete, under any schedule. -/
theorem not_closed {me : MEnv} {env : Env} {cap : Nat} {bs : List MessageBlock} {s : Saver} (h : runSaver env bs = some s) (hm : 0 < env.marshallers)
    (hm' : env.marshallers < 2 ^ 64) {cs : List DChoice} {d : Disk} (hr : runDisk me env cap bs cs = some d) {q w : Nat}
    (hq : .send q ⟨none, some w⟩ ∈ d.proc.m.rem) {z : Zstd.ZState} (hw : d.writers w = some z) : z.wOpen = true ∧ z.disk = none := by
  obtain ⟨done, hsp, -, hfil⟩ := done_rem h hm hm' hr
  have hi := dinv_run h hm hm' hr
  have ha := (hi.zs w z hw).1.reachable
  have hno : FileOp.close ∉ done.flatMap (actOps me w) := by
    intro hx
    obtain ⟨x1, x2, hx⟩ := List.append_of_mem hx
    have hy : FileOp.close ∈ (d.proc.m.rem ++ newActions d.proc.loop.svr s).flatMap (actOps me w) :=
      List.mem_flatMap.2 ⟨_, List.mem_append_left _ hq, by simp [actOps, taskOps]⟩
    have hall : (program s).flatMap (actOps me w) = x1 ++ .close :: (x2 ++ (d.proc.m.rem ++ newActions d.proc.loop.svr s).flatMap (actOps me w)) := by
      rw [hsp, List.flatMap_append, hx]; simp
    rcases file_ops me env bs s h w with hnil | ⟨ops, ho, hno⟩
    · rw [hnil] at hall; simp at hall
    · have hc1 : ((program s).flatMap (actOps me w)).count .close = 1 := by
        rw [ho, List.count_append, List.count_eq_zero.2 hno]; rfl
      have hc2 : 0 < ((d.proc.m.rem ++ newActions d.proc.loop.svr s).flatMap (actOps me w)).count .close := List.count_pos_iff.2 hy
      rw [hall] at hc1
      simp only [List.count_append, List.count_cons_self] at hc1 hc2
      omega
  have hop : z.wOpen = true := by
    cases hz : z.wOpen with
    | true => rfl
    | false =>
      exfalso
      have hmade := Zstd.made_reachable ha
      have hcl : Zstd.Op.close ∈ zCalls (d.proc.m.files w) ++ (d.curSaver me w ++ d.curWorker (homeOf s w) w) := by
        rw [← hmade.all]; exact List.mem_append_left _ (hmade.shut hz)
      rcases List.mem_append.1 hcl with hcl | hcl
      · obtain ⟨o, h1, h2⟩ := List.mem_map.1 hcl
        cases o with
        | data b => simp at h2
        | close => exact hno (by rw [← hfil w]; exact List.mem_append_left _ h1)
      · replace hcl := List.mem_append.1 hcl
        rcases hcl with hcl | hcl
        · unfold Disk.curSaver at hcl
          split at hcl
          · split at hcl
            · split at hcl
              · simp [headerCalls] at hcl
              · simp at hcl
            · simp at hcl
          · simp at hcl
        · unfold Disk.curWorker at hcl
          split at hcl
          · split at hcl
            · rename_i w' op hcall
              split at hcl
              · rename_i e
                subst e
                obtain rfl : Zstd.Op.close = op := List.mem_singleton.1 (by assumption)
                unfold MState.callOf at hcall
                obtain ⟨wk, hwk, hpc⟩ := Option.bind_eq_some_iff.1 hcall
                obtain ⟨rest, hrest⟩ := call_pcOps me hpc
                refine hno ?_
                rw [← hfil w']
                refine List.mem_append_right _ ?_
                unfold pendAt
                rw [hwk]
                simp only [Option.map_some, Option.getD_some]
                unfold pend
                rw [hrest]
                simp [fileOp]
              · simp at hcl
            · simp at hcl
          · simp at hcl
  refine ⟨hop, ?_⟩
  have hinv := Zstd.inv_reachable ha
  cases hd : z.disk with
  | none => rfl
  | some b => have := (hinv.ok (hinv.disk b hd)).2.1; rw [hop] at this; simp at this

/-- What the loop of the saver has done at any moment is what it does on the blocks received. -/
theorem loop_cases {me : MEnv} {env : Env} {cap : Nat} {bs : List MessageBlock} {s : Saver} (h : runSaver env bs = some s) (hm : 0 < env.marshallers)
    (hm' : env.marshallers < 2 ^ 64) {cs : List DChoice} {d : Disk} (hr : runDisk me env cap bs cs = some d) :
    ∃ seen, (∃ l, runBlocks env seen = some l ∧ d.proc.loop.svr = l.svr) ∨ runSaver env seen = some d.proc.loop.svr := by
  obtain ⟨ps, hps, -⟩ := (dinv_run h hm hm' hr).proc
  have hcr := (C73_returns me env bs s h hm hm' ps d.proc hps).2.1
  obtain ⟨seen, l, -, h2, h3, h4⟩ := (runProc_inv hps).seen hcr
  refine ⟨seen, ?_⟩
  cases he : d.proc.ended with
  | false => exact Or.inl ⟨l, h2, by rw [h3 he]⟩
  | true =>
    right
    unfold runSaver
    rw [h2]; exact h4 he

/-- A step of the saver that sends an event changes no file. -/
theorem event_step {me : MEnv} {env : Env} {cap : Nat} {d d' : Disk} {x : Action} {rest : List Action} (hx : ∀ w n hd, x ≠ .openFile w n hd) (hrem : d.proc.m.rem = x :: rest)
    (hs : d.step me env cap (.proc .saver) = some d') : d'.writers = d.writers := by
  unfold Disk.step at hs
  split at hs
  · simp at hs
  · simp only at hs
    unfold Disk.saverStep at hs
    rw [hrem] at hs
    split at hs
    · rename_i w n hd rest' e
      simp only [List.cons.injEq] at e
      exact absurd e.1 (hx _ _ _)
    · obtain ⟨p, -, rfl⟩ := Option.map_eq_some_iff.1 hs
      rfl

/-- C116 violated, in general (files can be created). Under every schedule, when the saver announces a connection, its first file has not been created, neither before nor after the event is sent. -/
theorem C116_violated_start (me : MEnv) (env : Env) (hf : NoFaults env) (cap : Nat) (bs : List MessageBlock) (s : Saver) (h : runSaver env bs = some s)
    (hm' : env.marshallers < 2 ^ 64) (cs : List DChoice) (d : Disk) (hr : runDisk me env cap bs cs = some d) (t : Int) (u : String) (id : SockID) (rest : List Action)
    (hrem : d.proc.m.rem = .flowCreated t u id :: rest) :
    ∃ w hd rest', rest = .openFile w ⟨env.date t, u, 0⟩ hd :: rest' ∧ d.writers w = none
      ∧ ∀ d', d.step me env cap (.proc .saver) = some d' → d'.writers w = none := by
  have hm : 0 < env.marshallers := hf.marshallers
  obtain ⟨done, hsp, hpl, -⟩ := done_rem h hm hm' hr
  have hst : Started env d.proc.loop.svr.trace := by
    obtain ⟨seen, ⟨l, h1, h2⟩ | h1⟩ := loop_cases h hm hm' hr
    · rw [h2]; exact started_blocks hf seen l h1
    · exact started_run hf seen _ h1
  obtain ⟨w, hd, rest', e⟩ := started_program hst (by rw [hpl, hrem])
  have hnone : d.writers w = none := by
    cases hw : d.writers w with
    | none => rfl
    | some z =>
      exfalso
      rcases (dinv_run h hm hm' hr).known done hsp w (by rw [hw]; simp) with ⟨n, hd', hx⟩ | ⟨-, n, hd', rem, hx⟩
      · have h0 := (program_ok env bs s h hm hm').first (done ++ [Action.flowCreated t u id]) (rest' ++ newActions d.proc.loop.svr s) w ⟨env.date t, u, 0⟩ hd
          (by rw [hsp, hrem, e]; simp) me
        have : FileOp.data (me.json hd') ∈ (done ++ [Action.flowCreated t u id]).flatMap (actOps me w) :=
          List.mem_flatMap.2 ⟨_, List.mem_append_left _ hx, by simp [actOps]⟩
        rw [h0] at this
        simp at this
      · rw [hrem] at hx; simp at hx
  exact ⟨w, hd, rest', e, hnone, fun d' hs => by rw [event_step (by simp) hrem hs]; exact hnone⟩

/-- C116 violated, in general. Under every schedule, when the saver announces the end of a connection, its open file (created, and the task to close it not queued) is not complete, neither
before nor after the event is sent: its pipe is open and the compressor has not finished. -/
theorem C116_violated_end (me : MEnv) (env : Env) (cap : Nat) (bs : List MessageBlock) (s : Saver) (h : runSaver env bs = some s) (hm : 0 < env.marshallers)
    (hm' : env.marshallers < 2 ^ 64) (cs : List DChoice) (d : Disk) (hr : runDisk me env cap bs cs = some d) (t : Int) (u : String) (a rest : List Action)
    (hrem : d.proc.m.rem = .flowDeleted t u :: rest) (ha : program d.proc.loop.svr = a ++ .flowDeleted t u :: rest)
    (w : Nat) (n : FileName) (hd : ArchivalRecord) (ho : .openFile w n hd ∈ a) (hn : n.uuid = u) (hc : ∀ q, .send q ⟨none, some w⟩ ∉ a) :
    ∃ z, d.writers w = some z ∧ z.wOpen = true ∧ z.disk = none ∧ ∀ d', d.step me env cap (.proc .saver) = some d' → d'.writers w = some z := by
  obtain ⟨done, hsp, hpl, -⟩ := done_rem h hm hm' hr
  have hda : done = a := by
    rw [hpl, hrem] at ha
    exact List.append_cancel_right ha
  subst hda
  have hst : EndsClose d.proc.loop.svr := by
    obtain ⟨seen, ⟨l, h1, h2⟩ | h1⟩ := loop_cases h hm hm' hr
    · rw [h2]; exact endsClose_steps (steps_run env seen l h1)
    · exact endsClose_run h1
  obtain ⟨q, c, e⟩ := hst done t u rest ha w n hd ho hn hc
  cases hw : d.writers w with
  | none => exact absurd hw ((dinv_run h hm hm' hr).opened done hsp w n hd ho)
  | some z =>
    obtain ⟨h1, h2⟩ := not_closed h hm hm' hr (q := q) (by rw [hrem, e]; simp) hw
    exact ⟨z, rfl, h1, h2, fun d' hs => by rw [event_step (by simp) hrem hs]; exact hw⟩

/-- C116, how long this lasts. Under every schedule: until the saver has queued the task to close a file, the file is not complete, whatever else goes on. -/
theorem C116_not_before (me : MEnv) (env : Env) (cap : Nat) (bs : List MessageBlock) (s : Saver) (h : runSaver env bs = some s) (hm : 0 < env.marshallers)
    (hm' : env.marshallers < 2 ^ 64) (cs : List DChoice) (d : Disk) (hr : runDisk me env cap bs cs = some d) (q w : Nat)
    (hq : .send q ⟨none, some w⟩ ∈ d.proc.m.rem) (z : Zstd.ZState) (hw : d.writers w = some z) : z.wOpen = true ∧ z.disk = none :=
  not_closed h hm hm' hr hq hw

/-! ## Concrete runs -/

/-- C116: the order of the actions for two connections. -/
example : (runSaver exEnv exBlocks).map (fun s => (program s).map (fun a => match a with
      | .flowCreated _ u _ => (1, u) | .openFile _ n _ => (2, n.uuid) | .send _ ⟨some _, _⟩ => (3, "") | .flowDeleted _ u => (4, u) | .send _ ⟨none, _⟩ => (5, "") | _ => (0, "")))
    = some [(1, exEnv.uuid 1), (2, exEnv.uuid 1), (3, ""), (1, exEnv.uuid 2), (2, exEnv.uuid 2), (3, ""), (0, ""), (0, ""), (3, ""), (0, ""), (0, ""), (4, exEnv.uuid 2), (5, ""), (0, ""), (0, ""),
      (4, exEnv.uuid 1), (5, ""), (0, "")] := by decide +kernel

/-- The event that the saver sends next after `k` rounds of all goroutines and processes in turn, and for each file whether its pipe is open and what is complete. -/
def exEvent (k : Nat) : Option (Option (Bool × String) × List (List Bool)) :=
  (runDisk exMEnv exEnv 4 exBlocks (diskSkip exMEnv exEnv 4 (diskTurns k (fun _ => [.finish])) (diskInit exBlocks 3)).1).map (fun d =>
    (match d.proc.m.rem with | .flowCreated _ u _ :: _ => some (true, u) | .flowDeleted _ u :: _ => some (false, u) | _ => none,
      [0, 1].map (fun w => ((d.writers w).map (fun z => [z.wOpen, z.disk.isSome])).getD [])))

set_option synthInstance.maxSize 1000 in
/-- `C116_violated_start`, `C116_violated_end`: the second connection is announced, its file is not there; its end is announced, its file is not complete; after the events the same. -/
example : exEvent 10 = some (some (true, exEnv.uuid 2), [[true, false], []]) ∧ exEvent 11 = some (none, [[true, false], []])
    ∧ exEvent 26 = some (some (false, exEnv.uuid 2), [[true, false], [true, false]]) ∧ exEvent 27 = some (none, [[true, false], [true, false]])
    ∧ exEvent 60 = some (none, [[false, true], [false, true]]) := by decide +kernel

end TcpInfo
