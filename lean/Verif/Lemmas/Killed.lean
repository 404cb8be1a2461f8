import Verif.Model.Killed
import Verif.Props.Disk
/-!
# The command is killed: what its writers have accepted
-/

namespace TcpInfo.Zstd
open TcpInfo

/-! ## One writer -/

theorem beforeClose_prefix {a b : List Op} (h : a <+: b) : beforeClose a <+: beforeClose b := by
  obtain ⟨t, rfl⟩ := h
  induction a with
  | nil => exact List.nil_prefix
  | cons o a ih =>
    cases o with
    | close => exact List.prefix_refl _
    | write b => simp only [List.cons_append, beforeClose]; exact (List.prefix_append_right_inj b).2 ih

theorem beforeClose_append {a b : List Op} (h : .close ∉ a) : beforeClose (a ++ b) = beforeClose a ++ beforeClose b := by
  induction a with
  | nil => rfl
  | cons o a ih =>
    cases o with
    | close => simp at h
    | write b => simp only [List.cons_append, beforeClose, List.append_assoc]; rw [ih (fun x => h (List.mem_cons_of_mem _ x))]

/-- A step only adds results; the rest of a `Write` is no longer than what was passed to it; the pipe never holds more than its capacity. -/
structure Fits (cap : Nat) (s : ZState) : Prop where
  rest : ∀ a r, s.pc = .writing a r → r.length ≤ a.length
  pipe : s.pipe.length ≤ cap
  unread : s.child = .notStarted → s.consumed = []

theorem rets_step {cap : Nat} {s s' : ZState} {c : Choice} (h : s.step cap c = some s') : s.rets.length ≤ s'.rets.length := by
  obtain ⟨ops, pc, wO, rO, fO, pipe, child, gpc, wg, acc, con, disk, rets⟩ := s
  cases c with
  | user k =>
    simp only [ZState.step, ZState.userStep] at h
    cases pc with
    | out =>
      cases ops with
      | nil => simp at h
      | cons o ops => cases o <;> cases wO <;> simp at h <;> subst h <;> simp
    | writing all rest =>
      simp only at h
      repeat' (split at h)
      all_goals first | (simp at h; done) | (simp only [Option.some.injEq] at h; subst h; simp)
    | waiting => cases wg <;> simp at h; subst h; simp
  | gor st =>
    simp only [ZState.step, ZState.gorStep] at h
    cases gpc <;> simp only at h
    · cases child <;> simp at h <;> subst h <;> simp
    · simp only [Option.some.injEq] at h; subst h; simp
    · simp only [Option.some.injEq] at h; subst h; simp
    · simp at h
  | read k =>
    simp only [ZState.step] at h
    split at h
    · simp only [Option.some.injEq] at h; subst h; simp
    · simp at h
  | finish =>
    simp only [ZState.step] at h
    split at h
    · simp only [Option.some.injEq] at h; subst h; simp
    · simp at h
  | crash =>
    simp only [ZState.step] at h
    split at h
    · simp only [Option.some.injEq] at h; subst h; simp
    · simp at h

theorem fits_step {cap : Nat} {s s' : ZState} {c : Choice} (hi : Fits cap s) (h : s.step cap c = some s') : Fits cap s' := by
  obtain ⟨ops, pc, wO, rO, fO, pipe, child, gpc, wg, acc, con, disk, rets⟩ := s
  obtain ⟨h1, h2, h3⟩ := hi
  simp only at h1 h2 h3
  cases c with
  | user k =>
    simp only [ZState.step, ZState.userStep] at h
    cases pc with
    | out =>
      cases ops with
      | nil => simp at h
      | cons o ops => cases o <;> cases wO <;> simp at h <;> subst h <;> constructor <;> simp_all
    | writing all rest =>
      have h1 := h1 all rest rfl
      simp only at h
      split at h
      · simp only [Option.some.injEq] at h; subst h; constructor <;> simp_all
      · split at h
        · simp only [Option.some.injEq] at h; subst h; constructor <;> simp_all
        · split at h
          · rename_i hk
            simp only [Option.some.injEq] at h; subst h
            refine ⟨?_, ?_, h3⟩
            · intro a r e
              simp only [UPC.writing.injEq] at e
              rw [← e.1, ← e.2, List.length_drop]; omega
            · simp only [List.length_append, List.length_take]; omega
          · simp at h
    | waiting => cases wg <;> simp at h; subst h; constructor <;> simp_all
  | gor st =>
    simp only [ZState.step, ZState.gorStep] at h
    cases gpc <;> simp only at h
    · cases child <;> simp at h <;> subst h
      · exact ⟨h1, h2, by cases st <;> simp⟩
      · exact ⟨h1, h2, by simp⟩
    · simp only [Option.some.injEq] at h; subst h; exact ⟨h1, h2, h3⟩
    · simp only [Option.some.injEq] at h; subst h; exact ⟨h1, h2, h3⟩
    · simp at h
  | read k =>
    simp only [ZState.step] at h
    split at h
    · rename_i hk
      simp only [Option.some.injEq] at h; subst h
      exact ⟨h1, by simp only [List.length_drop]; omega, by simp [hk.1]⟩
    · simp at h
  | finish =>
    simp only [ZState.step] at h
    split at h
    · simp only [Option.some.injEq] at h; subst h; exact ⟨h1, h2, by simp⟩
    · simp at h
  | crash =>
    simp only [ZState.step] at h
    split at h
    · simp only [Option.some.injEq] at h; subst h; exact ⟨h1, h2, by simp⟩
    · simp at h

theorem fits_reachable {cap : Nat} {ops : List Op} {s : ZState} (h : Reachable cap ops s) : Fits cap s := by
  obtain ⟨s0, cs, h0, h1⟩ := h
  have hi : Fits cap s0 := by
    simp only [newWriter, Bool.not_true, Bool.false_eq_true, if_false, NewResult.ok.injEq] at h0
    subst h0
    constructor <;> simp
  clear h0
  induction cs generalizing s0 with
  | nil => simp only [ZState.exec, Option.some.injEq] at h1; exact h1 ▸ hi
  | cons c cs ih =>
    simp only [ZState.exec] at h1
    obtain ⟨s1, h2, h3⟩ := Option.bind_eq_some_iff.1 h1
    exact ih s1 h3 (fits_step hi h2)

/-- Unless the compressor has failed, everything passed to calls of `Write` that have returned is in the pipe or read. -/
theorem accepted_rets {cap : Nat} {ops : List Op} {s : ZState} (h : Reachable cap ops s) (hc : s.child ≠ .exited false) :
    beforeClose (s.rets.map Ret.op) <+: s.accepted ∧ s.accepted <+: beforeClose ops := by
  have hi := inv_reachable h
  have hm := made_reachable h
  have hf := fits_reachable h
  rcases hi.flow with hfl | ⟨-, hx, -⟩
  · refine ⟨?_, by rw [← hfl, List.append_assoc]; exact List.prefix_append _ _⟩
    have hpre : s.rets.map Ret.op <+: ops := by
      rw [← hm.all]; unfold ZState.made; rw [List.append_assoc]; exact List.prefix_append _ _
    have hb := beforeClose_prefix hpre
    cases hw : s.wOpen with
    | false =>
      have hcur : s.cur = [] := by
        unfold ZState.cur
        split
        · rename_i a r e
          have := hi.writing _ _ e
          rw [hw] at this; simp at this
        · rfl
      rw [hw, hcur] at hfl
      simp only [Bool.false_eq_true, if_false, List.append_nil] at hfl
      rw [hfl]; exact hb
    | true =>
      have hno := hm.once.1 hw
      rw [hw, if_pos rfl] at hfl
      refine List.prefix_of_prefix_length_le hb (by rw [← hfl, List.append_assoc]; exact List.prefix_append _ _) ?_
      have hall : beforeClose ops = beforeClose s.made ++ beforeClose s.ops := by rw [← hm.all, beforeClose_append hno]
      rw [hall] at hfl
      have hfl := List.append_cancel_right hfl
      have hl := congrArg List.length hfl
      rw [List.length_append] at hl
      unfold ZState.made at hl hno
      rw [beforeClose_append (fun x => hno (List.mem_append_left _ x)), List.length_append] at hl
      unfold ZState.cur at hl
      cases hp : s.pc with
      | out => rw [hp] at hl; simp [beforeClose] at hl; simp; omega
      | waiting => rw [hp] at hl; simp [beforeClose] at hl; simp; omega
      | writing a r =>
        have := hf.rest a r hp
        rw [hp] at hl
        simp only [beforeClose, List.append_nil] at hl
        omega
  · exact absurd hx hc

/-! ## After the kill -/

/-- What remains of a writer. -/
structure OInv (acc : Bytes) (s : ZState) : Prop where
  all : s.consumed ++ s.pipe = acc
  wOpen : s.wOpen = false
  user : s.ops = [] ∧ s.pc = .out
  gpc : s.gpc = .finished
  ok : s.child = .exited true → s.pipe = [] ∧ s.disk = some s.consumed
  none : ∀ b, s.disk = some b → s.child = .exited true

theorem oinv_start {cap : Nat} {ops : List Op} {s : ZState} (h : Reachable cap ops s) : OInv s.accepted s.orphan := by
  have hi := inv_reachable h
  exact ⟨hi.pipe, rfl, ⟨rfl, rfl⟩, rfl, fun hc => ⟨(hi.ok hc).1, (hi.ok hc).2.2⟩, hi.disk⟩

theorem oinv_step {cap : Nat} {acc : Bytes} {s s' : ZState} {c : Choice} (hi : OInv acc s) (h : s.step cap c = some s') :
    OInv acc s' ∧ s.child = .running ∧ s'.child ≠ .notStarted := by
  obtain ⟨h1, h2, ⟨h3, h4⟩, h5, h6, h7⟩ := hi
  cases c with
  | user k => simp [ZState.step, ZState.userStep, h3, h4] at h
  | gor st => simp [ZState.step, ZState.gorStep, h5] at h
  | read k =>
    simp only [ZState.step] at h
    split at h
    · rename_i hk
      simp only [Option.some.injEq] at h; subst h
      refine ⟨⟨?_, h2, ⟨h3, h4⟩, h5, by simp [hk.1], h7⟩, hk.1, by simp [hk.1]⟩
      simp only [List.append_assoc, List.take_append_drop]; exact h1
    · simp at h
  | finish =>
    simp only [ZState.step] at h
    split at h
    · rename_i hk
      simp only [Option.some.injEq] at h; subst h
      exact ⟨⟨h1, h2, ⟨h3, h4⟩, h5, fun _ => ⟨hk.2.1, rfl⟩, fun _ _ => rfl⟩, hk.1, by simp⟩
    · simp at h
  | crash =>
    simp only [ZState.step] at h
    split at h
    · rename_i hk
      simp only [Option.some.injEq] at h; subst h
      refine ⟨⟨h1, h2, ⟨h3, h4⟩, h5, by simp, ?_⟩, hk, by simp⟩
      intro b hb
      have := h7 b hb
      rw [hk] at this; simp at this
    · simp at h

theorem oinv_exec {cap : Nat} {acc : Bytes} (cs : List Choice) {s s' : ZState} (hi : OInv acc s) (h : s.exec cap cs = some s') : OInv acc s' := by
  induction cs generalizing s with
  | nil => simp only [ZState.exec, Option.some.injEq] at h; exact h ▸ hi
  | cons c cs ih =>
    simp only [ZState.exec] at h
    obtain ⟨s1, h1, h2⟩ := Option.bind_eq_some_iff.1 h
    exact ih (oinv_step hi h1).1 h2

end TcpInfo.Zstd

namespace TcpInfo
open Spec

/-! ## All writers -/

/-- The calls the command has got behind it have returned. -/
def Returned (d : Disk) : Prop := ∀ w z, d.writers w = some z → (d.proc.m.files w).length ≤ z.rets.length

theorem free_rets {cap : Nat} {ops : List Zstd.Op} {z : Zstd.ZState} (h : Zstd.Reachable cap ops z) (hf : z.free = true) : z.rets.length = ops.length := by
  have hm := (Zstd.made_reachable h).all
  obtain ⟨h1, h2⟩ := Zstd.free_iff.1 hf
  have := congrArg List.length hm
  simpa [Zstd.ZState.made, h1, h2] using this

theorem zCalls_length (l : List FileOp) : (zCalls l).length = l.length := by simp [zCalls]

theorem returned_step {me : MEnv} {env : Env} {cap : Nat} {bs : List MessageBlock} {s : Saver} (h : runSaver env bs = some s) (hm : 0 < env.marshallers)
    (hm' : env.marshallers < 2 ^ 64) {cs : List DChoice} {d d' : Disk} (hi : DInv me env cap bs s cs d) (ht : Returned d) (c : DChoice)
    (hs : d.step me env cap c = some d') : Returned d' := by
  have hi' := dinv_step h hm hm' hi c hs
  obtain ⟨ps, hps, -⟩ := hi.proc
  obtain ⟨ps', hps', -⟩ := hi'.proc
  have hcr' := (C73_returns me env bs s h hm hm' ps' d'.proc hps').2.1
  -- the writer has all its calls behind it
  have quiet : ∀ w z, d'.writers w = some z → z.free = true → (d'.proc.m.files w).length ≤ z.rets.length := by
    intro w z hz hf
    rw [free_rets (hi'.zs w z hz).1.reachable hf, List.length_append, zCalls_length]
    omega
  unfold Disk.step at hs
  split at hs
  · simp at hs
  rename_i hlive
  have hcr : d.proc.m.crashed = false := by
    cases hc : d.proc.m.crashed with
    | false => rfl
    | true => exact absurd (Or.inl hc) hlive
  obtain ⟨done, hinv⟩ := proc_minv h hm hm' (runProc_inv hps) hcr
  cases c with
  | zstd w c =>
    simp only at hs
    obtain ⟨z, hz, hs⟩ := Option.bind_eq_some_iff.1 hs
    obtain ⟨z', hz', rfl⟩ := Option.map_eq_some_iff.1 hs
    intro w1 z1 hz1
    simp only [Disk.setWriter] at hz1 ⊢
    by_cases e : w1 = w
    · rw [if_pos e] at hz1
      injection hz1 with hz1
      subst hz1
      rw [e]
      exact Nat.le_trans (ht w z hz) (Zstd.rets_step hz')
    · rw [if_neg e] at hz1; exact ht w1 z1 hz1
  | proc pc =>
    cases pc with
    | main =>
      simp only at hs
      obtain ⟨p', hst, rfl⟩ := Option.map_eq_some_iff.1 hs
      intro w z hz
      simp only at hz ⊢
      rw [(step_main hst).1]
      exact ht w z hz
    | saver =>
      simp only [Disk.saverStep] at hs
      split at hs
      · rename_i w n hd rem hrem
        split at hs
        · split at hs
          · simp at hs
          · rename_i z hz
            split at hs
            · rename_i hf
              obtain ⟨p', hst, rfl⟩ := Option.map_eq_some_iff.1 hs
              intro w1 z1 hz1
              by_cases e : w1 = w
              · subst e
                simp only at hz1
                rw [hz] at hz1
                injection hz1 with hz1
                subst hz1
                exact quiet w1 z hz hf
              · have := ht w1 z1 hz1
                simp only
                rw [step_open hrem hst]
                simpa [MState.op, e] using this
            · simp at hs
        · split at hs
          · simp at hs
          · rename_i z hz
            simp only [Option.some.injEq] at hs
            subst hs
            intro w1 z1 hz1
            simp only [Disk.setWriter] at hz1 ⊢
            by_cases e : w1 = w
            · subst e
              rw [(open_fresh (program_ok env bs s h hm hm') hinv hrem).2.1]
              simp
            · rw [if_neg e] at hz1; exact ht w1 z1 hz1
      · rename_i hno
        obtain ⟨p', hst, rfl⟩ := Option.map_eq_some_iff.1 hs
        intro w z hz
        simp only at hz ⊢
        rw [(step_saver (fun w n hd rem e => hno w n hd rem e) hst hcr').1]
        exact ht w z hz
    | worker i =>
      simp only [Disk.workerStep] at hs
      split at hs
      · rename_i hno
        obtain ⟨p', hst, rfl⟩ := Option.map_eq_some_iff.1 hs
        intro w z hz
        simp only at hz ⊢
        rw [(step_worker hst hcr').2.2.2.2 hno]
        exact ht w z hz
      · rename_i w op hcall
        split at hs
        · simp at hs
        · rename_i z hz
          split at hs
          · split at hs
            · rename_i hf
              obtain ⟨p', hst, rfl⟩ := Option.map_eq_some_iff.1 hs
              intro w1 z1 hz1
              by_cases e : w1 = w
              · subst e
                simp only at hz1
                rw [hz] at hz1
                injection hz1 with hz1
                subst hz1
                exact quiet w1 z hz hf
              · have := ht w1 z1 hz1
                simp only
                rw [(step_worker hst hcr').2.2.2.1 w op hcall]
                simpa [MState.op, e] using this
            · simp at hs
          · simp only [Option.some.injEq] at hs
            subst hs
            intro w1 z1 hz1
            simp only [Disk.setWriter] at hz1 ⊢
            by_cases e : w1 = w
            · rw [if_pos e] at hz1
              injection hz1 with hz1
              subst hz1
              rw [e]; exact ht w z hz
            · rw [if_neg e] at hz1; exact ht w1 z1 hz1

theorem returned_run {me : MEnv} {env : Env} {cap : Nat} {bs : List MessageBlock} {s : Saver} (h : runSaver env bs = some s) (hm : 0 < env.marshallers)
    (hm' : env.marshallers < 2 ^ 64) {cs : List DChoice} {d : Disk} (hr : runDisk me env cap bs cs = some d) : Returned d := by
  have key : ∀ (cs cs0 : List DChoice) (d0 d : Disk), DInv me env cap bs s cs0 d0 → Returned d0 → Disk.exec me env cap cs d0 = some d → Returned d := by
    intro cs
    induction cs with
    | nil => intro cs0 d0 d hi ht hx; simp only [Disk.exec, Option.some.injEq] at hx; rw [← hx]; exact ht
    | cons c cs ih =>
      intro cs0 d0 d hi ht hx
      simp only [Disk.exec] at hx
      obtain ⟨d1, h1, h2⟩ := Option.bind_eq_some_iff.1 hx
      exact ih (cs0 ++ [c]) d1 d (dinv_step h hm hm' hi c h1) (returned_step h hm hm' hi ht c h1) h2
  exact key cs [] _ d (dinv_init me env cap bs s h) (by simp [Returned, diskInit]) hr

/-- What the compressor is given: at least the contents of all calls that the command has got behind it, at most what the complete run writes. -/
theorem killed_accepted {me : MEnv} {env : Env} {cap : Nat} {bs : List MessageBlock} {s : Saver} (h : runSaver env bs = some s) (hm : 0 < env.marshallers)
    (hm' : env.marshallers < 2 ^ 64) {cs : List DChoice} {d : Disk} (hr : runDisk me env cap bs cs = some d) {w : Nat} {z : Zstd.ZState}
    (hz : d.writers w = some z) (hc : z.child ≠ .exited false) :
    ∃ n hd, ∃ ws : List ArchivalRecord, ∃ q, fileEvents w s.trace = .opened n hd :: ws.map (.wrote q) ++ [.closed q]
      ∧ contents (d.proc.m.files w) <+: z.accepted ∧ z.accepted <+: fileText me.json me.anon.f hd ws := by
  have hi := dinv_run h hm hm' hr
  have hlen := returned_run h hm hm' hr w z hz
  have hre := (hi.zs w z hz).1.reachable
  obtain ⟨ha, hb⟩ := Zstd.accepted_rets hre hc
  have hp := hist_prefix h hm hm' hi w
  have hb := hb.trans (Zstd.beforeClose_prefix hp)
  have hmd := (Zstd.made_reachable hre).all
  obtain ⟨ps, hps, -⟩ := hi.proc
  have hcr := (C73_returns me env bs s h hm hm' ps d.proc hps).2.1
  obtain ⟨done, hinv⟩ := proc_minv h hm hm' (runProc_inv hps) hcr
  have hfp : d.proc.m.files w <+: (program s).flatMap (actOps me w) := files_prefix hinv w
  have hsp : program s = done ++ (d.proc.m.rem ++ newActions d.proc.loop.svr s) := hinv.split
  have hop : ∃ n hd, Action.openFile w n hd ∈ program s := by
    rcases hi.known done hsp w (by rw [hz]; simp) with ⟨n, hd, hmem⟩ | ⟨-, n, hd, rem, hrem⟩
    · exact ⟨n, hd, by rw [hsp]; exact List.mem_append_left _ hmem⟩
    · exact ⟨n, hd, by rw [hsp, hrem]; simp⟩
  rcases C38_closed_once env bs s h w with he | ⟨n, hd, ws, q, he⟩
  · obtain ⟨n, hd, hmem⟩ := hop
    have : (FileOp.data (me.json hd)) ∈ (program s).flatMap (actOps me w) := List.mem_flatMap.2 ⟨_, hmem, by simp [actOps]⟩
    rw [program, program_ops, he] at this; simp at this
  · refine ⟨n, hd, ws, q, he, ?_, ?_⟩
    · have h1 : zCalls (d.proc.m.files w) <+: z.rets.map Zstd.Ret.op := by
        refine List.prefix_of_prefix_length_le (l₃ := zCalls (d.proc.m.files w) ++ (d.curSaver me w ++ d.curWorker (homeOf s w) w)) (List.prefix_append _ _) ?_ ?_
        · rw [← hmd]; unfold Zstd.ZState.made; rw [List.append_assoc]; exact List.prefix_append _ _
        · rw [zCalls_length, List.length_map]; exact hlen
      have h2 := (Zstd.beforeClose_prefix h1).trans ha
      refine List.IsPrefix.trans ?_ h2
      rcases file_ops me env bs s h w with hnil | ⟨ops, ho, hno⟩
      · rw [hnil] at hfp
        rw [List.prefix_nil.1 hfp]; exact List.nil_prefix
      · rw [ho] at hfp
        have gen : ∀ (f ops : List FileOp), f <+: ops ++ [.close] → .close ∉ ops → contents f <+: Zstd.beforeClose (zCalls f) := by
          intro f
          induction f with
          | nil => intros; exact List.nil_prefix
          | cons o f ih =>
            intro ops hpf hn
            cases ops with
            | nil =>
              simp only [List.nil_append] at hpf
              obtain ⟨t, ht⟩ := hpf
              simp only [List.cons_append, List.cons.injEq, List.append_eq_nil_iff] at ht
              rw [ht.1, ht.2.1]
              exact List.nil_prefix
            | cons o' ops =>
              simp only [List.cons_append, List.cons_prefix_cons] at hpf
              obtain ⟨rfl, hpf⟩ := hpf
              have := ih ops hpf (fun x => hn (List.mem_cons_of_mem _ x))
              cases o with
              | close => simp at hn
              | data b =>
                unfold zCalls contents at this ⊢
                simp only [List.map_cons, Zstd.beforeClose, List.flatMap_cons]
                exact (List.prefix_append_right_inj b).2 this
        exact gen _ ops hfp hno
    · rcases file_ops me env bs s h w with hnil | ⟨ops, ho, hno⟩
      · rw [hnil] at hb
        rw [List.prefix_nil.1 hb]; exact List.nil_prefix
      · rw [ho, beforeClose_calls ops hno, ← ho, program, program_ops, he, contents_events] at hb
        exact hb

end TcpInfo
