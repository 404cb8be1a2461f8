import Verif.Model.FileSystem
import Verif.Props.Disk
/-!
# Files by their paths: projections and invariants
-/

namespace TcpInfo
open Spec

theorem writeAt_end (c b : Bytes) : writeAt c c.length b = c ++ b := by
  unfold writeAt
  simp

/-- What a step of the command and its compressors does to the writers. -/
theorem disk_writers {me : MEnv} {env : Env} {cap : Nat} {d d' : Disk} {c : DChoice} (h : d.step me env cap c = some d') :
    (∃ w n hd rem z, d.creates c = some (w, n.path) ∧ d.saverIn = false ∧ d.proc.m.rem = .openFile w n hd :: rem ∧ d'.writers = (d.setWriter w z).writers
        ∧ z.disk = none ∧ z.child = .notStarted)
    ∨ (d.creates c = none ∧ ∀ w, (d'.writers w = none ↔ d.writers w = none) ∧ ∀ z', d'.writers w = some z' → ∃ z, d.writers w = some z
        ∧ ((z'.disk = z.disk ∧ z'.child = z.child) ∨ ∃ c0, c = .zstd w c0 ∧ z.step cap c0 = some z')) := by
  have same : ∀ d' : Disk, d'.writers = d.writers → ∀ w, (d'.writers w = none ↔ d.writers w = none) ∧ ∀ z', d'.writers w = some z' → ∃ z, d.writers w = some z
      ∧ ((z'.disk = z.disk ∧ z'.child = z.child) ∨ ∃ c0, c = .zstd w c0 ∧ z.step cap c0 = some z') := by
    intro d' e w
    rw [e]
    exact ⟨Iff.rfl, fun z' hz => ⟨z', hz, Or.inl ⟨rfl, rfl⟩⟩⟩
  unfold Disk.step at h
  split at h
  · simp at h
  cases c with
  | zstd w c0 =>
    right
    refine ⟨rfl, ?_⟩
    obtain ⟨z, h3, h4⟩ := Option.bind_eq_some_iff.1 h
    obtain ⟨z', h5, h6⟩ := Option.map_eq_some_iff.1 h4
    subst h6
    intro v
    simp only [Disk.setWriter]
    by_cases e : v = w
    · subst e
      simp only [if_true, h3]
      refine ⟨by simp, fun z2 h2 => ?_⟩
      injection h2 with h2; subst h2
      exact ⟨z, rfl, Or.inr ⟨c0, rfl, h5⟩⟩
    · simp only [if_neg e]
      exact ⟨by simp, fun z2 h2 => ⟨z2, h2, Or.inl ⟨rfl, rfl⟩⟩⟩
  | proc c =>
    cases c with
    | main =>
      right
      obtain ⟨p, h3, h4⟩ := Option.map_eq_some_iff.1 h
      subst h4
      exact ⟨rfl, same _ rfl⟩
    | saver =>
      simp only [Disk.saverStep] at h
      split at h
      · rename_i w n hd rem hrem
        split at h
        · rename_i hin
          right
          refine ⟨by simp [Disk.creates, hin], ?_⟩
          split at h
          · simp at h
          · split at h
            · obtain ⟨p, h3, h4⟩ := Option.map_eq_some_iff.1 h
              subst h4
              exact same _ rfl
            · simp at h
        · rename_i hin
          left
          split at h
          · simp at h
          · rename_i z hz
            simp only [Option.some.injEq] at h
            subst h
            simp only [Zstd.newWriter, Bool.not_true, Bool.false_eq_true, if_false, Zstd.NewResult.ok.injEq] at hz
            refine ⟨w, n, hd, rem, z, ?_, by simpa using hin, hrem, rfl, by rw [← hz], by rw [← hz]⟩
            simp [Disk.creates, hrem, hin]
      · rename_i hrem
        right
        obtain ⟨p, h3, h4⟩ := Option.map_eq_some_iff.1 h
        subst h4
        refine ⟨?_, same _ rfl⟩
        unfold Disk.creates
        split
        · rename_i w n hd rem _ e _
          exact absurd e (hrem w n hd rem)
        · rfl
    | worker i =>
      right
      refine ⟨rfl, ?_⟩
      simp only [Disk.workerStep] at h
      split at h
      · obtain ⟨p, h3, h4⟩ := Option.map_eq_some_iff.1 h
        subst h4
        exact same _ rfl
      · rename_i w op hcall
        split at h
        · simp at h
        · rename_i z hz
          split at h
          · split at h
            · obtain ⟨p, h3, h4⟩ := Option.map_eq_some_iff.1 h
              subst h4
              exact same _ rfl
            · simp at h
          · simp only [Option.some.injEq] at h
            subst h
            intro v
            simp only [Disk.setWriter]
            by_cases e : v = w
            · subst e
              simp only [if_true, hz]
              refine ⟨by simp, fun z2 h2 => ?_⟩
              injection h2 with h2; subst h2
              exact ⟨z, rfl, Or.inl ⟨rfl, rfl⟩⟩
            · simp only [if_neg e]
              exact ⟨by simp, fun z2 h2 => ⟨z2, h2, Or.inl ⟨rfl, rfl⟩⟩⟩

/-- The two kinds of steps of the whole. -/
theorem tree_step {me : MEnv} {env : Env} {cap : Nat} {unz : Bytes → Option Bytes} {t t' : Tree} {c : TChoice} (h : t.step me env cap unz c = some t') :
    (∃ c0, c = .disk c0 ∧ t.mayStep unz c0 = true ∧ t.disk.step me env cap c0 = some t'.disk
      ∧ ((t.disk.creates c0 = none ∧ t'.files = t.files ∧ t'.path = t.path ∧ t'.out = t.out)
        ∨ ∃ w p, t.disk.creates c0 = some (w, p) ∧ t'.files = t.files.put p [] ∧ t'.path = (fun v => if v = w then some p else t.path v)
          ∧ t'.out = (fun v => if v = w then [] else t.out v)))
    ∨ ∃ w b z p, c = .output w b ∧ t'.disk = t.disk ∧ t.disk.writers w = some z ∧ t.path w = some p ∧ z.child = .running ∧ t'.path = t.path
      ∧ t'.files = t.files.put p (writeAt ((t.files p).getD []) (t.out w).length b) ∧ t'.out = (fun v => if v = w then t.out w ++ b else t.out v) := by
  cases c with
  | disk c0 =>
    left
    simp only [Tree.step] at h
    split at h
    · rename_i hm
      obtain ⟨d, h1, h2⟩ := Option.map_eq_some_iff.1 h
      subst h2
      cases hc : t.disk.creates c0 with
      | none => exact ⟨c0, rfl, hm, h1, Or.inl ⟨hc, rfl, rfl, rfl⟩⟩
      | some wp => exact ⟨c0, rfl, hm, h1, Or.inr ⟨wp.1, wp.2, hc, rfl, rfl, rfl⟩⟩
    · simp at h
  | output w b =>
    right
    simp only [Tree.step] at h
    split at h
    · simp at h
    · split at h
      · rename_i z p hz hp
        split at h
        · rename_i hr
          simp only [Option.some.injEq] at h
          subst h
          exact ⟨w, b, z, p, rfl, rfl, hz, hp, hr, rfl, rfl, rfl⟩
        · simp at h
      · simp at h

theorem tree_exec_append (me : MEnv) (env : Env) (cap : Nat) (unz : Bytes → Option Bytes) (cs cs' : List TChoice) (t : Tree) :
    Tree.exec me env cap unz (cs ++ cs') t = (Tree.exec me env cap unz cs t).bind (Tree.exec me env cap unz cs') := by
  induction cs generalizing t with
  | nil => rfl
  | cons c cs ih =>
    simp only [List.cons_append, Tree.exec]
    cases t.step me env cap unz c with
    | none => rfl
    | some t' => exact ih t'

/-- The steps of the command and its compressors. -/
def diskPart (cs : List TChoice) : List DChoice := cs.filterMap (fun c => match c with | .disk c => some c | _ => none)

theorem tree_disk_exec {me : MEnv} {env : Env} {cap : Nat} {unz : Bytes → Option Bytes} (cs : List TChoice) {t t' : Tree} (h : Tree.exec me env cap unz cs t = some t') :
    Disk.exec me env cap (diskPart cs) t.disk = some t'.disk := by
  induction cs generalizing t with
  | nil => simp only [Tree.exec, Option.some.injEq] at h; subst h; rfl
  | cons c cs ih =>
    simp only [Tree.exec] at h
    obtain ⟨t1, h1, h2⟩ := Option.bind_eq_some_iff.1 h
    have h3 := ih h2
    rcases tree_step h1 with ⟨c0, rfl, -, hd, -⟩ | ⟨w, b, z, p, rfl, hd, -⟩
    · show Disk.exec me env cap (c0 :: diskPart cs) t.disk = _
      simp only [Disk.exec, hd, Option.bind_some]
      exact h3
    · rw [hd] at h3; exact h3

/-- Without the file system: an execution of `Model.Disk`. -/
theorem tree_disk {me : MEnv} {env : Env} {cap : Nat} {unz : Bytes → Option Bytes} {bs : List MessageBlock} {files : FileMap} {cs : List TChoice} {t : Tree}
    (h : runTree me env cap unz bs files cs = some t) : runDisk me env cap bs (diskPart cs) = some t.disk := tree_disk_exec cs h

/-- What holds in every state. -/
structure TInv (unz : Bytes → Option Bytes) (s : Saver) (files : FileMap) (t : Tree) : Prop where
  known : ∀ w, t.path w = none ↔ t.disk.writers w = none
  name : ∀ w p, t.path w = some p → ∃ n hd, .openFile w n hd ∈ program s ∧ p = n.path
  exited : ∀ w z x, t.disk.writers w = some z → z.disk = some x → z.child = .exited true ∧ unz (t.out w) = some x
  own : ∀ w p, t.path w = some p → (∀ v, t.path v = some p → v = w) → t.files p = some (t.out w)
  rest : ∀ p, (∀ w, t.path w ≠ some p) → t.files p = files p

theorem exited_step {cap : Nat} {z z' : Zstd.ZState} {c : Zstd.Choice} (h : z.step cap c = some z') :
    (z'.disk = z.disk ∧ (∀ b, z.child = .exited b → z'.child = .exited b)) ∨ (c = .finish ∧ z.child = .running ∧ z'.disk = some z.consumed ∧ z'.child = .exited true) := by
  obtain ⟨ops, pc, wO, rO, fO, pipe, child, gpc, wg, acc, con, disk, rets⟩ := z
  cases c with
  | user k =>
    left
    simp only [Zstd.ZState.step, Zstd.ZState.userStep, Zstd.ZState.hasReader] at h
    cases pc with
    | out =>
      cases ops with
      | nil => simp at h
      | cons o ops => cases o <;> cases wO <;> simp at h <;> subst h <;> exact ⟨rfl, fun _ h => h⟩
    | writing all rest =>
      simp only at h
      split at h
      · simp only [Option.some.injEq] at h; subst h; exact ⟨rfl, fun _ h => h⟩
      · split at h
        · simp only [Option.some.injEq] at h; subst h; exact ⟨rfl, fun _ h => h⟩
        · split at h
          · simp only [Option.some.injEq] at h; subst h; exact ⟨rfl, fun _ h => h⟩
          · simp at h
    | waiting => cases wg <;> simp at h; subst h; exact ⟨rfl, fun _ h => h⟩
  | gor st =>
    left
    simp only [Zstd.ZState.step, Zstd.ZState.gorStep] at h
    cases gpc <;> simp only at h
    · cases child <;> simp at h <;> subst h <;> simp
    · simp only [Option.some.injEq] at h; subst h; exact ⟨rfl, fun _ h => h⟩
    · simp only [Option.some.injEq] at h; subst h; exact ⟨rfl, fun _ h => h⟩
    · simp at h
  | read k =>
    left
    simp only [Zstd.ZState.step] at h
    split at h
    · simp only [Option.some.injEq] at h; subst h; exact ⟨rfl, fun _ h => h⟩
    · simp at h
  | finish =>
    right
    simp only [Zstd.ZState.step] at h
    split at h
    · rename_i hc; simp only [Option.some.injEq] at h; subst h; exact ⟨rfl, hc.1, rfl, rfl⟩
    · simp at h
  | crash =>
    left
    simp only [Zstd.ZState.step] at h
    split at h
    · rename_i hc
      simp only [Option.some.injEq] at h; subst h
      exact ⟨rfl, fun b hb => by simp only at hb; rw [hc] at hb; simp at hb⟩
    · simp at h

/-- A file that is created has a new number. -/
theorem creates_fresh {me : MEnv} {env : Env} {cap : Nat} {bs : List MessageBlock} {s : Saver} (h : runSaver env bs = some s) (hm : 0 < env.marshallers)
    (hm' : env.marshallers < 2 ^ 64) {cs : List DChoice} {d : Disk} (hr : runDisk me env cap bs cs = some d) {w : Nat} {n : FileName} {hd : ArchivalRecord} {rem : List Action}
    (hin : d.saverIn = false) (hrem : d.proc.m.rem = .openFile w n hd :: rem) : d.writers w = none ∧ .openFile w n hd ∈ program s := by
  have hi := dinv_run h hm hm' hr
  obtain ⟨ps, hps, -⟩ := hi.proc
  have hcr := (C73_returns me env bs s h hm hm' ps d.proc hps).2.1
  obtain ⟨done, hinv⟩ := proc_minv h hm hm' (runProc_inv hps) hcr
  have hsp : program s = done ++ (d.proc.m.rem ++ newActions d.proc.loop.svr s) := hinv.split
  refine ⟨?_, by rw [hsp, hrem]; simp⟩
  apply Classical.byContradiction
  intro hne
  rcases hi.known done hsp w hne with ⟨n', hd', hmem⟩ | ⟨hx, -⟩
  · have h0 := (open_fresh (program_ok env bs s h hm hm') hinv hrem).1
    have : FileOp.data (me.json hd') ∈ done.flatMap (actOps me w) := List.mem_flatMap.2 ⟨_, hmem, by simp [actOps]⟩
    rw [h0] at this; simp at this
  · rw [hin] at hx; simp at hx

theorem tinv_init (unz : Bytes → Option Bytes) (s : Saver) (bs : List MessageBlock) (n : Nat) (files : FileMap) : TInv unz s files (treeInit bs n files) where
  known := fun w => by simp [treeInit, diskInit]
  name := fun w p h => by simp [treeInit] at h
  exited := fun w z x h => by simp [treeInit, diskInit] at h
  own := fun w p h => by simp [treeInit] at h
  rest := fun p _ => rfl

theorem tinv_step {me : MEnv} {env : Env} {cap : Nat} {unz : Bytes → Option Bytes} {bs : List MessageBlock} {s : Saver} {files : FileMap} (h : runSaver env bs = some s)
    (hm : 0 < env.marshallers) (hm' : env.marshallers < 2 ^ 64) {cs : List DChoice} {t t' : Tree} {c : TChoice} (hr : runDisk me env cap bs cs = some t.disk)
    (hi : TInv unz s files t) (hs : t.step me env cap unz c = some t') : TInv unz s files t' := by
  rcases tree_step hs with ⟨c0, rfl, hmay, hd, hx⟩ | ⟨w, b, z, p, rfl, hd, hz, hp, hrun, e1, e2, e3⟩
  · rcases disk_writers hd with ⟨w, n, hdr, rem, z, hc, hin, hrem, hw, hz1, hz2⟩ | ⟨hc, hw⟩
    · rcases hx with ⟨hc', -⟩ | ⟨w', p', hc', f1, f2, f3⟩
      · rw [hc] at hc'; simp at hc'
      · rw [hc] at hc'
        injection hc' with hc'
        obtain ⟨rfl, rfl⟩ := Prod.mk.inj hc'
        obtain ⟨hnew, hmem⟩ := creates_fresh h hm hm' hr hin hrem
        have hpn : t.path w = none := (hi.known w).2 hnew
        refine ⟨?_, ?_, ?_, ?_, ?_⟩
        · intro v
          rw [f2, hw]
          simp only [Disk.setWriter]
          by_cases e : v = w
          · simp [e]
          · simp only [if_neg e]; exact hi.known v
        · intro v p hv
          rw [f2] at hv
          simp only at hv
          by_cases e : v = w
          · subst e
            rw [if_pos rfl] at hv; injection hv with hv
            exact ⟨n, hdr, hmem, hv.symm⟩
          · rw [if_neg e] at hv; exact hi.name v p hv
        · intro v zv x hv hxv
          rw [hw] at hv
          simp only [Disk.setWriter] at hv
          rw [f3]
          by_cases e : v = w
          · rw [if_pos e] at hv; injection hv with hv; subst hv; rw [hz1] at hxv; simp at hxv
          · rw [if_neg e] at hv; simp only [if_neg e]; exact hi.exited v zv x hv hxv
        · intro v p hv ho
          rw [f1, f3]
          rw [f2] at hv ho
          simp only at hv ho ⊢
          unfold FileMap.put
          by_cases e : v = w
          · subst e
            rw [if_pos rfl] at hv; injection hv with hv; subst hv
            simp
          · rw [if_neg e] at hv
            simp only [if_neg e]
            have hne : p ≠ n.path := fun he => e (ho w (by simp [he])).symm
            rw [if_neg hne]
            refine hi.own v p hv (fun u hu => ?_)
            refine ho u ?_
            by_cases e' : u = w
            · subst e'; rw [hpn] at hu; simp at hu
            · rw [if_neg e']; exact hu
        · intro p hp
          rw [f2] at hp
          rw [f1]
          unfold FileMap.put
          have hne : p ≠ n.path := fun he => hp w (by simp [he])
          rw [if_neg hne]
          refine hi.rest p (fun u hu => ?_)
          refine hp u ?_
          by_cases e' : u = w
          · subst e'; rw [hpn] at hu; simp at hu
          · simp only [if_neg e']; exact hu
    · rcases hx with ⟨-, f1, f2, f3⟩ | ⟨w', p', hc', -⟩
      · refine ⟨fun v => by rw [f2, (hw v).1]; exact hi.known v, by rw [f2]; exact hi.name, ?_, by rw [f1, f2, f3]; exact hi.own, by rw [f1, f2]; exact hi.rest⟩
        intro v z' x hv hxv
        rw [f3]
        obtain ⟨z, hz, hk⟩ := (hw v).2 z' hv
        rcases hk with ⟨k1, k2⟩ | ⟨c1, rfl, hst⟩
        · rw [k2]; exact hi.exited v z x hz (by rw [← k1]; exact hxv)
        · rcases exited_step hst with ⟨k1, k2⟩ | ⟨rfl, k1, k2, k3⟩
          · obtain ⟨g1, g2⟩ := hi.exited v z x hz (by rw [← k1]; exact hxv)
            exact ⟨k2 _ g1, g2⟩
          · refine ⟨k3, ?_⟩
            rw [k2] at hxv
            injection hxv with hxv; subst hxv
            unfold Tree.mayStep at hmay
            simpa [hz] using hmay
      · rw [hc] at hc'; simp at hc'
  · refine ⟨fun v => by rw [e1, hd]; exact hi.known v, by rw [e1]; exact hi.name, ?_, ?_, ?_⟩
    · intro v zv x hv hxv
      rw [hd] at hv
      rw [e3]
      obtain ⟨g1, g2⟩ := hi.exited v zv x hv hxv
      by_cases e : v = w
      · subst e
        rw [hz] at hv; injection hv with hv; subst hv
        rw [hrun] at g1; simp at g1
      · simp only [if_neg e]; exact ⟨g1, g2⟩
    · intro v q hv ho
      rw [e1] at hv ho
      rw [e2, e3]
      unfold FileMap.put
      by_cases e : v = w
      · subst e
        rw [hp] at hv; injection hv with hv; subst hv
        simp only [if_true]
        rw [hi.own v p hp ho]
        simp [writeAt_end]
      · have hne : q ≠ p := fun he => e (ho w (by rw [hp, he])).symm
        simp only [if_neg hne, if_neg e]
        exact hi.own v q hv ho
    · intro q hq
      rw [e1] at hq
      rw [e2]
      unfold FileMap.put
      rw [if_neg (fun he => hq w (by rw [hp, he]))]
      exact hi.rest q hq

theorem diskPart_append (a b : List TChoice) : diskPart (a ++ b) = diskPart a ++ diskPart b := by simp [diskPart]

theorem tinv_run {me : MEnv} {env : Env} {cap : Nat} {unz : Bytes → Option Bytes} {bs : List MessageBlock} {s : Saver} {files : FileMap} (h : runSaver env bs = some s)
    (hm : 0 < env.marshallers) (hm' : env.marshallers < 2 ^ 64) {cs : List TChoice} {t : Tree} (hr : runTree me env cap unz bs files cs = some t) : TInv unz s files t := by
  have key : ∀ (cs cs0 : List TChoice) (t0 t : Tree), runTree me env cap unz bs files cs0 = some t0 → TInv unz s files t0 → Tree.exec me env cap unz cs t0 = some t →
      TInv unz s files t := by
    intro cs
    induction cs with
    | nil => intro cs0 t0 t _ hi hx; simp only [Tree.exec, Option.some.injEq] at hx; rw [← hx]; exact hi
    | cons c cs ih =>
      intro cs0 t0 t h0 hi hx
      simp only [Tree.exec] at hx
      obtain ⟨t1, h1, h2⟩ := Option.bind_eq_some_iff.1 hx
      refine ih (cs0 ++ [c]) t1 t ?_ (tinv_step h hm hm' (tree_disk h0) hi h1) h2
      unfold runTree at h0 ⊢
      rw [tree_exec_append, h0]
      simp [Tree.exec, h1]
  exact key cs [] _ t rfl (tinv_init unz s bs _ files) hr

/-- Steps that create nothing under `p`, while only writer `w` still writes there. -/
theorem alone_step {me : MEnv} {env : Env} {cap : Nat} {unz : Bytes → Option Bytes} {t t' : Tree} {c : TChoice} (hs : t.step me env cap unz c = some t') {w : Nat}
    {p : List Char} (hp : t.path w = some p) (hnew : ∀ v q, t.disk.creates (match c with | .disk c => c | _ => .proc .main) = some (v, q) → v ≠ w ∧ q ≠ p)
    (hex : ∀ v z, v ≠ w → t.path v = some p → t.disk.writers v = some z → ∃ b, z.child = .exited b) (hf : t.files p = some (t.out w)) :
    t'.path w = some p ∧ (∀ v z, v ≠ w → t'.path v = some p → t'.disk.writers v = some z → ∃ b, z.child = .exited b) ∧ t'.files p = some (t'.out w) := by
  rcases tree_step hs with ⟨c0, rfl, hmay, hd, hx⟩ | ⟨w', b, z, p', rfl, hd, hz, hp', hrun, e1, e2, e3⟩
  · rcases hx with ⟨hc, f1, f2, f3⟩ | ⟨v, q, hc, f1, f2, f3⟩
    · refine ⟨by rw [f2]; exact hp, ?_, by rw [f1, f3]; exact hf⟩
      intro u zu hu hpu hzu
      rw [f2] at hpu
      rcases disk_writers hd with ⟨w2, n, hdr, rem, z, hc', -⟩ | ⟨-, hw⟩
      · rw [hc] at hc'; simp at hc'
      · obtain ⟨z, hz, hk⟩ := (hw u).2 zu hzu
        obtain ⟨b, hb⟩ := hex u z hu hpu hz
        rcases hk with ⟨-, k2⟩ | ⟨c1, rfl, hst⟩
        · exact ⟨b, by rw [k2]; exact hb⟩
        · rcases exited_step hst with ⟨-, k2⟩ | ⟨rfl, k1, -⟩
          · exact ⟨b, k2 b hb⟩
          · rw [hb] at k1; simp at k1
    · obtain ⟨hvw, hqp⟩ := hnew v q hc
      have hwv : w ≠ v := fun e => hvw e.symm
      have hpq : p ≠ q := fun e => hqp e.symm
      refine ⟨by rw [f2]; simp only [if_neg hwv]; exact hp, ?_, by rw [f1, f3]; simp only [FileMap.put, if_neg hwv, if_neg hpq]; exact hf⟩
      intro u zu hu hpu hzu
      rw [f2] at hpu
      by_cases e : u = v
      · simp only [e, if_true] at hpu
        injection hpu with hpu
        exact absurd hpu hqp
      · simp only [if_neg e] at hpu
        rcases disk_writers hd with ⟨w2, n, hdr, rem, z, hc', -, -, hw, -⟩ | ⟨hc', -⟩
        · rw [hc] at hc'
          injection hc' with hc'
          have e2 : u ≠ w2 := by rw [← (Prod.mk.inj hc').1]; exact e
          rw [hw] at hzu
          simp only [Disk.setWriter, if_neg e2] at hzu
          exact hex u zu hu hpu hzu
        · rw [hc] at hc'; simp at hc'
  · refine ⟨by rw [e1]; exact hp, by rw [e1, hd]; exact hex, ?_⟩
    rw [e2, e3]
    unfold FileMap.put
    by_cases e : w = w'
    · subst e
      rw [hp] at hp'; injection hp' with hp'; subst hp'
      simp [hf, writeAt_end]
    · have hne : p ≠ p' := by
        intro he
        subst he
        obtain ⟨b, hb⟩ := hex w' z (fun e' => e e'.symm) hp' hz
        rw [hrun] at hb; simp at hb
      simp only [if_neg hne, if_neg e]
      exact hf

end TcpInfo
