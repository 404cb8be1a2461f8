import Verif.Lemmas.FileSystem
import Verif.Props.Path
import Verif.Props.SaverInput
/-!
# C108 and C109: what is found under the paths
-/

namespace TcpInfo
open Spec

theorem opened_of_mem {s : Saver} {w : Nat} {n : FileName} {hd : ArchivalRecord} (h : .openFile w n hd ∈ program s) : FileEvent.opened n hd ∈ fileEvents w s.trace := by
  obtain ⟨a, ha, e⟩ := List.mem_map.1 h
  exact List.mem_filterMap.2 ⟨a, ha, by rw [e]; simp [fileEvent]⟩

theorem opened_one {env : Env} {bs : List MessageBlock} {s : Saver} (h : runSaver env bs = some s) {w : Nat} {n n' : FileName} {hd hd' : ArchivalRecord}
    (h1 : FileEvent.opened n hd ∈ fileEvents w s.trace) (h2 : FileEvent.opened n' hd' ∈ fileEvents w s.trace) : n = n' ∧ hd = hd' := by
  rcases C38_closed_once env bs s h w with he | ⟨m, md, ws, q, he⟩
  · rw [he] at h1; simp at h1
  · rw [he] at h1 h2
    simp at h1 h2
    exact ⟨h1.1.trans h2.1.symm, h1.2.trans h2.2.symm⟩

/-- C108. At any moment of any schedule: the file under a path that the command has created once holds exactly what the compressor of that file has put out, whatever was there
before. -/
theorem C108_growing (me : MEnv) (env : Env) (cap : Nat) (unz : Bytes → Option Bytes) (bs : List MessageBlock) (files : FileMap) (s : Saver) (h : runSaver env bs = some s)
    (hm : 0 < env.marshallers) (hm' : env.marshallers < 2 ^ 64) (cs : List TChoice) (t : Tree) (hr : runTree me env cap unz bs files cs = some t) (w : Nat) (p : List Char)
    (hp : t.path w = some p) (ho : ∀ v, t.path v = some p → v = w) : t.files p = some (t.out w) := (tinv_run h hm hm' hr).own w p hp ho

/-- C108 (partial: no other file of this run has the same path, see `C108_violated`, `C108_overwritten`). `main` has returned, under any schedule. Under the path of every file
that was created is a file that, unless the compressor failed, decompresses to the header line and all records queued for it, in order, anonymized. -/
theorem C108_path_partial (me : MEnv) (env : Env) (cap : Nat) (unz : Bytes → Option Bytes) (bs : List MessageBlock) (files : FileMap) (s : Saver)
    (h : runSaver env bs = some s) (hm : 0 < env.marshallers) (hm' : env.marshallers < 2 ^ 64) (cs : List TChoice) (t : Tree)
    (hr : runTree me env cap unz bs files cs = some t) (hp : t.disk.proc.pc = .returned) (w : Nat) (n : FileName) (hd : ArchivalRecord)
    (hw : .opened n hd ∈ fileEvents w s.trace) (ho : ∀ v n' hd', .opened n' hd' ∈ fileEvents v s.trace → n'.path = n.path → v = w) :
    ∃ b z, t.files n.path = some b ∧ t.disk.writers w = some z
      ∧ (z.child = .exited false ∨ (z.child = .exited true ∧ unz b = some (fileText me.json me.anon.f hd (fileRecords w s.trace)))) := by
  have hi := tinv_run h hm hm' hr
  obtain ⟨s', h', ha⟩ := C100_on_disk me env cap bs hm hm' _ t.disk (tree_disk hr) hp
  rw [h] at h'; injection h' with h'; subst h'
  rcases ha w with ⟨he, -⟩ | ⟨n0, hd0, ws, q, z, he, hz, -, hk⟩
  · rw [he] at hw; simp at hw
  · have heq : n = n0 ∧ hd = hd0 := opened_one h hw (by rw [he]; simp)
    obtain ⟨rfl, rfl⟩ := heq
    have hrec : fileRecords w s.trace = ws := by
      unfold fileRecords
      rw [he]
      simp only [List.cons_append, List.filterMap_cons, List.filterMap_append, List.filterMap_nil, List.append_nil, List.filterMap_map]
      have : ∀ ws : List ArchivalRecord, ws.filterMap ((fun e : FileEvent => match e with | .wrote _ r => some r | _ => none) ∘ FileEvent.wrote q) = ws := by
        intro ws
        induction ws with
        | nil => rfl
        | cons a ws ih => rw [List.filterMap_cons]; exact congrArg _ ih
      exact this ws
    have hpn : t.path w ≠ none := fun e => by have := (hi.known w).1 e; rw [hz] at this; simp at this
    obtain ⟨p, hpp⟩ := Option.ne_none_iff_exists'.1 hpn
    obtain ⟨n', hd', hmem, rfl⟩ := hi.name w p hpp
    obtain ⟨rfl, -⟩ := opened_one h hw (opened_of_mem hmem)
    have hown : t.files n.path = some (t.out w) := by
      refine hi.own w _ hpp (fun v hv => ?_)
      obtain ⟨n2, hd2, hm2, e2⟩ := hi.name v _ hv
      exact ho v n2 hd2 (opened_of_mem hm2) e2.symm
    refine ⟨t.out w, z, hown, hz, ?_⟩
    rcases hk with hk | ⟨hk1, hk2⟩
    · exact Or.inl hk
    · exact Or.inr ⟨hk1, by rw [hrec]; exact (hi.exited w z _ hz hk2).2⟩

theorem split_two {α : Type} {l : List α} {a b : α} (ha : a ∈ l) (hb : b ∈ l) (hne : a ≠ b) :
    (∃ x y z, l = x ++ a :: (y ++ b :: z)) ∨ ∃ x y z, l = x ++ b :: (y ++ a :: z) := by
  obtain ⟨x, y, rfl⟩ := List.append_of_mem ha
  rcases List.mem_append.1 hb with hb | hb
  · obtain ⟨u, v, rfl⟩ := List.append_of_mem hb
    exact Or.inr ⟨u, v, y, by simp⟩
  · rcases List.mem_cons.1 hb with e | hb
    · exact absurd e.symm hne
    · obtain ⟨u, v, rfl⟩ := List.append_of_mem hb
      exact Or.inl ⟨x, u, v, rfl⟩

theorem created_count {u : String} {tr : List Stamped} (h : ∃ z ∈ tr, ∃ t id, z.act = .flowCreated t u id) : 1 ≤ (flowEvents u tr).count true := by
  obtain ⟨z, hz, t, id, e⟩ := h
  exact List.count_pos_iff.2 (List.mem_filterMap.2 ⟨z, hz, by rw [e]; simp⟩)

/-- Two files of a run have the same path only if their connection was announced twice. -/
theorem same_path_twice {env : Env} (hc : MonoClock env) (hu : ∀ k, '/' ∉ (env.uuid k).toList) {bs : List MessageBlock} {s : Saver} (h : runSaver env bs = some s)
    {w v : Nat} {n n' : FileName} {hd hd' : ArchivalRecord} (hw : FileEvent.opened n hd ∈ fileEvents w s.trace) (hv : FileEvent.opened n' hd' ∈ fileEvents v s.trace)
    (hne : v ≠ w) (e : n'.path = n.path) : n'.uuid = n.uuid ∧ 2 ≤ (flowEvents n.uuid s.trace).count true := by
  have key : ∀ (tr1 tr2 tr3 : List Stamped) (x y : Stamped) (w w' : Nat) (n n' : FileName) (hd hd' : ArchivalRecord), s.trace = tr1 ++ x :: (tr2 ++ y :: tr3) →
      x.act = .openFile w n hd → y.act = .openFile w' n' hd' → n.path = n'.path → 2 ≤ (flowEvents n.uuid s.trace).count true := by
    intro tr1 tr2 tr3 x y w w' n n' hd hd' htr hx hy hpath
    obtain ⟨z, hz, t, id, hz'⟩ := C36_paths_partial env hc hu bs s h tr1 tr2 tr3 x y w w' n n' hd hd' htr hx hy hpath
    obtain ⟨z2, hz2, t2, id2, hz2', -⟩ := open_life env hc bs s h tr1 (tr2 ++ y :: tr3) x w n hd htr hx
    have c1 := created_count ⟨z2, hz2, t2, id2, hz2'⟩
    have c2 := created_count ⟨z, hz, t, id, hz'⟩
    have : flowEvents n.uuid s.trace = flowEvents n.uuid tr1 ++ (flowEvents n.uuid [x] ++ (flowEvents n.uuid tr2 ++ flowEvents n.uuid (y :: tr3))) := by
      rw [htr, show tr1 ++ x :: (tr2 ++ y :: tr3) = tr1 ++ ([x] ++ (tr2 ++ y :: tr3)) from rfl]
      unfold flowEvents
      simp only [List.filterMap_append]
    rw [this]
    simp only [List.count_append]
    omega
  have act : ∀ {w : Nat} {n : FileName} {hd : ArchivalRecord}, FileEvent.opened n hd ∈ fileEvents w s.trace → ∃ a ∈ s.trace, a.act = .openFile w n hd := by
    intro w n hd hm
    obtain ⟨a, ha, e⟩ := List.mem_map.1 (opened_mem hm)
    exact ⟨a, ha, e⟩
  obtain ⟨a, ha, ea⟩ := act hw
  obtain ⟨b, hb, eb⟩ := act hv
  have hab : a ≠ b := by
    rintro rfl
    rw [ea] at eb
    injection eb with eb
    exact hne eb.symm
  have hname : ∀ a ∈ s.trace, ∀ w n hd, a.act = .openFile w n hd → '/' ∉ n.uuid.toList := by
    intro a ha w n hd hact
    obtain ⟨s1, rfl, hst, -⟩ := runSaver_closed h
    rcases List.mem_append.1 (show a ∈ s1.trace ++ [_] from ha) with ha | ha
    · obtain ⟨k, hk⟩ := finv_name (finv_run hst) ha hact
      rw [hk]; exact hu k
    · have : a = ⟨s1.clock, .closeChans⟩ := by simpa using ha
      subst this; simp at hact
  have hnn := path_injective (hname b hb _ _ _ eb) (hname a ha _ _ _ ea) e
  subst hnn
  refine ⟨rfl, ?_⟩
  rcases split_two ha hb hab with ⟨x, y, z, htr⟩ | ⟨x, y, z, htr⟩
  · exact key x y z a b _ _ _ _ _ _ htr ea eb rfl
  · exact key x y z b a _ _ _ _ _ _ htr eb ea rfl

/-- C108 (partial: for connections that are announced once; one that is missing from a poll and comes back is announced twice). All files of such a connection are found under
their paths, complete unless their compressor failed. -/
theorem C108_once_partial (me : MEnv) (env : Env) (hc : MonoClock env) (hu : ∀ k, '/' ∉ (env.uuid k).toList) (cap : Nat) (unz : Bytes → Option Bytes) (bs : List MessageBlock)
    (files : FileMap) (s : Saver) (h : runSaver env bs = some s) (hm : 0 < env.marshallers) (hm' : env.marshallers < 2 ^ 64) (cs : List TChoice) (t : Tree)
    (hr : runTree me env cap unz bs files cs = some t) (hp : t.disk.proc.pc = .returned) (k : UInt64) (hk : (flowEvents (env.uuid k) s.trace).count true ≤ 1)
    (w : Nat) (n : FileName) (hd : ArchivalRecord) (hw : .opened n hd ∈ fileEvents w s.trace) (hn : n.uuid = env.uuid k) :
    ∃ b z, t.files n.path = some b ∧ t.disk.writers w = some z
      ∧ (z.child = .exited false ∨ (z.child = .exited true ∧ unz b = some (fileText me.json me.anon.f hd (fileRecords w s.trace)))) := by
  refine C108_path_partial me env cap unz bs files s h hm hm' cs t hr hp w n hd hw (fun v n' hd' hv e => ?_)
  apply Classical.byContradiction
  intro hne
  have := (same_path_twice hc hu h hw hv hne e).2
  rw [hn] at this
  omega

theorem creates_opened {me : MEnv} {env : Env} {cap : Nat} {bs : List MessageBlock} {s : Saver} (h : runSaver env bs = some s) (hm : 0 < env.marshallers)
    (hm' : env.marshallers < 2 ^ 64) {ds : List DChoice} {d : Disk} (hr : runDisk me env cap bs ds = some d) {c : DChoice} {v : Nat} {q : List Char}
    (hc : d.creates c = some (v, q)) : d.writers v = none ∧ ∃ n hd, .openFile v n hd ∈ program s ∧ q = n.path := by
  unfold Disk.creates at hc
  split at hc
  · rename_i n hd rem hrem hin
    injection hc with hc
    obtain ⟨rfl, rfl⟩ := Prod.mk.inj hc
    obtain ⟨a, b⟩ := creates_fresh h hm hm' hr hin hrem
    exact ⟨a, n, hd, b, rfl⟩
  · simp at hc

/-- C108 violated, in general: when a file is created under a path where there is one already, and the compressors of the earlier ones have ended, then nothing is left of what they
had written: from then on, until another file is created there, the path has what the new compressor puts out, and that only. -/
theorem C108_overwritten (me : MEnv) (env : Env) (cap : Nat) (unz : Bytes → Option Bytes) (bs : List MessageBlock) (files : FileMap) (s : Saver) (h : runSaver env bs = some s)
    (hm : 0 < env.marshallers) (hm' : env.marshallers < 2 ^ 64) (cs : List TChoice) (t1 : Tree) (hr : runTree me env cap unz bs files cs = some t1) (c : DChoice) (w : Nat)
    (p : List Char) (hc : t1.disk.creates c = some (w, p)) (hex : ∀ v z, t1.path v = some p → t1.disk.writers v = some z → ∃ b, z.child = .exited b)
    (cs' : List TChoice) (t : Tree) (hx : Tree.exec me env cap unz (.disk c :: cs') t1 = some t) (hlast : ∀ v, v ≠ w → t.path v = some p → t1.path v = some p) :
    t.files p = some (t.out w) := by
  simp only [Tree.exec] at hx
  obtain ⟨t2, h1, h2⟩ := Option.bind_eq_some_iff.1 hx
  have hr2 : runTree me env cap unz bs files (cs ++ [.disk c]) = some t2 := by
    unfold runTree at hr ⊢
    rw [tree_exec_append, hr]; simp [Tree.exec, h1]
  obtain ⟨hnew, -⟩ := creates_opened h hm hm' (tree_disk hr) hc
  have base : t2.path w = some p ∧ (∀ v z, v ≠ w → t2.path v = some p → t2.disk.writers v = some z → ∃ b, z.child = .exited b) ∧ t2.files p = some (t2.out w)
      ∧ ∀ v, v ≠ w → t2.path v = t1.path v := by
    rcases tree_step h1 with ⟨c0, e, -, hd, hy⟩ | ⟨_, _, _, _, e, -⟩
    · injection e with e; subst e
      rcases hy with ⟨hn, -⟩ | ⟨w', p', hc', f1, f2, f3⟩
      · rw [hc] at hn; simp at hn
      · rw [hc] at hc'; injection hc' with hc'
        obtain ⟨rfl, rfl⟩ := Prod.mk.inj hc'
        refine ⟨by rw [f2]; simp, ?_, by rw [f1, f3]; simp [FileMap.put], fun v hv => by rw [f2]; simp [hv]⟩
        intro v z hv hpv hz
        rw [f2] at hpv
        simp only [if_neg hv] at hpv
        rcases disk_writers hd with ⟨w2, n, hdr, rem, z2, hc2, -, -, hw, -⟩ | ⟨hc2, -⟩
        · rw [hc] at hc2; injection hc2 with hc2
          have e2 := (Prod.mk.inj hc2).1
          rw [hw] at hz
          simp only [Disk.setWriter, ← e2, if_neg hv] at hz
          exact hex v z hpv hz
        · rw [hc] at hc2; simp at hc2
    · simp at e
  -- paths stay
  have stay : ∀ (cs' cs0 : List TChoice) (a b : Tree), runTree me env cap unz bs files cs0 = some a → Tree.exec me env cap unz cs' a = some b →
      ∀ v q, a.path v = some q → b.path v = some q := by
    intro cs'
    induction cs' with
    | nil => intro cs0 a b _ hab; simp only [Tree.exec, Option.some.injEq] at hab; subst hab; exact fun _ _ h => h
    | cons c' cs' ih =>
      intro cs0 a b h0 hab v q hv
      simp only [Tree.exec] at hab
      obtain ⟨a1, g1, g2⟩ := Option.bind_eq_some_iff.1 hab
      refine ih (cs0 ++ [c']) a1 b (by unfold runTree at h0 ⊢; rw [tree_exec_append, h0]; simp [Tree.exec, g1]) g2 v q ?_
      rcases tree_step g1 with ⟨c0, rfl, -, hd, hy⟩ | ⟨_, _, _, _, -, -, -, -, -, e1, -⟩
      · rcases hy with ⟨-, -, f2, -⟩ | ⟨w', p', hc', -, f2, -⟩
        · rw [f2]; exact hv
        · rw [f2]
          by_cases e : v = w'
          · subst e
            have := (creates_opened h hm hm' (tree_disk h0) hc').1
            have := ((tinv_run h hm hm' h0).known v).2 this
            rw [hv] at this; simp at this
          · simp only [if_neg e]; exact hv
      · rw [e1]; exact hv
  have go : ∀ (cs' cs0 : List TChoice) (a b : Tree), runTree me env cap unz bs files cs0 = some a → Tree.exec me env cap unz cs' a = some b → a.path w = some p →
      (∀ v z, v ≠ w → a.path v = some p → a.disk.writers v = some z → ∃ b, z.child = .exited b) → a.files p = some (a.out w) →
      (∀ v, v ≠ w → b.path v = some p → a.path v = some p) → b.files p = some (b.out w) := by
    intro cs'
    induction cs' with
    | nil => intro cs0 a b _ hab _ _ hf _; simp only [Tree.exec, Option.some.injEq] at hab; subst hab; exact hf
    | cons c' cs' ih =>
      intro cs0 a b h0 hab hpw hexa hf hl
      simp only [Tree.exec] at hab
      obtain ⟨a1, g1, g2⟩ := Option.bind_eq_some_iff.1 hab
      have h01 : runTree me env cap unz bs files (cs0 ++ [c']) = some a1 := by unfold runTree at h0 ⊢; rw [tree_exec_append, h0]; simp [Tree.exec, g1]
      have hcr : ∀ v q, a.disk.creates (match c' with | .disk c => c | _ => .proc .main) = some (v, q) → v ≠ w ∧ q ≠ p := by
        intro v q hvq
        have hf1 := (creates_opened h hm hm' (tree_disk h0) hvq).1
        have hpn := ((tinv_run h hm hm' h0).known v).2 hf1
        have hvw : v ≠ w := fun e => by rw [e, hpw] at hpn; simp at hpn
        refine ⟨hvw, ?_⟩
        rintro rfl
        have hp1 : a1.path v = some q := by
          rcases tree_step g1 with ⟨c0, rfl, -, hd, hy⟩ | ⟨_, _, _, _, rfl, -⟩
          · rcases hy with ⟨hn, -⟩ | ⟨w', p', hc', -, f2, -⟩
            · rw [hvq] at hn; simp at hn
            · rw [hvq] at hc'; injection hc' with hc'
              obtain ⟨rfl, rfl⟩ := Prod.mk.inj hc'
              rw [f2]; simp
          · simp [Disk.creates] at hvq
        have := hl v hvw (stay cs' _ a1 b h01 g2 v q hp1)
        rw [hpn] at this; simp at this
      obtain ⟨k1, k2, k3⟩ := alone_step g1 hpw hcr hexa hf
      refine ih _ a1 b h01 g2 k1 k2 k3 (fun v hv hb => ?_)
      have := hl v hv hb
      rcases Option.eq_none_or_eq_some (a1.path v) with e | ⟨q, e⟩
      · have := stay [c'] cs0 a a1 h0 (by simp [Tree.exec, g1]) v p this
        exact this
      · have := stay [c'] cs0 a a1 h0 (by simp [Tree.exec, g1]) v p this
        exact this
  refine go cs' _ t2 t hr2 h2 base.1 base.2.1 base.2.2.1 (fun v hv hb => ?_)
  rw [base.2.2.2 v hv]
  exact hlast v hv hb

/-! ## C109 -/

/-- C109. Files that were there before are as they were, at any moment, except under the paths that the run creates. -/
theorem C109_kept (me : MEnv) (env : Env) (cap : Nat) (unz : Bytes → Option Bytes) (bs : List MessageBlock) (files : FileMap) (s : Saver) (h : runSaver env bs = some s)
    (hm : 0 < env.marshallers) (hm' : env.marshallers < 2 ^ 64) (cs : List TChoice) (t : Tree) (hr : runTree me env cap unz bs files cs = some t) (p : List Char)
    (hp : ∀ w n hd, .opened n hd ∈ fileEvents w s.trace → n.path ≠ p) : t.files p = files p := by
  have hi := tinv_run h hm hm' hr
  refine hi.rest p (fun w hw => ?_)
  obtain ⟨n, hd, hmem, e⟩ := hi.name w p hw
  exact hp w n hd (opened_of_mem hmem) e.symm

/-- C109 (partial: connections that are gone when the command is started again; see `C109_violated`). The files of connection `k` from earlier runs, whatever their directories and
numbers, are as they were if `k` is not reported any more. -/
theorem C109_ended_partial (me : MEnv) (env : Env) (hu : ∀ k, '/' ∉ (env.uuid k).toList) (cap : Nat) (unz : Bytes → Option Bytes) (bs : List MessageBlock) (files : FileMap)
    (s : Saver) (h : runSaver env bs = some s) (hm : 0 < env.marshallers) (hm' : env.marshallers < 2 ^ 64) (cs : List TChoice) (t : Tree)
    (hr : runTree me env cap unz bs files cs = some t) (k : UInt64) (hk : ∀ b ∈ bs, ∀ r ∈ reports env.exclude b, ck r ≠ k) (n : FileName) (hn : n.uuid = env.uuid k) :
    t.files n.path = files n.path := by
  refine C109_kept me env cap unz bs files s h hm hm' cs t hr n.path (fun w n' hd' hw e => ?_)
  obtain ⟨a, ha, ea⟩ := List.mem_map.1 (opened_mem hw)
  obtain ⟨r, hrm, er⟩ := C49_only_reported env bs s h n'.uuid ⟨a, ha, Or.inr (Or.inr ⟨w, n', hd', ea, rfl⟩)⟩
  have hnn := path_injective (by rw [er]; exact hu _) (by rw [hn]; exact hu _) e
  subst hnn
  rw [hn] at er
  obtain ⟨b, hb, hrb⟩ := List.mem_flatMap.1 hrm
  exact hk b hb r hrb (env.uuid_inj _ _ er).symm

/-- C109 violated, in general: the command is started again (on the same host since it was booted: the same UUIDs), and a connection is still there whose start in the second run
falls on the same day as its start in the first run. Then its first file has the same path in both runs, and when the second run has ended nothing of the first run is left
in it: it holds the records of the second run only, or what its failing compressor left. -/
theorem C109_violated_restart (me : MEnv) (env env0 : Env) (hdt : env.date = env0.date) (cap : Nat) (unz : Bytes → Option Bytes)
    (bs0 bs : List MessageBlock) (files : FileMap) (s0 s : Saver) (h0 : runSaver env0 bs0 = some s0) (h : runSaver env bs = some s) (hm : 0 < env.marshallers)
    (hm' : env.marshallers < 2 ^ 64) (cs : List TChoice) (t : Tree) (hr : runTree me env cap unz bs files cs = some t) (hp : t.disk.proc.pc = .returned)
    (w0 w : Nat) (n0 n : FileName) (hd0 hd : ArchivalRecord) (st0 st : Int) (hw0 : .opened n0 hd0 ∈ fileEvents w0 s0.trace) (hw : .opened n hd ∈ fileEvents w s.trace)
    (hk : n0.uuid = n.uuid) (hm0 : hd0.metadata = some ⟨n0.uuid, 0, st0⟩) (hm1 : hd.metadata = some ⟨n.uuid, 0, st⟩) (hd1 : env.date st0 = env.date st)
    (ho : ∀ v n' hd', .opened n' hd' ∈ fileEvents v s.trace → n'.path = n.path → v = w) :
    n0.path = n.path ∧ ∃ b z, t.files n0.path = some b ∧ t.disk.writers w = some z
      ∧ (z.child = .exited false ∨ (z.child = .exited true ∧ unz b = some (fileText me.json me.anon.f hd (fileRecords w s.trace)))) := by
  have dir : ∀ {env : Env} {bs : List MessageBlock} {s : Saver} {w : Nat} {n : FileName} {hd : ArchivalRecord} {st : Int}, runSaver env bs = some s →
      FileEvent.opened n hd ∈ fileEvents w s.trace → hd.metadata = some ⟨n.uuid, 0, st⟩ → n.sequence = 0 ∧ n.dir = env.date st := by
    intro env bs s w n hd st h hw hmd
    obtain ⟨a, ha, ea⟩ := List.mem_map.1 (opened_mem hw)
    obtain ⟨st', e1, e2⟩ := C92_directory env bs s h a ha w n hd ea
    rw [hmd] at e1
    simp only [Option.some.injEq, Metadata.mk.injEq, true_and] at e1
    obtain ⟨g1, g2⟩ := e1
    have hs : n.sequence = 0 := by omega
    rw [if_pos hs, ← g2] at e2
    exact ⟨hs, e2⟩
  obtain ⟨a1, a2⟩ := dir h0 hw0 hm0
  obtain ⟨b1, b2⟩ := dir h hw hm1
  have hnn : n0 = n := by
    obtain ⟨d0, u0, q0⟩ := n0
    obtain ⟨d1, u1, q1⟩ := n
    simp only at hk a1 a2 b1 b2
    rw [← hdt, hd1, ← b2] at a2
    rw [a1, a2, b1, hk]
  refine ⟨by rw [hnn], ?_⟩
  rw [hnn]
  exact C108_path_partial me env cap unz bs files s h hm hm' cs t hr hp w n hd hw ho

/-! ## Concrete runs -/

/-- A choice, or: this compressor puts out all that it has read so far. -/
inductive TTurn where
  | disk (c : DChoice)
  | flush (w : Nat)

/-- The schedule that results when choices that are not possible are skipped; compression is the identity. -/
def treeSkip (me : MEnv) (env : Env) (cap : Nat) : List TTurn → Tree → List TChoice
  | [], _ => []
  | c :: cs, t =>
    let c' := match c with
      | .disk c => TChoice.disk c
      | .flush w => .output w (((t.disk.writers w).map (fun z => z.consumed.drop (t.out w).length)).getD [])
    match t.step me env cap some c' with
    | none => treeSkip me env cap cs t
    | some t' => c' :: treeSkip me env cap cs t'

/-- All take turns. -/
def treeTurns : List TTurn := (List.range 60).flatMap (fun _ =>
  [.disk (.proc .main), .disk (.proc .saver), .disk (.proc (.worker 0)), .disk (.proc (.worker 1)), .disk (.proc (.worker 2))]
    ++ (List.range 2).flatMap (fun w => (zTurns w).map .disk ++ [.flush w, .disk (.zstd w .finish)]))

/-- Records are shown by one byte of their tcp_info (the round trip time). -/
def rttEnv : MEnv := { exMEnv with json := fun r => match r.rawIDM with
  | some _ => [2, (r.attrs.flatMap (fun a => (a.map (fun (g : GoSlice) => g.val)).getD [])).getD 68 0]
  | none => [1] }

def treeSchedule (env : Env) (bs : List MessageBlock) (files : FileMap) : List TChoice := treeSkip rttEnv env 4 treeTurns (treeInit bs 3 files)
def treeRun (env : Env) (bs : List MessageBlock) (files : FileMap) : Option Tree := runTree rttEnv env 4 some bs files (treeSchedule env bs files)

def noFiles : FileMap := fun _ => none
def treeSees (t : Tree) (w : Nat) : Option (String × Option Bytes × Option Zstd.Child) :=
  (t.path w).map (fun p => (String.ofList p, t.files p, (t.disk.writers w).map (fun z => z.child)))

set_option synthInstance.maxSize 1000 in
/-- C108: two connections; `main` returns, both files are under their paths (the hypotheses of `C108_path_partial` and `C108_once_partial` are met, next example). -/
example : (treeRun exEnv exBlocks noFiles).map (fun t => (t.disk.proc.pc, [treeSees t 0, treeSees t 1]))
    = some (.returned, [some ("18518/1.00000.jsonl.zst", some [1, 10, 2, 0, 10], some (.exited true)),
        some ("18518/2.00000.jsonl.zst", some [1, 10, 2, 0, 10, 2, 1, 10], some (.exited true))]) := by decide +kernel

example : (runSaver exEnv exBlocks).map (fun s => ((flowEvents (exEnv.uuid 1) s.trace).count true, (flowEvents (exEnv.uuid 2) s.trace).count true,
    (program s).filterMap (fun a => match a with | .openFile w n _ => some (w, String.ofList n.path) | _ => none)))
    = some (1, 1, [(0, "18518/1.00000.jsonl.zst"), (1, "18518/2.00000.jsonl.zst")]) := by decide +kernel

/-- One connection is missing in the second poll. -/
def backBlocks : List MessageBlock := [exBlock 1 [exMsg 1 5 1], exBlock 2 [], exBlock 3 [exMsg 1 7 1]]
/-- The same with two records before it is missing. -/
def mixBlocks : List MessageBlock := [exBlock 1 [exMsg 1 5 1], exBlock 2 [exMsg 1 6 1], exBlock 3 [], exBlock 4 [exMsg 1 7 1]]

theorem any_some_of {α : Type} {o : Option α} {p : α → Bool} (h : o.any p = true) : ∃ a, o = some a ∧ p a = true := by
  cases o with
  | none => simp at h
  | some a => exact ⟨a, rfl, by simpa using h⟩

/-- No path holds `b`. -/
def Nowhere (f : FileMap) (b : Bytes) : Prop := ∀ p, f p ≠ some b

/-- What the decided runs say about all paths. -/
theorem nowhere_of {me : MEnv} {env : Env} {cap : Nat} {unz : Bytes → Option Bytes} {bs : List MessageBlock} {files : FileMap} {s : Saver} (h : runSaver env bs = some s)
    (hm : 0 < env.marshallers) (hm' : env.marshallers < 2 ^ 64) {cs : List TChoice} {t : Tree} (hr : runTree me env cap unz bs files cs = some t) {b : Bytes}
    (h1 : ∀ a ∈ program s, ∀ w n hd, a = .openFile w n hd → t.files n.path ≠ some b) (h2 : ∀ p, (∀ a ∈ program s, ∀ w n hd, a = .openFile w n hd → n.path ≠ p) → files p ≠ some b) :
    Nowhere t.files b := by
  intro p
  by_cases hp : ∀ a ∈ program s, ∀ w n hd, a = .openFile w n hd → n.path ≠ p
  · rw [C109_kept me env cap unz bs files s h hm hm' cs t hr p (fun w n hd hw => hp _ (opened_mem hw) w n hd rfl)]
    exact h2 p hp
  · simp only [Classical.not_forall] at hp
    obtain ⟨a, ha, w, n, hd, e, hne⟩ := hp
    have := Classical.not_not.1 hne
    rw [← this]
    exact h1 a ha w n hd e

def pathsLack (s : Saver) (f : FileMap) (b : Bytes) : Bool :=
  (program s).all (fun a => match a with | .openFile _ n _ => decide (f n.path ≠ some b) | _ => true)

theorem pathsLack_all {s : Saver} {f : FileMap} {b : Bytes} (h : pathsLack s f b = true) : ∀ a ∈ program s, ∀ w n hd, a = .openFile w n hd → f n.path ≠ some b := by
  intro a ha w n hd e
  have := List.all_eq_true.1 h a ha
  subst e
  simpa using this

/-- The text of the file of writer `w`, if it was created. -/
def textOf (s : Saver) (w : Nat) : Option Bytes :=
  (fileEvents w s.trace).findSome? (fun e => match e with | .opened _ hd => some (fileText rttEnv.json rttEnv.anon.f hd (fileRecords w s.trace)) | _ => none)

def exitedOk (t : Tree) (w : Nat) : Bool := (t.disk.writers w).any (fun z => decide (z.child = .exited true))

def lostCheck (bs : List MessageBlock) (ws : List Nat) : Bool :=
  (runSaver exEnv bs).any (fun s => (treeRun exEnv bs noFiles).any (fun t => decide (t.disk.proc.pc = .returned) && exitedOk t 0 && exitedOk t 1
    && ws.all (fun w => (textOf s w).any (fun b => pathsLack s t.files b))))

theorem lost_of {bs : List MessageBlock} {ws : List Nat} (hc : lostCheck bs ws = true) :
    ∃ s cs t, runSaver exEnv bs = some s ∧ runTree rttEnv exEnv 4 some bs noFiles cs = some t ∧ t.disk.proc.pc = .returned
      ∧ (∀ w, w < 2 → ∃ z, t.disk.writers w = some z ∧ z.child = .exited true) ∧ ∀ w ∈ ws, ∃ b, textOf s w = some b ∧ Nowhere t.files b := by
  unfold lostCheck at hc
  obtain ⟨s, hs, hc⟩ := any_some_of hc
  obtain ⟨t, ht, hc⟩ := any_some_of hc
  simp only [Bool.and_eq_true, decide_eq_true_eq] at hc
  obtain ⟨⟨⟨h1, h2⟩, h3⟩, h4⟩ := hc
  have ex : ∀ w, exitedOk t w = true → ∃ z, t.disk.writers w = some z ∧ z.child = .exited true := by
    intro w hw
    unfold exitedOk at hw
    cases hz : t.disk.writers w with
    | none => rw [hz] at hw; simp at hw
    | some z => rw [hz] at hw; exact ⟨z, rfl, by simpa using hw⟩
  refine ⟨s, _, t, hs, ht, h1, fun w hw => ?_, fun w hw => ?_⟩
  · rcases (by omega : w = 0 ∨ w = 1) with rfl | rfl
    · exact ex 0 h2
    · exact ex 1 h3
  · have := List.all_eq_true.1 h4 w hw
    cases hb : textOf s w with
    | none => rw [hb] at this; simp at this
    | some b =>
      rw [hb] at this
      exact ⟨b, rfl, nowhere_of hs (by decide) (by decide) ht (pathsLack_all (by simpa using this)) (fun p _ => by simp [noFiles])⟩

/-- C108 violated: a connection is missing in one poll and comes back. No compressor fails, `main` returns; what was recorded of the connection before is under no path. -/
theorem C108_violated : ∃ s cs t, runSaver exEnv backBlocks = some s ∧ runTree rttEnv exEnv 4 some backBlocks noFiles cs = some t ∧ t.disk.proc.pc = .returned
    ∧ (∀ w, w < 2 → ∃ z, t.disk.writers w = some z ∧ z.child = .exited true) ∧ ∀ w ∈ [0], ∃ b, textOf s w = some b ∧ Nowhere t.files b :=
  lost_of (by decide +kernel)

/-- C108 violated further: if the first compressor is still writing when the file is created again, neither text is under any path: the file is a mixture. -/
theorem C108_violated_mixed : ∃ s cs t, runSaver exEnv mixBlocks = some s ∧ runTree rttEnv exEnv 4 some mixBlocks noFiles cs = some t ∧ t.disk.proc.pc = .returned
    ∧ (∀ w, w < 2 → ∃ z, t.disk.writers w = some z ∧ z.child = .exited true) ∧ ∀ w ∈ [0, 1], ∃ b, textOf s w = some b ∧ Nowhere t.files b :=
  lost_of (by decide +kernel)

set_option synthInstance.maxSize 1000 in
/-- The mixture. -/
example : (treeRun exEnv mixBlocks noFiles).map (fun t => [(t.out 0, t.out 1), (((t.path 0).bind t.files).getD [], ((t.path 1).bind t.files).getD [])])
    = some [([1, 10, 2, 5, 10, 2, 6, 10], [1, 10, 2, 7, 10]), ([1, 10, 2, 7, 10, 2, 6, 10], [1, 10, 2, 7, 10, 2, 6, 10])] := by decide +kernel

/-- An hour later: the first connection is still there. -/
def laterEnv : Env := { exEnv with now := fun n => 1600003600000000000 + 1000000000 * n }
def laterBlocks : List MessageBlock := [exBlock 1600003600000000000 [exMsg 1 9 1]]

def onlyAt (s : Saver) (p : List Char) (f : FileMap) (b : Bytes) : Bool :=
  (program s).all (fun a => match a with | .openFile _ n _ => decide (n.path = p ∨ f n.path ≠ some b) | _ => true)

def createsAt (s : Saver) (p : List Char) : Bool := (program s).any (fun a => match a with | .openFile _ n _ => decide (n.path = p) | _ => false)

theorem onlyAt_all {s : Saver} {p : List Char} {f : FileMap} {b : Bytes} (h : onlyAt s p f b = true) {w : Nat} {n : FileName} {hd : ArchivalRecord}
    (hm : .openFile w n hd ∈ program s) : n.path = p ∨ f n.path ≠ some b := of_decide_eq_true (List.all_eq_true.1 h _ hm)

theorem createsAt_ex {s : Saver} {p : List Char} (h : createsAt s p = true) : ∃ w n hd, .openFile w n hd ∈ program s ∧ n.path = p := by
  obtain ⟨a, ha, hp⟩ := List.any_eq_true.1 h
  cases a with
  | openFile w n hd => exact ⟨w, n, hd, ha, of_decide_eq_true hp⟩
  | _ => simp at hp

def restartCheck : Bool :=
  (runSaver exEnv exBlocks).any (fun s0 => (runSaver laterEnv laterBlocks).any (fun s => (treeRun exEnv exBlocks noFiles).any (fun t0 =>
    (treeRun laterEnv laterBlocks t0.files).any (fun t => decide (t0.disk.proc.pc = .returned) && decide (t.disk.proc.pc = .returned)
      && (textOf s0 0).any (fun b => decide (t0.files "18518/1.00000.jsonl.zst".toList = some b) && pathsLack s t.files b
        && onlyAt s0 "18518/1.00000.jsonl.zst".toList t0.files b && createsAt s "18518/1.00000.jsonl.zst".toList)))))

/-- C109 violated: the command is stopped and started again an hour later. The first run ended well and its file held what was recorded. After the second run, which ended well
too, that is under no path any more. -/
theorem C109_violated : ∃ s0 cs0 t0 cs t b p, runSaver exEnv exBlocks = some s0 ∧ runTree rttEnv exEnv 4 some exBlocks noFiles cs0 = some t0 ∧ t0.disk.proc.pc = .returned
    ∧ textOf s0 0 = some b ∧ t0.files p = some b
    ∧ runTree rttEnv laterEnv 4 some laterBlocks t0.files cs = some t ∧ t.disk.proc.pc = .returned ∧ Nowhere t.files b := by
  have hc : restartCheck = true := by decide +kernel
  unfold restartCheck at hc
  obtain ⟨s0, hs0, hc⟩ := any_some_of hc
  obtain ⟨s, hs, hc⟩ := any_some_of hc
  obtain ⟨t0, ht0, hc⟩ := any_some_of hc
  obtain ⟨t, ht, hc⟩ := any_some_of hc
  simp only [Bool.and_eq_true, decide_eq_true_eq] at hc
  obtain ⟨⟨h1, h2⟩, hc⟩ := hc
  obtain ⟨b, hb, hc⟩ := any_some_of hc
  simp only [Bool.and_eq_true, decide_eq_true_eq] at hc
  obtain ⟨⟨⟨h3, h4⟩, h5⟩, h6⟩ := hc
  refine ⟨s0, _, t0, _, t, b, _, hs0, ht0, h1, hb, h3, ht, h2, nowhere_of hs (by decide) (by decide) ht (pathsLack_all h4) (fun p hp e => ?_)⟩
  have hi := tinv_run hs0 (by decide) (by decide) ht0
  obtain ⟨w', n', hd', ha, hpa⟩ := createsAt_ex h6
  by_cases hex : ∃ w, t0.path w = some p
  · obtain ⟨w, hw⟩ := hex
    obtain ⟨n, hd, hmem, rfl⟩ := hi.name w p hw
    rcases onlyAt_all h5 hmem with h7 | h7
    · exact hp _ ha w' n' hd' rfl (hpa.trans h7.symm)
    · exact h7 e
  · rw [hi.rest p (fun w hw => hex ⟨w, hw⟩)] at e
    simp [noFiles] at e

/-- The saver's goroutine is slow: everything written is on disk before it goes on. -/
def slowTurns : List TTurn := (List.range 14).flatMap (fun _ => [.disk (.proc .main), .disk (.proc .saver)]
  ++ (List.range 25).flatMap (fun _ => [.disk (.proc (.worker 0)), .disk (.proc (.worker 1)), .disk (.proc (.worker 2))]
    ++ (List.range 2).flatMap (fun w => (zTurns w).map .disk ++ [.flush w, .disk (.zstd w .finish)])))
def slowSchedule : List TChoice := treeSkip rttEnv exEnv 4 slowTurns (treeInit backBlocks 3 noFiles)

def overCheck : Bool :=
  (runSaver exEnv backBlocks).any (fun s => (runTree rttEnv exEnv 4 some backBlocks noFiles (slowSchedule.take 227)).any (fun t1 =>
    (Tree.exec rttEnv exEnv 4 some (slowSchedule.drop 227) t1).any (fun t =>
      decide (slowSchedule[227]? = some (.disk (.proc .saver))) && decide (t1.disk.creates (.proc .saver) = some (1, "0/1.00000.jsonl.zst".toList))
      && exitedOk t1 0 && decide ((t1.path 0).bind t1.files = some [1, 10, 2, 5, 10]) && decide (t1.path 0 = some "0/1.00000.jsonl.zst".toList)
      && (program s).all (fun a => match a with | .openFile w _ _ => decide (w < 2) | _ => true) && decide (t1.path 1 = none))))

/-- The hypotheses of `C108_overwritten` are met: the first compressor has ended, its file is complete, and then it is created again. -/
example : ∃ s cs t1 c w p cs' t, runSaver exEnv backBlocks = some s ∧ runTree rttEnv exEnv 4 some backBlocks noFiles cs = some t1 ∧ t1.disk.creates c = some (w, p)
    ∧ (∀ v z, t1.path v = some p → t1.disk.writers v = some z → ∃ b, z.child = .exited b)
    ∧ Tree.exec rttEnv exEnv 4 some (.disk c :: cs') t1 = some t ∧ (∀ v, v ≠ w → t.path v = some p → t1.path v = some p) ∧ t1.files p = some [1, 10, 2, 5, 10] := by
  have hc : overCheck = true := by decide +kernel
  unfold overCheck at hc
  obtain ⟨s, hs, hc⟩ := any_some_of hc
  obtain ⟨t1, ht1, hc⟩ := any_some_of hc
  obtain ⟨t, ht, hc⟩ := any_some_of hc
  simp only [Bool.and_eq_true, decide_eq_true_eq] at hc
  obtain ⟨⟨⟨⟨⟨⟨h1, h2⟩, h3⟩, h4⟩, h5⟩, h6⟩, h7⟩ := hc
  have hr : runTree rttEnv exEnv 4 some backBlocks noFiles (slowSchedule.take 227 ++ slowSchedule.drop 227) = some t := by
    unfold runTree at ht1 ⊢
    rw [tree_exec_append, ht1, Option.bind_some, ht]
  have small : ∀ {cs : List TChoice} {t' : Tree}, runTree rttEnv exEnv 4 some backBlocks noFiles cs = some t' → ∀ v q, t'.path v = some q → v < 2 := by
    intro cs t' h' v q hv
    obtain ⟨n, hd, hmem, -⟩ := (tinv_run hs (by decide) (by decide) h').name v q hv
    exact of_decide_eq_true (List.all_eq_true.1 h6 _ hmem)
  have hsplit : slowSchedule.drop 227 = .disk (.proc .saver) :: slowSchedule.drop 228 := by
    obtain ⟨hl, e⟩ := List.getElem?_eq_some_iff.1 h1
    rw [List.drop_eq_getElem_cons hl, e]
  refine ⟨s, _, t1, _, 1, _, slowSchedule.drop 228, t, hs, ht1, h2, ?_, by rw [← hsplit]; exact ht, ?_, ?_⟩
  · intro v z hv hz
    rcases (by have := small ht1 v _ hv; omega : v = 0 ∨ v = 1) with rfl | rfl
    · unfold exitedOk at h3
      rw [hz] at h3
      exact ⟨true, by simpa using h3⟩
    · rw [h7] at hv; simp at hv
  · intro v hv hp
    rcases (by have := small hr v _ hp; omega : v = 0 ∨ v = 1) with rfl | rfl
    · exact h5
    · exact absurd rfl hv
  · rw [h5] at h4; exact h4

set_option synthInstance.maxSize 1000 in
/-- C109: a file of a connection that is gone (`C109_ended_partial`, cookie 2) is kept, the file of the one that is still there has the records of the second run only
(`C109_violated_restart`). -/
example : ((treeRun exEnv exBlocks noFiles).bind (fun t0 => (treeRun laterEnv laterBlocks t0.files).map (fun t => (t.disk.proc.pc,
      [t0.files "18518/2.00000.jsonl.zst".toList, t.files "18518/2.00000.jsonl.zst".toList],
      [t0.files "18518/1.00000.jsonl.zst".toList, t.files "18518/1.00000.jsonl.zst".toList]))))
    = some (.returned, [some [1, 10, 2, 0, 10, 2, 1, 10], some [1, 10, 2, 0, 10, 2, 1, 10]], [some [1, 10, 2, 0, 10], some [1, 10, 2, 9, 10]]) := by decide +kernel

/-- The hypotheses of `C109_ended_partial` and `C109_violated_restart` about the reports and the file names. -/
example : laterBlocks.all (fun b => (reports laterEnv.exclude b).all (fun r => decide (ck r ≠ 2))) = true
    ∧ (runSaver exEnv exBlocks).map (fun s => ((program s).filterMap (fun a => match a with | .openFile w n hd => some (w, n, hd.metadata.map (fun m => m.sequence)) | _ => none)).take 1)
      = some [(0, ⟨"18518", "1", 0⟩, some 0)]
    ∧ (runSaver laterEnv laterBlocks).map (fun s => (program s).filterMap (fun a => match a with | .openFile w n hd => some (w, n, hd.metadata.map (fun m => m.sequence)) | _ => none))
      = some [(0, ⟨"18518", "1", 0⟩, some 0)] := by decide +kernel

end TcpInfo
