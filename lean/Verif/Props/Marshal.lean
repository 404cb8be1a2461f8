import Verif.Lemmas.Marshal
import Verif.Props.SaverRuns
/-!
# C38, C39, C41, C42: the saver together with its marshallers, under every schedule
-/

namespace TcpInfo
open Spec

/-- The saver's program as the marshallers see it. -/
def program (s : Saver) : List Action := s.trace.map (·.act)

/-- What a file event amounts to. -/
def evOps (me : MEnv) : FileEvent → List FileOp
  | .opened _ h => [.data (me.json h), .data nl]
  | .wrote _ r => match anonymizeRecord me.anon r with
    | none => []
    | some r' => [.data (me.json r'), .data nl]
  | .closed _ => [.close]

theorem actOps_fileEvent (me : MEnv) (w : Nat) (a : Action) : actOps me w a = (fileEvent w a).toList.flatMap (evOps me) := by
  cases a with
  | openFile w' n h => simp only [actOps, fileEvent]; split <;> simp [evOps]
  | send q t =>
    obtain ⟨m, w'⟩ := t
    cases w' with
    | none => cases m <;> simp [actOps, taskOps, fileEvent]
    | some w' =>
      by_cases e : w' = w
      · subst e; cases m <;> simp [actOps, taskOps, fileEvent, evOps]
        split <;> simp_all
      · cases m <;> simp [actOps, taskOps, fileEvent, e]
  | _ => rfl

theorem program_ops (me : MEnv) (w : Nat) (l : List Stamped) :
    (l.map (·.act)).flatMap (actOps me w) = (fileEvents w l).flatMap (evOps me) := by
  induction l with
  | nil => rfl
  | cons a l ih =>
    simp only [List.map_cons, List.flatMap_cons, fileEvents, List.filterMap_cons]
    rw [actOps_fileEvent]
    unfold fileEvents at ih
    cases h : fileEvent w a.act <;> simp [ih]

theorem fileEvents_map (w : Nat) (l : List Stamped) : fileEvents w l = (l.map (·.act)).filterMap (fileEvent w) := by
  unfold fileEvents; rw [List.filterMap_map]; rfl

/-- No closing of the channels before the end. -/
theorem noClose_run {env : Env} {s : Saver} (h : Steps env newSaver s) : ∀ a ∈ s.trace, a.act ≠ .closeChans := by
  refine h.inv (P := fun s => ∀ a ∈ s.trace, a.act ≠ .closeChans) ?_ (by simp [newSaver])
  have snoc : ∀ (s : Saver) (x : Action), (∀ a ∈ s.trace, a.act ≠ .closeChans) → x ≠ .closeChans → ∀ a ∈ (s.emit x).trace, a.act ≠ .closeChans := by
    intro s x hs hx a ha
    rcases List.mem_append.1 ha with ha | ha
    · exact hs a ha
    · rw [List.mem_singleton] at ha; subst ha; exact hx
  intro s t hst hi
  cases hst with
  | other h1 h2 h3 h4 h5 => rw [h3]; exact hi
  | clock => exact hi
  | observe a ha => exact snoc _ _ hi (by rcases ha with ⟨n, rfl⟩ | ⟨n, rfl⟩ <;> simp)
  | create k idm ts hn hk0 hk => exact snoc _ _ hi (by simp)
  | closeExpired k c w hk hw hexp => exact snoc _ _ hi (by simp)
  | touch k c hk => exact hi
  | rotate k c dir hk hw hd0 hd1 => exact snoc _ _ hi (by simp)
  | write k c w msg idm hk hw hp hck hexp => exact snoc _ _ hi (by simp)
  | endClose k c w hk hw => exact snoc _ _ (snoc _ _ hi (by simp)) (by simp)
  | endGone k hg => exact snoc _ _ hi (by simp)

/-- The marshaller a writer belongs to. -/
noncomputable def homeOf (s : Saver) (w : Nat) : Nat :=
  match (fileEvents w s.trace).getLast? with
  | some (.closed q) => q
  | _ => 0

theorem program_ok (env : Env) (bs : List MessageBlock) (s : Saver) (h : runSaver env bs = some s) (hm : 0 < env.marshallers)
    (hm' : env.marshallers < 2 ^ 64) : ProgOK env.marshallers (homeOf s) (program s) where
  tasks := by
    intro q t hmem
    obtain ⟨a, ha, hact⟩ := List.mem_map.1 hmem
    obtain ⟨h1, h2⟩ := C43_tasks env bs s h hm hm' a ha q t hact
    refine ⟨h2, ?_⟩
    obtain ⟨w, hw⟩ := Option.ne_none_iff_exists'.1 h1
    refine ⟨w, hw, ?_⟩
    have hev : (∃ r, FileEvent.wrote q r ∈ fileEvents w s.trace) ∨ FileEvent.closed q ∈ fileEvents w s.trace := by
      obtain ⟨m, w'⟩ := t
      simp only at hw; subst hw
      cases m with
      | none =>
        right
        refine List.mem_filterMap.2 ⟨a, ha, ?_⟩
        rw [hact]; simp [fileEvent]
      | some r =>
        left
        refine ⟨r, List.mem_filterMap.2 ⟨a, ha, ?_⟩⟩
        rw [hact]; simp [fileEvent]
    unfold homeOf
    rcases C38_closed_once env bs s h w with he | ⟨n, hd, ws, q', he⟩
    · rw [he] at hev; simp at hev
    · rw [he] at hev ⊢
      rw [List.getLast?_concat]
      rcases hev with ⟨r, hm⟩ | hm
      · simp at hm; exact hm.2
      · simp at hm; exact hm.symm
  first := by
    intro a b w nm hd he me
    have hfe : fileEvents w s.trace = a.filterMap (fileEvent w) ++ .opened nm hd :: b.filterMap (fileEvent w) := by
      rw [fileEvents_map, show s.trace.map (·.act) = _ from he]; simp [fileEvent]
    have hnil : a.filterMap (fileEvent w) = [] := by
      rcases C38_closed_once env bs s h w with h' | ⟨n, hd', ws, q', h'⟩
      · rw [hfe] at h'; simp at h'
      · rw [hfe] at h'
        cases hx : a.filterMap (fileEvent w) with
        | nil => rfl
        | cons x xs =>
          rw [hx] at h'
          simp only [List.cons_append] at h'
          injection h' with h1 h2
          have : FileEvent.opened nm hd ∈ ws.map (FileEvent.wrote q') ++ [FileEvent.closed q'] := by rw [← h2]; simp
          simp at this
    rw [List.flatMap_eq_nil_iff]
    intro x hx
    rw [actOps_fileEvent]
    have : fileEvent w x = none := by
      cases hf : fileEvent w x with
      | none => rfl
      | some e => exact absurd (List.mem_filterMap.2 ⟨x, hx, hf⟩) (by rw [hnil]; simp)
    rw [this]; rfl
  ends := by
    obtain ⟨s1, rfl, hst, -⟩ := runSaver_closed h
    refine ⟨program s1, by simp [program, Saver.emit], ?_⟩
    intro hm
    obtain ⟨a, ha, hact⟩ := List.mem_map.1 hm
    exact noClose_run hst a ha hact

/-- State of the process after schedule `cs`; `none` if the schedule asks a goroutine to move that cannot. -/
def runProcess (me : MEnv) (env : Env) (s : Saver) (cs : List Choice) : Option MState := MState.exec me cs (mInit (program s) env.marshallers)

theorem process_inv (me : MEnv) (env : Env) (bs : List MessageBlock) (s : Saver) (h : runSaver env bs = some s) (hm : 0 < env.marshallers)
    (hm' : env.marshallers < 2 ^ 64) (cs : List Choice) (st : MState) (hr : runProcess me env s cs = some st) :
    ∃ done, MInv me env.marshallers (homeOf s) (program s) done st :=
  minv_exec (program_ok env bs s h hm hm') cs ⟨[], minv_init me _ _⟩ hr

/-! ## C42 -/

/-- C42. Every schedule is finite: it cannot be longer than a bound that depends only on the saver's work. If no goroutine can move then everything has
finished: the saver is through, every marshaller has exited with an empty queue, the process has not crashed, and `Done.Wait` returns. -/
theorem C42_terminates (me : MEnv) (env : Env) (bs : List MessageBlock) (s : Saver) (h : runSaver env bs = some s) (hm : 0 < env.marshallers)
    (hm' : env.marshallers < 2 ^ 64) (cs : List Choice) (st : MState) (hr : runProcess me env s cs = some st) :
    cs.length ≤ 6 * s.trace.length + env.marshallers + 1
    ∧ ((∀ c, st.step me c = none) →
      st.rem = [] ∧ (∀ wk ∈ st.workers, wk.pc = .exited ∧ wk.queue = []) ∧ st.crashed = false ∧ st.wg = 0) := by
  obtain ⟨done, hi⟩ := process_inv me env bs s h hm hm' cs st hr
  have hp := program_ok env bs s h hm hm'
  constructor
  · have h1 := cost_exec me cs _ st hr
    rw [cost_init] at h1
    simp only [program, List.length_map] at h1
    omega
  · intro hn
    have hf := progress hp hi hn
    exact ⟨hf.1, hf.2.1, hf.2.2, (wg_zero hp hi).2 hf⟩

theorem exec_append (me : MEnv) (cs cs' : List Choice) (st : MState) :
    MState.exec me (cs ++ cs') st = (MState.exec me cs st).bind (MState.exec me cs') := by
  induction cs generalizing st with
  | nil => rfl
  | cons c cs ih =>
    simp only [List.cons_append, MState.exec]
    cases st.step me c with
    | none => rfl
    | some st1 => exact ih st1

/-- C42. From every state that can be reached the shutdown can still be completed (so no choice made by the scheduler is fatal). -/
theorem C42_can_finish (me : MEnv) (env : Env) (bs : List MessageBlock) (s : Saver) (h : runSaver env bs = some s) (hm : 0 < env.marshallers)
    (hm' : env.marshallers < 2 ^ 64) (cs : List Choice) (st : MState) (hr : runProcess me env s cs = some st) :
    ∃ cs' st', runProcess me env s (cs ++ cs') = some st' ∧ st'.wg = 0 := by
  have key : ∀ k cs st, runProcess me env s cs = some st → cost st ≤ k → ∃ cs' st', runProcess me env s (cs ++ cs') = some st' ∧ st'.wg = 0 := by
    intro k
    induction k with
    | zero =>
      intro cs st hr hk
      obtain ⟨done, hi⟩ := process_inv me env bs s h hm hm' cs st hr
      simp [cost, hi.crash] at hk
    | succ k ih =>
      intro cs st hr hk
      by_cases hn : ∀ c, st.step me c = none
      · exact ⟨[], st, by rw [List.append_nil]; exact hr, ((C42_terminates me env bs s h hm hm' cs st hr).2 hn).2.2.2⟩
      · obtain ⟨c, hc⟩ := Classical.not_forall.1 hn
        obtain ⟨st1, h1⟩ := Option.ne_none_iff_exists'.1 hc
        have hr1 : runProcess me env s (cs ++ [c]) = some st1 := by
          unfold runProcess at hr ⊢
          rw [exec_append, hr]
          simp [MState.exec, h1]
        obtain ⟨cs', st', h2, h3⟩ := ih (cs ++ [c]) st1 hr1 (by have := cost_step me st st1 c h1; omega)
        exact ⟨c :: cs', st', by rw [List.append_assoc] at h2; exact h2, h3⟩
  exact key _ cs st hr (Nat.le_refl _)

/-- C42. `Done.Wait` does not return early: when it does, nothing is left to do. -/
theorem C42_wait (me : MEnv) (env : Env) (bs : List MessageBlock) (s : Saver) (h : runSaver env bs = some s) (hm : 0 < env.marshallers)
    (hm' : env.marshallers < 2 ^ 64) (cs : List Choice) (st : MState) (hr : runProcess me env s cs = some st) (hw : st.wg = 0) :
    st.rem = [] ∧ (∀ wk ∈ st.workers, wk.pc = .exited ∧ wk.queue = []) ∧ ∀ c, st.step me c = none := by
  obtain ⟨done, hi⟩ := process_inv me env bs s h hm hm' cs st hr
  have hf := (wg_zero (program_ok env bs s h hm hm') hi).1 hw
  refine ⟨hf.1, hf.2.1, ?_⟩
  intro c
  unfold MState.step
  rw [hf.2.2]
  cases c with
  | saver => simp [MState.saverStep, hf.1]
  | worker i =>
    simp only [Bool.false_eq_true, if_false, MState.workerStep]
    cases hx : st.workers[i]? with
    | none => rfl
    | some wk =>
      obtain ⟨q, pc⟩ := wk
      have := (hf.2.1 _ (List.mem_of_getElem? hx)).1
      simp only at this; subst this; rfl

/-! ## C38 -/

theorem file_ops (me : MEnv) (env : Env) (bs : List MessageBlock) (s : Saver) (h : runSaver env bs = some s) (w : Nat) :
    (program s).flatMap (actOps me w) = []
    ∨ ∃ ops, (program s).flatMap (actOps me w) = ops ++ [.close] ∧ FileOp.close ∉ ops := by
  rw [program, program_ops]
  rcases C38_closed_once env bs s h w with he | ⟨n, hd, ws, q, he⟩
  · rw [he]; exact Or.inl rfl
  · right
    refine ⟨(FileEvent.opened n hd :: ws.map (.wrote q)).flatMap (evOps me), ?_, ?_⟩
    · rw [he, List.flatMap_append]; rfl
    · simp only [List.mem_flatMap, not_exists, not_and, List.mem_cons, List.mem_map]
      rintro e (rfl | ⟨r, -, rfl⟩)
      · simp [evOps]
      · simp only [evOps]; split <;> simp

/-- C38. Whatever the schedule, at any moment: a writer has been closed at most once and nothing has been written to it afterwards. -/
theorem C38_schedule (me : MEnv) (env : Env) (bs : List MessageBlock) (s : Saver) (h : runSaver env bs = some s) (hm : 0 < env.marshallers)
    (hm' : env.marshallers < 2 ^ 64) (cs : List Choice) (st : MState) (hr : runProcess me env s cs = some st) (w : Nat) :
    closes (st.files w) ≤ 1 ∧ ¬ writtenAfterClose (st.files w) := by
  obtain ⟨done, hi⟩ := process_inv me env bs s h hm hm' cs st hr
  obtain ⟨t, ht⟩ := files_prefix hi w
  have hone : ∀ ops : List FileOp, FileOp.close ∉ ops → closes ops = 0 := by
    intro ops hn
    unfold closes
    rw [List.length_eq_zero_iff, List.filter_eq_nil_iff]
    intro o ho heq
    exact hn ((beq_iff_eq.1 heq) ▸ ho)
  rcases file_ops me env bs s h w with he | ⟨ops, he, hn⟩
  · rw [he] at ht
    rw [(List.append_eq_nil_iff.1 ht).1]
    refine ⟨by simp [closes], ?_⟩
    rintro ⟨a, b, x, h1, -⟩; simp at h1
  · rw [he] at ht
    have hsub : st.files w = ops ++ [.close] ∨ FileOp.close ∉ st.files w := by
      rcases List.append_eq_append_iff.1 ht with ⟨a, h1, h2⟩ | ⟨a, h1, h2⟩
      · right; intro hx; apply hn; rw [h1]; simp [hx]
      · cases a with
        | nil => right; rw [h1]; simpa using hn
        | cons c cs =>
          left
          have : c :: cs = [FileOp.close] := by
            rcases List.append_eq_singleton_iff.1 h2.symm with ⟨h3, -⟩ | ⟨h3, -⟩
            · simp at h3
            · exact h3
          rw [h1, this]
    rcases hsub with e | e
    · constructor
      · rw [e]
        have := hone ops hn
        unfold closes at this ⊢
        rw [List.filter_append]; simp [this]
      · rw [e]
        rintro ⟨a, b, x, h1, h2⟩
        have hb : b ≠ [] := by intro hb; subst hb; simp at h2
        obtain ⟨b', y, rfl⟩ : ∃ b' y, b = b' ++ [y] := ⟨b.dropLast, b.getLast hb, (List.dropLast_concat_getLast hb).symm⟩
        rw [← List.cons_append, ← List.append_assoc] at h1
        have := List.append_inj_left' h1 rfl
        apply hn; rw [this]; simp
    · refine ⟨by rw [hone _ e]; omega, ?_⟩
      rintro ⟨a, b, x, h1, -⟩
      apply e; rw [h1]; simp

/-- C38. When `Done.Wait` returns, every writer that has been opened has been closed, as the last thing that happened to it. -/
theorem C38_all_closed (me : MEnv) (env : Env) (bs : List MessageBlock) (s : Saver) (h : runSaver env bs = some s) (hm : 0 < env.marshallers)
    (hm' : env.marshallers < 2 ^ 64) (cs : List Choice) (st : MState) (hr : runProcess me env s cs = some st) (hw : st.wg = 0)
    (w : Nat) (n : FileName) (hd : ArchivalRecord) (ho : Action.openFile w n hd ∈ s.trace.map (·.act)) :
    (st.files w).getLast? = some .close ∧ closes (st.files w) = 1 := by
  obtain ⟨done, hi⟩ := process_inv me env bs s h hm hm' cs st hr
  have hf := (wg_zero (program_ok env bs s h hm hm') hi).1 hw
  have hfi := finished_files hi hf w
  have h1 := (C38_schedule me env bs s h hm hm' cs st hr w).1
  rcases file_ops me env bs s h w with he | ⟨ops, he, -⟩
  · exfalso
    rw [List.flatMap_eq_nil_iff] at he
    have := he _ ho
    simp [actOps] at this
  · rw [hfi, he]
    rw [hfi, he] at h1
    refine ⟨List.getLast?_concat, ?_⟩
    unfold closes at h1 ⊢
    rw [List.filter_append] at h1 ⊢
    simp at h1 ⊢
    exact h1

/-! ## C39 and C41 -/

theorem splice_two (raw a b : Bytes) (w : Nat) (hw : w ≤ 16) (hl : 72 ≤ raw.length) (ha : a.length = w) (hb : b.length = w) :
    splice (splice raw 8 a) 24 b
      = raw.take 8 ++ a ++ (raw.take 24).drop (8 + w) ++ b ++ raw.drop (24 + w) := by
  have e8 : (raw.take 8).length = 8 := by rw [List.length_take]; omega
  unfold splice
  rw [ha, hb]
  have h1 : (raw.take 8 ++ a ++ raw.drop (8 + w)).take 24 = raw.take 8 ++ a ++ (raw.take 24).drop (8 + w) := by
    rw [List.take_append, List.take_of_length_le (by rw [List.length_append]; omega), List.length_append, e8, ha, List.drop_take]
  have h2 : (raw.take 8 ++ a ++ raw.drop (8 + w)).drop (24 + w) = raw.drop (24 + w) := by
    rw [List.drop_append, List.drop_of_length_le (by rw [List.length_append]; omega), List.length_append, e8, ha, List.drop_drop, List.nil_append]
    congr 1; omega
  rw [h1, h2]

/-- The marshaller's anonymization is the specified one. -/
theorem anonymizeRecord_eq (anon : Anonymizer) (r : ArchivalRecord) : anonymizeRecord anon r = anonymized anon.f r := by
  unfold anonymizeRecord anonymized
  by_cases hs : (r.rawIDM.getD []).length < 72
  · simp only [if_pos hs]
    unfold anonymizeRaw
    rw [parseIDM_short hs]
  · have hl : 72 ≤ (r.rawIDM.getD []).length := by omega
    simp only [if_neg hs]
    have key : ∀ w ≤ 16, (splice (splice (r.rawIDM.getD []) 8 (anon.f (sub 8 w (r.rawIDM.getD [])))) 24
        (anon.f (sub 24 w (splice (r.rawIDM.getD []) 8 (anon.f (sub 8 w (r.rawIDM.getD [])))))))
        = (r.rawIDM.getD []).take 8 ++ anon.f (((r.rawIDM.getD []).drop 8).take w) ++ ((r.rawIDM.getD []).take 24).drop (8 + w)
          ++ anon.f (((r.rawIDM.getD []).drop 24).take w) ++ (r.rawIDM.getD []).drop (24 + w) := by
      intro w hw
      have hl1 : (anon.f (sub 8 w (r.rawIDM.getD []))).length = w := by rw [anon.len, sub_length _ _ _ (by omega)]
      have s1 : sub 24 w (splice (r.rawIDM.getD []) 8 (anon.f (sub 8 w (r.rawIDM.getD [])))) = sub 24 w (r.rawIDM.getD []) :=
        sub_splice_other _ _ _ (by omega) _ _ (by omega)
      rw [s1]
      exact splice_two _ _ _ w hw hl hl1 (by rw [anon.len, sub_length _ _ _ (by omega)])
    by_cases h4 : byte (r.rawIDM.getD []) 0 = 2
    · rw [anonymizeRaw_v4 anon hl h4]
      simp only [if_pos h4, Option.map_some]
      rw [key 4 (by omega)]
    · by_cases h6 : byte (r.rawIDM.getD []) 0 = 10
      · rw [anonymizeRaw_v6 anon hl h6]
        simp only [if_neg h4, if_pos h6, Option.map_some]
        rw [key 16 (by omega)]
      · rw [anonymizeRaw_other anon hl h6 h4]
        simp only [if_neg h4, if_neg h6, Option.map_none]

theorem contents_append (a b : List FileOp) : contents (a ++ b) = contents a ++ contents b := by simp [contents]

theorem contents_events (me : MEnv) (n : FileName) (hd : ArchivalRecord) (ws : List ArchivalRecord) (q : Nat) :
    contents ((FileEvent.opened n hd :: ws.map (FileEvent.wrote q) ++ [FileEvent.closed q]).flatMap (evOps me)) = fileText me.json me.anon.f hd ws := by
  rw [List.flatMap_append, contents_append]
  simp only [List.flatMap_cons]
  rw [contents_append]
  have h3 : contents (evOps me (FileEvent.closed q) ++ List.flatMap (evOps me) []) = [] := rfl
  rw [h3, List.append_nil]
  unfold fileText
  have h1 : contents (evOps me (.opened n hd)) = lineOf me.json hd := by simp [evOps, contents, lineOf, nl]
  rw [h1]
  congr 1
  induction ws with
  | nil => rfl
  | cons r ws ih =>
    simp only [List.map_cons, List.flatMap_cons, List.filterMap_cons]
    rw [contents_append, ih]
    rw [← anonymizeRecord_eq]
    simp only [evOps]
    cases anonymizeRecord me.anon r with
    | none => simp [contents]
    | some r' => simp [contents, lineOf, nl]

/-- C39. When `Done.Wait` returns the contents of each file are determined by what the saver queued for it: the header line, then its records, in the
order in which they were queued, each anonymized and on a line of its own. The schedule does not matter. -/
theorem C39_contents (me : MEnv) (env : Env) (bs : List MessageBlock) (s : Saver) (h : runSaver env bs = some s) (hm : 0 < env.marshallers)
    (hm' : env.marshallers < 2 ^ 64) (cs : List Choice) (st : MState) (hr : runProcess me env s cs = some st) (hw : st.wg = 0) (w : Nat) :
    (fileEvents w s.trace = [] ∧ st.files w = [])
    ∨ ∃ n hd, ∃ ws : List ArchivalRecord, ∃ q, fileEvents w s.trace = .opened n hd :: ws.map (.wrote q) ++ [.closed q]
      ∧ contents (st.files w) = fileText me.json me.anon.f hd ws := by
  obtain ⟨done, hi⟩ := process_inv me env bs s h hm hm' cs st hr
  have hf := (wg_zero (program_ok env bs s h hm hm') hi).1 hw
  have hfi := finished_files hi hf w
  rw [program, program_ops] at hfi
  rcases C38_closed_once env bs s h w with he | ⟨n, hd, ws, q, he⟩
  · left; rw [he] at hfi; exact ⟨he, hfi⟩
  · right
    refine ⟨n, hd, ws, q, he, ?_⟩
    rw [hfi, he]
    exact contents_events me n hd ws q

/-- C39 (partial: the tcp_info attributes of all reports are absent or reach to `tcpi_busy_time`, see C40). Two executions on the same blocks, which
differ in the schedule, and in what the saver sees of cached records that marshallers anonymize in place meanwhile, leave the same contents in every
file. -/
theorem C39_schedule_partial (me : MEnv) (env1 env2 : Env) (he : env1.still = env2.still) (hv1 : ViewOK env1) (hv2 : ViewOK env2)
    (bs : List MessageBlock) (hb : ∀ b ∈ bs, AllInfoOK env1.exclude b) (hm : 0 < env1.marshallers) (hm' : env1.marshallers < 2 ^ 64)
    (s1 s2 : Saver) (h1 : runSaver env1 bs = some s1) (h2 : runSaver env2 bs = some s2) (cs1 cs2 : List Choice) (st1 st2 : MState)
    (hr1 : runProcess me env1 s1 cs1 = some st1) (hr2 : runProcess me env2 s2 cs2 = some st2) (hw1 : st1.wg = 0) (hw2 : st2.wg = 0) (w : Nat) :
    contents (st1.files w) = contents (st2.files w) := by
  have e1 := C40_decisions_partial env1 hv1 bs hb
  have hex : env1.exclude = env2.exclude := congrArg (·.exclude) he
  have hma : env1.marshallers = env2.marshallers := congrArg (·.marshallers) he
  have e2 := C40_decisions_partial env2 hv2 bs (by rw [← hex]; exact hb)
  have hs : s1 = s2 := by
    have : some s1 = some s2 := by rw [← h1, ← h2, e1, e2, he]
    exact Option.some.inj this
  subst hs
  obtain ⟨d1, hi1⟩ := process_inv me env1 bs s1 h1 hm hm' cs1 st1 hr1
  obtain ⟨d2, hi2⟩ := process_inv me env2 bs s1 h2 (hma ▸ hm) (hma ▸ hm') cs2 st2 hr2
  rw [finished_files hi1 ((wg_zero (program_ok env1 bs s1 h1 hm hm') hi1).1 hw1) w,
    finished_files hi2 ((wg_zero (program_ok env2 bs s1 h2 (hma ▸ hm) (hma ▸ hm')) hi2).1 hw2) w]

/-- C41. Whatever the schedule, at any moment: everything written to any file is a newline, a header without addresses, or a record that was reported,
with both addresses replaced by the anonymizer's output. -/
theorem C41_anonymized (me : MEnv) (env : Env) (bs : List MessageBlock) (s : Saver) (h : runSaver env bs = some s) (hm : 0 < env.marshallers)
    (hm' : env.marshallers < 2 ^ 64) (cs : List Choice) (st : MState) (hr : runProcess me env s cs = some st) (w : Nat) (b : Bytes)
    (hb : FileOp.data b ∈ st.files w) :
    b = [10]
    ∨ (∃ hd, hd.rawIDM = none ∧ hd.attributes = none ∧ b = me.json hd)
    ∨ ∃ r ∈ bs.flatMap (reports env.exclude), ∃ r', anonymized me.anon.f r = some r' ∧ b = me.json r' := by
  obtain ⟨done, hi⟩ := process_inv me env bs s h hm hm' cs st hr
  have hmem := (files_prefix hi w).subset hb
  rw [program, program_ops] at hmem
  by_cases hne : fileEvents w s.trace = []
  · rw [hne] at hmem; simp at hmem
  · obtain ⟨k, n, hd, stt, ws, q, he, hn, hhd, hrec⟩ := C37_contents env bs s h w hne
    rw [he] at hmem
    obtain ⟨e, hme, hop⟩ := List.mem_flatMap.1 hmem
    simp only [List.mem_append, List.mem_cons, List.mem_map, List.not_mem_nil, or_false] at hme
    rcases hme with (rfl | ⟨r, hr', rfl⟩) | rfl
    · simp [evOps] at hop
      rcases hop with rfl | rfl
      · exact Or.inr (Or.inl ⟨hd, by rw [hhd], by rw [hhd], rfl⟩)
      · exact Or.inl rfl
    · simp only [evOps] at hop
      cases ha : anonymizeRecord me.anon r with
      | none => rw [ha] at hop; simp at hop
      | some r' =>
        rw [ha] at hop
        simp at hop
        rcases hop with rfl | rfl
        · refine Or.inr (Or.inr ⟨r, ?_, r', by rw [← anonymizeRecord_eq]; exact ha, rfl⟩)
          refine (C37_order env bs s h w).subset ?_
          unfold fileRecords
          rw [he]
          refine List.mem_filterMap.2 ⟨.wrote q r, ?_, rfl⟩
          simp [hr']
        · exact Or.inl rfl
    · simp [evOps] at hop

/-- C41. What `anonymized` means: only for IPv4 and IPv6; both addresses are the anonymizer's output for the original ones, everything else is the
same. (For IPv4 the address field has 16 bytes, of which only the first four are used by the kernel.) -/
theorem C41_addresses (anon : Anonymizer) (r r' : ArchivalRecord) (h : anonymized anon.f r = some r') :
    ∃ raw raw' w, r.rawIDM = some raw ∧ r'.rawIDM = some raw' ∧ 72 ≤ raw.length ∧ raw'.length = raw.length
      ∧ (byte raw 0 = 2 ∧ w = 4 ∨ byte raw 0 = 10 ∧ w = 16)
      ∧ sub 8 w raw' = anon.f (sub 8 w raw) ∧ sub 24 w raw' = anon.f (sub 24 w raw)
      ∧ (∀ i, ¬ (8 ≤ i ∧ i < 8 + w) → ¬ (24 ≤ i ∧ i < 24 + w) → raw'[i]? = raw[i]?)
      ∧ r' = { r with rawIDM := some raw' } := by
  rw [← anonymizeRecord_eq] at h
  unfold anonymizeRecord at h
  cases ha : anonymizeRaw anon (r.rawIDM.getD []) with
  | mk e raw' =>
    rw [ha] at h
    cases e with
    | some e => simp at h
    | none =>
      injection h with h
      have hne : ¬ (r.rawIDM.getD []).length < 72 ∧ addrWidth (byte (r.rawIDM.getD []) 0) ≠ none := by
        have := (C05_anonymize_error anon (r.rawIDM.getD [])).1
        rw [ha] at this
        simpa using this
      obtain ⟨w, hw⟩ := Option.ne_none_iff_exists'.1 hne.2
      obtain ⟨raw2, h1, h2, h3, h4, h5⟩ := C05_anonymize_exact anon (r.rawIDM.getD []) (by omega) w hw
      have e2 : raw' = raw2 := (Prod.mk.inj (ha.symm.trans h1)).2
      subst e2
      have hs : r.rawIDM = some (r.rawIDM.getD []) := by
        cases hx : r.rawIDM with
        | none => rw [hx] at hne; simp at hne
        | some x => rfl
      refine ⟨r.rawIDM.getD [], raw', w, hs, by rw [← h], by omega, h2, ?_, h3, h4, h5, h.symm⟩
      unfold addrWidth at hw
      split at hw
      · rename_i h10; injection hw with hw; exact Or.inr ⟨h10, hw.symm⟩
      · split at hw
        · rename_i h2; injection hw with hw; exact Or.inl ⟨h2, hw.symm⟩
        · simp at hw

/-! ## A concrete execution -/

/-- An anonymizer that clears the last byte of the address, and an encoding that shows cookie, family and the fourth address byte. -/
def exAnon : Anonymizer := { f := fun b => b.take (b.length - 1) ++ (b.drop (b.length - 1)).map (fun _ => 0), len := by intro b; simp }
def exMEnv : MEnv := { anon := exAnon, json := fun r => match r.rawIDM with | some raw => [byte raw 0, byte raw 44, byte raw 8, byte raw 11] | none => [1] }

/-- The saver first, as far as possible, then the marshallers. -/
def exSchedule (prog : List Action) : List Choice := prog.map (fun _ => Choice.saver) ++ (List.range 3).flatMap (fun i => List.replicate 14 (Choice.worker i))

/-- Run a schedule, skipping choices that are not possible. -/
def execSkip (me : MEnv) : List Choice → MState → List Choice × MState
  | [], st => ([], st)
  | c :: cs, st => match st.step me c with
    | none => execSkip me cs st
    | some st' => let r := execSkip me cs st'; (c :: r.1, r.2)

-- three files of two connections; two different schedules; each reaches the end and gives the same text
example : ((runSaver exEnv exBlocks).bind (fun s =>
    let cs := (execSkip exMEnv (exSchedule (program s)) (mInit (program s) 3)).1
    (runProcess exMEnv exEnv s cs).map (fun st => (st.wg, contents (st.files 0), contents (st.files 1), closes (st.files 1)))))
    = some (0, [1, 10, 2, 1, 10, 0, 10], [1, 10, 2, 2, 10, 0, 10, 2, 2, 10, 0, 10], 1) := by decide +kernel
example : ((runSaver exEnv exBlocks).bind (fun s =>
    let cs := (execSkip exMEnv ((List.range 40).flatMap (fun _ => [Choice.saver, .worker 2, .worker 1, .worker 0])) (mInit (program s) 3)).1
    (runProcess exMEnv exEnv s cs).map (fun st => (st.wg, contents (st.files 0), contents (st.files 1), closes (st.files 1)))))
    = some (0, [1, 10, 2, 1, 10, 0, 10], [1, 10, 2, 2, 10, 0, 10, 2, 2, 10, 0, 10], 1) := by decide +kernel

/-- C37. The text of each file after a complete run, under every schedule: the first line is the metadata record with the connection's UUID, the file's
sequence number and a start time; the other lines are records, each with this connection's cookie, each anonymized, and before that step they are, in this
order, among the records the kernel reported. -/
theorem C37_file_text (me : MEnv) (env : Env) (bs : List MessageBlock) (s : Saver) (h : runSaver env bs = some s) (hm : 0 < env.marshallers)
    (hm' : env.marshallers < 2 ^ 64) (cs : List Choice) (st : MState) (hr : runProcess me env s cs = some st) (hw : st.wg = 0) (w : Nat)
    (hne : contents (st.files w) ≠ []) :
    ∃ k seq start, ∃ ws : List ArchivalRecord,
      contents (st.files w) = me.json { timestamp := zeroTime, rawIDM := none, attributes := none, metadata := some ⟨env.uuid k, seq, start⟩ } ++ [10]
          ++ (ws.filterMap (anonymized me.anon.f)).flatMap (fun r => me.json r ++ [10])
      ∧ (∀ r ∈ ws, complete r = true ∧ cookie (r.rawIDM.getD []) = k)
      ∧ ws.Sublist (bs.flatMap (reports env.exclude)) := by
  rcases C39_contents me env bs s h hm hm' cs st hr hw w with ⟨-, he⟩ | ⟨n, hd, ws, q, he, hc⟩
  · rw [he] at hne; exact absurd rfl hne
  · have hne' : fileEvents w s.trace ≠ [] := by rw [he]; simp
    obtain ⟨k, n', hd', stt, ws', q', he', -, hhd, hrec⟩ := C37_contents env bs s h w hne'
    rw [he] at he'
    have e1 : n = n' ∧ hd = hd' := by simpa using (List.cons_eq_cons.1 he').1
    have e2 : fileRecords w s.trace = ws := by
      unfold fileRecords
      rw [he]
      simp [List.filterMap_append, List.filterMap_map, Function.comp_def]
    have e3 : ws = ws' := by
      have h1 := (List.cons_eq_cons.1 he').2
      have h2 := congrArg (List.filterMap (fun e : FileEvent => match e with | .wrote _ r => some r | _ => none)) h1
      simpa [List.filterMap_append, List.filterMap_map, Function.comp_def] using h2
    subst e3
    refine ⟨k, n.sequence, stt, ws, ?_, hrec, ?_⟩
    · rw [hc, fileText, e1.2, hhd, ← e1.1]
      rfl
    · rw [← e2]; exact C37_order env bs s h w

/-- C39 is violated for short tcp_info attributes (C40): the same blocks and clock, two executions that differ in the progress of the marshallers only,
and a file with different contents. -/
theorem C39_violated : ∃ me env bs s1 s2 cs1 cs2 st1 st2, ViewOK env ∧ runSaver env bs = some s1 ∧ runSaver env.still bs = some s2
    ∧ runProcess me env s1 cs1 = some st1 ∧ runProcess me env.still s2 cs2 = some st2 ∧ st1.wg = 0 ∧ st2.wg = 0
    ∧ contents (st1.files 0) ≠ contents (st2.files 0) := by
  have key : ∀ env : Env, ∀ n : Nat, ((runSaver env shortBlocks).bind (fun s =>
      (runProcess exMEnv env s (execSkip exMEnv (exSchedule (program s)) (mInit (program s) env.marshallers)).1).map
        (fun st => (st.wg, (contents (st.files 0)).length)))) = some (0, n) →
      ∃ s cs st, runSaver env shortBlocks = some s ∧ runProcess exMEnv env s cs = some st ∧ st.wg = 0 ∧ (contents (st.files 0)).length = n := by
    intro env n h
    cases hs : runSaver env shortBlocks with
    | none => rw [hs] at h; simp at h
    | some s =>
      rw [hs] at h
      simp only [Option.bind_some] at h
      cases hst : runProcess exMEnv env s (execSkip exMEnv (exSchedule (program s)) (mInit (program s) env.marshallers)).1 with
      | none => rw [hst] at h; simp at h
      | some st =>
        rw [hst] at h
        simp at h
        exact ⟨s, _, st, rfl, hst, h.1, h.2⟩
  obtain ⟨s1, cs1, st1, a1, a2, a3, a4⟩ := key nextAnonymizedEnv 12 (by decide +kernel)
  obtain ⟨s2, cs2, st2, b1, b2, b3, b4⟩ := key nextAnonymizedEnv.still 7 (by decide +kernel)
  refine ⟨exMEnv, nextAnonymizedEnv, shortBlocks, s1, s2, cs1, cs2, st1, st2, nextAnonymized_ok, a1, b1, a2, b2, a3, b3, ?_⟩
  intro h
  rw [h, b4] at a4
  simp at a4

end TcpInfo
