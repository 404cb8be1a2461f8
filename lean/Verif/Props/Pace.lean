import Verif.Lemmas.Pace
import Verif.Props.SaverFiles
import Verif.Props.EndToEnd
/-!
# C34 and C35 for busy connections, and C121: no file without a record
-/

namespace TcpInfo
open Spec

/-- What the two monitors know of each other. -/
def PaceOK : Option Life → Option Pace → Prop
  | none, none => True
  | some l, some p => p.current = l.current ∧ p.last ≤ l.created + tenMinutes * l.files ∧ (l.fresh = true → p.last ≤ l.created + tenMinutes * (l.files - 1))
  | _, _ => False

theorem pace_life (d : Int) (hd : d ≤ tenMinutes) (u : String) (tr : List Stamped) : ∀ st p, lifeRun true u none tr = some st → paceRun d u none tr = some p →
    lifeRun false u none tr = some st ∧ PaceOK st p := by
  induction tr using snoc_induction with
  | nil =>
    intro st p h1 h2
    simp only [lifeRun, Option.some.injEq] at h1
    simp only [paceRun, Option.some.injEq] at h2
    subst h1; subst h2
    exact ⟨rfl, trivial⟩
  | step tr a ih =>
    intro st' p' h1 h2
    rw [lifeRun_snoc] at h1 ⊢
    rw [paceRun_snoc] at h2
    obtain ⟨st, e1, h1⟩ := Option.bind_eq_some_iff.1 h1
    obtain ⟨p, e2, h2⟩ := Option.bind_eq_some_iff.1 h2
    obtain ⟨i1, i2⟩ := ih st p e1 e2
    rw [i1]
    simp only [Option.bind_some]
    have hten : tenMinutes = 600000000000 := rfl
    unfold lifeStep at h1 ⊢
    unfold paceStep at h2
    split at h1
    · -- announced
      rename_i t u' id ha
      simp only [ha] at h2 ⊢
      by_cases hu : u' = u
      · simp only [if_pos hu, Option.some.injEq] at h1 h2 ⊢
        subst h1; subst h2
        exact ⟨rfl, rfl, by simp, fun h => by simp at h⟩
      · simp only [if_neg hu, Option.some.injEq] at h1 h2 ⊢
        subst h1; subst h2
        exact ⟨rfl, i2⟩
    · -- file opened
      rename_i w n hd ha
      simp only [ha] at h2 ⊢
      by_cases hu : n.uuid = u
      · simp only [if_pos hu] at h1 h2 ⊢
        cases st with
        | none => simp at h1
        | some l =>
          cases p with
          | none => exact absurd i2 id
          | some p =>
            simp only at h1
            refine ⟨h1, ?_⟩
            split at h1
            · simp only [Option.some.injEq, Option.map_some] at h1 h2
              subst h1; subst h2
              obtain ⟨j1, j2, j3⟩ := i2
              rw [hten] at j2
              refine ⟨rfl, ?_, fun _ => ?_⟩ <;> simp only [hten] <;> omega
            · simp at h1
      · simp only [if_neg hu, Option.some.injEq] at h1 h2 ⊢
        subst h1; subst h2
        exact ⟨rfl, i2⟩
    · -- record
      rename_i q r w ha
      simp only [ha] at h2 ⊢
      cases st with
      | none =>
        cases p with
        | some p => exact absurd i2 id
        | none =>
          simp only [Option.some.injEq] at h1 h2 ⊢
          subst h1; subst h2
          exact ⟨rfl, trivial⟩
      | some l =>
        cases p with
        | none => exact absurd i2 id
        | some p =>
          obtain ⟨j1, j2, j3⟩ := i2
          simp only [j1] at h1 h2 ⊢
          by_cases hc : l.current = some w
          · simp only [if_pos hc] at h1 h2 ⊢
            split at h2
            · rename_i ht
              simp only [Option.some.injEq] at h2
              split at h1
              · rename_i hl
                simp only [Option.some.injEq] at h1
                have htime : a.time ≤ l.created + tenMinutes * l.files := by
                  rcases hl with ⟨-, hf⟩ | hl
                  · have := j3 hf
                    rw [hten] at this hd ⊢
                    omega
                  · exact hl
                rw [if_pos (Or.inr htime)]
                subst h1; subst h2
                exact ⟨rfl, rfl, htime, fun h => by simp at h⟩
              · simp at h1
            · simp at h2
          · simp only [if_neg hc, Option.some.injEq] at h1 h2 ⊢
            subst h1; subst h2
            exact ⟨rfl, j1, j2, j3⟩
    · -- others
      rename_i h3 h4 h5
      have hp : p' = p := by
        split at h2
        · rename_i ha; exact absurd ha (h3 _ _ _)
        · rename_i ha; exact absurd ha (h4 _ _ _)
        · rename_i ha; exact absurd ha (h5 _ _ _)
        · simpa using h2.symm
      simp only [Option.some.injEq] at h1
      subst h1; subst hp
      exact ⟨rfl, i2⟩

/-- C34 (partial: busy connections). For a connection that never pauses for more than ten minutes the property holds in its strict form: the files are numbered
0, 1, 2, ..., file n ≥ 1 is opened only later than n times ten minutes after the connection was announced, and no record at all is put into file n later than n + 1
times ten minutes after that. (Missing: connections that pause for longer, `C34_violated`.) -/
theorem C34_busy_partial (env : Env) (hc : MonoClock env) (bs : List MessageBlock) (s : Saver) (h : runSaver env bs = some s) (k : UInt64)
    (hb : Busy tenMinutes (env.uuid k) s.trace) : lifeRun false (env.uuid k) none s.trace ≠ none := by
  obtain ⟨st, h1⟩ := Option.ne_none_iff_exists'.1 (C34_files_partial env hc bs s h k)
  obtain ⟨p, h2⟩ := Option.ne_none_iff_exists'.1 hb
  rw [(pace_life tenMinutes (Int.le_refl _) _ _ st p h1 h2).1]
  simp

theorem paceRun_append (d : Int) (u : String) (st : Option Pace) (a c : List Stamped) :
    paceRun d u st (a ++ c) = (paceRun d u st a).bind (fun st => paceRun d u st c) := by
  induction a generalizing st with
  | nil => rfl
  | cons x a ih =>
    simp only [List.cons_append, paceRun]
    cases paceStep d u st x with
    | none => rfl
    | some st' => exact ih st'

theorem life_created (b : Bool) (u : String) (tr : List Stamped) (hn : ∀ a ∈ tr, ∀ t id, a.act ≠ .flowCreated t u id) :
    ∀ l st, lifeRun b u (some l) tr = some st → ∃ l', st = some l' ∧ l'.created = l.created := by
  induction tr with
  | nil => intro l st h; simp only [lifeRun, Option.some.injEq] at h; exact ⟨l, h.symm, rfl⟩
  | cons a tr ih =>
    intro l st h
    simp only [lifeRun] at h
    obtain ⟨st1, h1, h2⟩ := Option.bind_eq_some_iff.1 h
    have : ∃ l1, st1 = some l1 ∧ l1.created = l.created := by
      unfold lifeStep at h1
      split at h1
      · rename_i t u' id ha
        split at h1
        · rename_i hu; subst hu; exact absurd ha (hn a (by simp) t id)
        · simp only [Option.some.injEq] at h1; exact ⟨l, h1.symm, rfl⟩
      · split at h1
        · simp only at h1
          split at h1
          · simp only [Option.some.injEq] at h1; exact ⟨_, h1.symm, rfl⟩
          · simp at h1
        · simp only [Option.some.injEq] at h1; exact ⟨l, h1.symm, rfl⟩
      · simp only at h1
        split at h1
        · split at h1
          · simp only [Option.some.injEq] at h1; exact ⟨_, h1.symm, rfl⟩
          · simp at h1
        · simp only [Option.some.injEq] at h1; exact ⟨l, h1.symm, rfl⟩
      · simp only [Option.some.injEq] at h1; exact ⟨l, h1.symm, rfl⟩
    obtain ⟨l1, rfl, e⟩ := this
    obtain ⟨l', e1, e2⟩ := ih (fun a ha => hn a (by simp [ha])) l1 st h2
    exact ⟨l', e1, by rw [e2, e]⟩

/-- C35 (partial: busy connections). If a connection never pauses for more than `d`, with `d` at most ten minutes, then two successive files of it are opened more
than ten minutes less `d` apart. (Missing: connections that pause for longer, `C35_violated`.) -/
theorem C35_busy_partial (env : Env) (hc : MonoClock env) (bs : List MessageBlock) (s : Saver) (h : runSaver env bs = some s) (d : Int) (hd : d ≤ tenMinutes)
    (tr1 tr2 tr3 : List Stamped) (x y : Stamped) (w w' : Nat) (n n' : FileName) (hdr hdr' : ArchivalRecord) (htr : s.trace = tr1 ++ x :: (tr2 ++ y :: tr3))
    (hx : x.act = .openFile w n hdr) (hy : y.act = .openFile w' n' hdr') (hu : n'.uuid = n.uuid) (hq : n'.sequence = n.sequence + 1)
    (hsame : ∀ a ∈ tr2, ∀ t id, a.act ≠ .flowCreated t n.uuid id) (hb : Busy d n.uuid s.trace) : y.time > x.time + tenMinutes - d := by
  have hl : lifeRun true n.uuid none s.trace ≠ none := by
    obtain ⟨k, hk⟩ : ∃ k, n.uuid = env.uuid k := by
      obtain ⟨s1, rfl, hst, -⟩ := runSaver_closed h
      have hxm : x ∈ (s1.emit .closeChans).trace := by rw [htr]; simp
      simp only [Saver.emit, List.mem_append, List.mem_singleton] at hxm
      rcases hxm with hxm | rfl
      · obtain ⟨k, hk⟩ := finv_name (finv_run hst) hxm hx
        exact ⟨k, hk⟩
      · simp at hx
    rw [hk]
    exact C34_files_partial env hc bs s h k
  obtain ⟨z, rest, q, r, e1, e2, e3, -⟩ := (followed_parts env).run bs s h tr1 x (tr2 ++ y :: tr3) w n hdr htr hx
  have htr2 : ∃ tr2', tr2 = z :: tr2' := by
    cases tr2 with
    | nil =>
      simp only [List.nil_append, List.cons.injEq] at e1
      rw [← e1.1, hy] at e2
      simp at e2
    | cons a tr2 =>
      simp only [List.cons_append, List.cons.injEq] at e1
      exact ⟨tr2, by rw [e1.1]⟩
  obtain ⟨tr2', rfl⟩ := htr2
  -- the monitors up to x
  unfold Busy at hb
  rw [htr] at hl hb
  obtain ⟨stf, hl⟩ := Option.ne_none_iff_exists'.1 hl
  obtain ⟨pf, hb⟩ := Option.ne_none_iff_exists'.1 hb
  rw [lifeRun_append] at hl
  rw [paceRun_append] at hb
  obtain ⟨st, l1, hl⟩ := Option.bind_eq_some_iff.1 hl
  obtain ⟨p, p1, hb⟩ := Option.bind_eq_some_iff.1 hb
  obtain ⟨-, hok⟩ := pace_life d hd n.uuid tr1 st p l1 p1
  simp only [lifeRun, List.cons_append, paceRun] at hl hb
  obtain ⟨stx, l2, hl⟩ := Option.bind_eq_some_iff.1 hl
  obtain ⟨px, p2, hb⟩ := Option.bind_eq_some_iff.1 hb
  unfold lifeStep at l2
  unfold paceStep at p2
  simp only [hx, if_true] at l2 p2
  cases st with
  | none => simp at l2
  | some l =>
    cases p with
    | none => exact absurd hok id
    | some p =>
      simp only at l2
      split at l2
      · rename_i hcond
        simp only [Option.some.injEq, Option.map_some] at l2 p2
        subst l2; subst p2
        -- the record
        have l3 : lifeRun true n.uuid (some { l with files := l.files + 1, current := some w, fresh := true }) (z :: (tr2' ++ y :: tr3)) = some stf := by
          simp only [lifeRun]; exact hl
        obtain ⟨pz, p3, -⟩ := Option.bind_eq_some_iff.1 hb
        unfold paceStep at p3
        simp only [e2, if_true] at p3
        split at p3
        · rename_i htime
          have l4 : lifeRun true n.uuid (some { l with files := l.files + 1, current := some w, fresh := true }) ((z :: tr2') ++ (y :: tr3)) = some stf := l3
          rw [lifeRun_append] at l4
          obtain ⟨sty, l5, l6⟩ := Option.bind_eq_some_iff.1 l4
          obtain ⟨ly, rfl, l7⟩ := life_created true n.uuid _ hsame _ _ l5
          simp only [lifeRun] at l6
          obtain ⟨stz, l8, -⟩ := Option.bind_eq_some_iff.1 l6
          unfold lifeStep at l8
          simp only [hy, hu, if_true] at l8
          split at l8
          · rename_i hcy
            obtain ⟨c1, -, c3⟩ := hcy
            have hf : ly.files = l.files + 1 := by rw [← c1, hq, hcond.1]
            have := c3 (by omega)
            rw [l7, hf] at this
            obtain ⟨-, j2, -⟩ := hok
            have hten : tenMinutes = 600000000000 := rfl
            rw [hten] at this j2 ⊢
            simp only at this
            omega
          · simp at l8
        · simp at p3
      · simp at l2

/-! ## C121 -/

/-- C121. Whenever a file is opened, the next thing the saver does is to queue a record for it, at the same moment; the record has a complete header. -/
theorem C121_first (env : Env) (bs : List MessageBlock) (s : Saver) (h : runSaver env bs = some s) (before after : List Stamped) (x : Stamped) (w : Nat)
    (n : FileName) (hd : ArchivalRecord) (htr : s.trace = before ++ x :: after) (hx : x.act = .openFile w n hd) :
    ∃ y rest q r, after = y :: rest ∧ y.act = .send q ⟨some r, some w⟩ ∧ y.time = x.time ∧ 72 ≤ (r.rawIDM.getD []).length :=
  (followed_parts env).run bs s h before x after w n hd htr hx

theorem followed_tail (a : Stamped) (tr : List Stamped) (h : Followed (a :: tr)) : Followed tr :=
  fun b x c w n hd e hx => h (a :: b) x c w n hd (by rw [e]; rfl) hx

theorem opened_le : ∀ (m : Nat) (tr : List Stamped), tr.length ≤ m → Followed tr → opened tr ≤ (written tr).length := by
  intro m
  induction m with
  | zero => intro tr h _; have : tr = [] := List.length_eq_zero_iff.1 (by omega); subst this; simp [opened, written]
  | succ m ih =>
    intro tr hl hf
    cases tr with
    | nil => simp [opened, written]
    | cons a tr =>
      have ht := followed_tail a tr hf
      by_cases ha : ∃ w n hd, a.act = .openFile w n hd
      · obtain ⟨w, n, hd, ha⟩ := ha
        obtain ⟨y, rest, q, r, e1, e2, -, -⟩ := hf [] a tr w n hd rfl ha
        subst e1
        have := ih rest (by simp at hl; omega) (followed_tail y rest ht)
        unfold opened written at this ⊢
        simp only [List.filter_cons, ha, e2, if_true, List.filterMap_cons, Bool.false_eq_true, if_false, List.length_cons]
        omega
      · have := ih tr (by simpa using hl) ht
        have e : opened (a :: tr) = opened tr := by
          unfold opened
          simp only [List.filter_cons]
          split
          · rename_i w n hd he; exact absurd ⟨w, n, hd, he⟩ ha
          · simp
        rw [e]
        refine Nat.le_trans this ?_
        unfold written
        rw [List.filterMap_cons]
        split <;> simp

/-- C121. There are never more files than records. -/
theorem C121_number (env : Env) (bs : List MessageBlock) (s : Saver) (h : runSaver env bs = some s) : opened s.trace ≤ (written s.trace).length :=
  opened_le _ _ (Nat.le_refl _) ((followed_parts env).run bs s h)

theorem anonymized_some (f : Bytes → Bytes) (r : ArchivalRecord) (hr : 72 ≤ (r.rawIDM.getD []).length) :
    (∃ r', anonymized f r = some r') ↔ Spec.byte (r.rawIDM.getD []) 0 = 2 ∨ Spec.byte (r.rawIDM.getD []) 0 = 10 := by
  unfold anonymized
  simp only
  rw [if_neg (by omega)]
  by_cases h2 : Spec.byte (r.rawIDM.getD []) 0 = 2
  · simp [h2]
  · by_cases h10 : Spec.byte (r.rawIDM.getD []) 0 = 10
    · simp [h10]
    · simp [h2, h10]

/-- C121 (partial: connections of families 2 and 10, which are those that are asked for; `C121_violated`). When `Done.Wait` returns, every file that was opened has its
metadata line and at least one record: the first one that was queued for it. -/
theorem C121_text_partial (me : MEnv) (env : Env) (bs : List MessageBlock) (s : Saver) (h : runSaver env bs = some s) (hm : 0 < env.marshallers)
    (hm' : env.marshallers < 2 ^ 64) (cs : List Choice) (st : MState) (hr : runProcess me env s cs = some st) (hw : st.wg = 0) (w : Nat) :
    (fileEvents w s.trace = [] ∧ st.files w = [])
    ∨ ∃ n hd r, ∃ ws : List ArchivalRecord, ∃ q, fileEvents w s.trace = .opened n hd :: .wrote q r :: (ws.map (.wrote q) ++ [.closed q])
      ∧ ((Spec.byte (r.rawIDM.getD []) 0 = 2 ∨ Spec.byte (r.rawIDM.getD []) 0 = 10) →
          ∃ r' more, anonymized me.anon.f r = some r' ∧ contents (st.files w) = lineOf me.json hd ++ lineOf me.json r' ++ more) := by
  rcases C39_contents me env bs s h hm hm' cs st hr hw w with he | ⟨n, hd, ws, q, he, hc⟩
  · exact Or.inl he
  right
  have hmem : FileEvent.opened n hd ∈ fileEvents w s.trace := by rw [he]; simp
  obtain ⟨x, hx, hxe⟩ := List.mem_filterMap.1 hmem
  have hact : x.act = .openFile w n hd := by
    unfold fileEvent at hxe
    split at hxe
    · rename_i w' n' hd' ha
      split at hxe
      · rename_i e; simp only [Option.some.injEq, FileEvent.opened.injEq] at hxe; rw [ha, e, hxe.1, hxe.2]
      · simp at hxe
    · split at hxe <;> simp at hxe
    · split at hxe <;> simp at hxe
    · simp at hxe
  obtain ⟨before, after, htr⟩ := List.append_of_mem hx
  obtain ⟨y, rest, q', r, e1, e2, -, e4⟩ := C121_first env bs s h before after x w n hd htr hact
  have hsplit : fileEvents w s.trace = fileEvents w before ++ .opened n hd :: .wrote q' r :: fileEvents w rest := by
    rw [htr, e1]
    unfold fileEvents
    rw [List.filterMap_append, List.filterMap_cons, List.filterMap_cons, hact, e2]
    simp [fileEvent]
  have hb : fileEvents w before = [] := by
    cases hq : fileEvents w before with
    | nil => rfl
    | cons a l =>
      rw [hq, he] at hsplit
      simp only [List.cons_append, List.cons.injEq] at hsplit
      have : FileEvent.opened n hd ∈ ws.map (FileEvent.wrote q) ++ [.closed q] := by rw [hsplit.2]; simp
      simp at this
  rw [hb, he] at hsplit
  simp only [List.cons_append, List.nil_append, List.cons.injEq, true_and] at hsplit
  cases ws with
  | nil => simp at hsplit
  | cons r1 ws =>
    simp only [List.map_cons, List.cons_append, List.cons.injEq, FileEvent.wrote.injEq] at hsplit
    obtain ⟨⟨rfl, rfl⟩, -⟩ := hsplit
    refine ⟨n, hd, r1, ws, q, by rw [he]; simp, fun hfam => ?_⟩
    obtain ⟨r', hr'⟩ := (anonymized_some me.anon.f r1 e4).2 hfam
    refine ⟨r', (ws.filterMap (anonymized me.anon.f)).flatMap (lineOf me.json), hr', ?_⟩
    rw [hc]
    simp [fileText, hr']

/-- A connection of family 1, which the kernel does not report when it is asked for families 2 and 10. -/
def oddBlocks : List MessageBlock := [exBlock 1 [(exMsg 1 0 1).map (fun m => { m with data := [1] ++ m.data.drop 1 })]]

/-- C121 violated: a record of another family is queued, but its addresses cannot be anonymized; it is dropped then, and its file has nothing but the metadata
line. -/
theorem C121_violated : ∃ s cs st, runSaver exEnv oddBlocks = some s ∧ runProcess exMEnv exEnv s cs = some st ∧ st.wg = 0
    ∧ (written s.trace).length = 1 ∧ ∃ hd, contents (st.files 0) = lineOf exMEnv.json hd := by
  have h : (runSaver exEnv oddBlocks).any (fun s => (runProcess exMEnv exEnv s (execSkip exMEnv (exSchedule (program s)) (mInit (program s) 3)).1).any (fun st =>
      decide (st.wg = 0 ∧ (written s.trace).length = 1 ∧ s.trace.any (fun a => match a.act with
        | .openFile 0 _ hd => decide (contents (st.files 0) = lineOf exMEnv.json hd) | _ => false) = true))) = true := by decide +kernel
  cases hs : runSaver exEnv oddBlocks with
  | none => rw [hs] at h; simp at h
  | some s =>
    rw [hs] at h
    simp only [Option.any_some] at h
    cases hst : runProcess exMEnv exEnv s (execSkip exMEnv (exSchedule (program s)) (mInit (program s) 3)).1 with
    | none => rw [hst] at h; simp at h
    | some st =>
      rw [hst] at h
      simp only [Option.any_some, decide_eq_true_eq] at h
      obtain ⟨h1, h2, h3⟩ := h
      obtain ⟨a, -, ha⟩ := List.any_eq_true.1 h3
      split at ha
      · rename_i hd _
        exact ⟨s, _, st, rfl, hst, h1, h2, hd, of_decide_eq_true ha⟩
      · simp at ha

/-! ## Examples -/

-- a connection that changes in every block, five seconds apart at most: it never pauses for more than ten minutes, and gets one file
example : (runSaver exEnv busyBlocks).map (fun s => ((paceRun tenMinutes "1" none s.trace).isSome, opened s.trace, (written s.trace).length)) = some (true, 1, 4) := by
  decide +kernel
-- ninety seconds between readings of the clock: no pause is longer than eight minutes, and the files are opened more than two minutes apart
example : (runSaver (exEnvWith 90000000000 [] 3) (busyBlocks ++ busyBlocks)).map (fun s => ((paceRun (8 * 60000000000) "1" none s.trace).isSome,
    (openTimes "1" s.trace).map (fun t => (t - 1600000000000000000) / 1000000000))) = some (true, [90, 810, 1530, 1980, 2700]) := by decide +kernel
-- the run of `C34_violated` pauses for longer
example : (runSaver (exEnvWith (25 * 60000000000) [] 3) busyBlocks).map (fun s => (paceRun tenMinutes "1" none s.trace).isSome) = some false := by decide +kernel

end TcpInfo
