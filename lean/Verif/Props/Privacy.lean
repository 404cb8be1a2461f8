import Verif.Spec.Privacy
import Verif.Lemmas.Hidden
import Verif.Props.Disk
/-!
# C119: the output does not depend on what anonymization removes
-/

namespace TcpInfo
open Spec

/-! ## Messages -/

/-- An attribute without what follows in the buffer. -/
def attrCore (a : RouteAttr) : UInt16 × Bytes := (a.type, a.value.val)

/-- Both fail in the same way, or the values are related. -/
def ResRel {ε α β : Type} (R : α → β → Prop) : Res ε α → Res ε β → Prop
  | .ok a, .ok b => R a b
  | .err e, .err e' => e = e'
  | .panic, .panic => True
  | _, _ => False

theorem parseLoop_core (fuel : Nat) : ∀ (b tail tail' : Bytes) (acc acc' : List RouteAttr), acc.map attrCore = acc'.map attrCore →
    SimO (ResRel (fun l l' : List RouteAttr => l.map attrCore = l'.map attrCore)) (parseRouteAttrLoop fuel b tail acc) (parseRouteAttrLoop fuel b tail' acc') := by
  induction fuel with
  | zero => intro b tail tail' acc acc' _; exact trivial
  | succ fuel ih =>
    intro b tail tail' acc acc' h
    unfold parseRouteAttrLoop
    split
    · exact h
    · cases netlinkRouteAttrAndValue b with
      | err e => exact rfl
      | panic => exact trivial
      | ok v =>
        obtain ⟨len, typ, vbuf, alen⟩ := v
        simp only
        split
        · exact trivial
        · refine ih _ tail tail' _ _ ?_
          rw [List.map_append, List.map_append, h]
          rfl

theorem maxAttr_core : ∀ (l l' : List RouteAttr) (m : Nat), l.map attrCore = l'.map attrCore → maxAttrTypeLoop l m = maxAttrTypeLoop l' m := by
  intro l
  induction l with
  | nil => intro l' m h; cases l' with
    | nil => rfl
    | cons _ _ => simp at h
  | cons a l ih =>
    intro l' m h
    cases l' with
    | nil => simp at h
    | cons a' l' =>
      simp only [List.map_cons, List.cons.injEq, attrCore, Prod.mk.injEq] at h
      unfold maxAttrTypeLoop
      rw [h.1.1]
      exact ih l' _ h.2

theorem fillAttrs_core (m : Nat) : ∀ (l l' : List RouteAttr) (tbl tbl' : List (Option GoSlice)), l.map attrCore = l'.map attrCore →
    tbl.map (·.map (·.val)) = tbl'.map (·.map (·.val)) → (fillAttrs l m tbl).map (·.map (·.val)) = (fillAttrs l' m tbl').map (·.map (·.val)) := by
  intro l
  induction l with
  | nil => intro l' tbl tbl' h ht; cases l' with
    | nil => exact ht
    | cons _ _ => simp at h
  | cons a l ih =>
    intro l' tbl tbl' h ht
    cases l' with
    | nil => simp at h
    | cons a' l' =>
      simp only [List.map_cons, List.cons.injEq, attrCore, Prod.mk.injEq] at h
      unfold fillAttrs
      rw [h.1.1]
      split
      · exact ih l' _ _ h.2 ht
      · refine ih l' _ _ h.2 ?_
        rw [List.map_set, List.map_set, ht]
        simp only [Option.map_some, h.1.2]

theorem makeRecord_core (raw raw' attrs spare spare' : Bytes) :
    ResRel (fun o o' : Option ArchivalRecord => ∃ tbl tbl', o = some ⟨0, some raw, some tbl, none⟩ ∧ o' = some ⟨0, some raw', some tbl', none⟩
      ∧ tbl.map (·.map (·.val)) = tbl'.map (·.map (·.val))) (makeRecord raw attrs spare) (makeRecord raw' attrs spare') := by
  have h := parseLoop_core (attrs.length / 4 + 1) attrs spare spare' [] [] rfl
  unfold makeRecord parseRouteAttr
  revert h
  cases parseRouteAttrLoop (attrs.length / 4 + 1) attrs spare [] <;> cases parseRouteAttrLoop (attrs.length / 4 + 1) attrs spare' []
  · exact fun _ => trivial
  · exact fun h => h.elim
  · exact fun h => h.elim
  rename_i r r'
  cases r <;> cases r' <;> intro h <;> first | exact h.elim | exact trivial | exact h | skip
  rename_i l l'
  simp only
  rw [maxAttr_core l l' 0 h]
  exact ⟨_, _, rfl, rfl, fillAttrs_core _ l l' _ _ h rfl⟩

theorem makeRecord_notNone (raw attrs spare : Bytes) : makeRecord raw attrs spare ≠ .ok none := by
  intro hn
  have hr := makeRecord_core raw raw attrs spare spare
  rw [hn] at hr
  obtain ⟨_, _, h1, -⟩ := hr
  cases h1

theorem marshalRecord_core (zone : Int → Int) (t : Int) (raw : Option Bytes) (a b : List (Option GoSlice)) (md : Option Metadata)
    (h : a.map (·.map (·.val)) = b.map (·.map (·.val))) : marshalRecord zone ⟨t, raw, some a, md⟩ = marshalRecord zone ⟨t, raw, some b, md⟩ := by
  have e : a.map (fun a => bytesToJ (a.map (·.val))) = b.map (fun a => bytesToJ (a.map (·.val))) := by
    have := congrArg (List.map bytesToJ) h
    rw [List.map_map, List.map_map] at this
    exact this
  have e0 : (a = []) ↔ (b = []) := by
    have := congrArg List.length h
    simp only [List.length_map] at this
    rw [← List.length_eq_zero_iff, ← List.length_eq_zero_iff, this]
  by_cases ha : a = []
  · have hb := e0.1 ha
    subst ha; subst hb; rfl
  · have hb : ¬ b = [] := fun hb => ha (e0.2 hb)
    unfold marshalRecord recordToJ
    simp only [ArchivalRecord.raw, ArchivalRecord.attrs, Option.getD_some, ha, hb, if_false, e]
    first | rfl | (cases md <;> rfl)

/-- The line of text that is made of a record: none if it cannot be anonymized. -/
def lineText (zone : Int → Int) (anon : Anonymizer) (r : ArchivalRecord) : Option Bytes := (anonymized anon.f r).map (jsonEnv zone anon).json

theorem sub_take72 (o n : Nat) (h : o + n ≤ 72) (d : Bytes) : sub o n (d.take 72) = sub o n d := by
  unfold sub
  rw [List.drop_take, List.take_take, Nat.min_eq_left (by omega)]

theorem lineText_same (zone : Int → Int) (anon : Anonymizer) (d d' : Bytes) (h72 : 72 ≤ d.length) (hl : d.length = d'.length) (h8 : d.take 8 = d'.take 8)
    (h40 : d.drop 40 = d'.drop 40) (ha : SameAnonymized anon.f d d') (t : Int) (a b : List (Option GoSlice))
    (hab : a.map (·.map (·.val)) = b.map (·.map (·.val))) :
    lineText zone anon ⟨t, some (d.take 72), some a, none⟩ = lineText zone anon ⟨t, some (d'.take 72), some b, none⟩ := by
  have f0 : ∀ e : Bytes, Spec.byte (e.take 72) 0 = Spec.byte e 0 := by
    intro e
    cases e <;> rfl
  have hfam : Spec.byte d 0 = Spec.byte d' 0 := by
    have e : ∀ e : Bytes, Spec.byte e 0 = Spec.byte (e.take 8) 0 := by intro e; cases e <;> rfl
    rw [e d, e d', h8]
  have l72 : (d.take 72).length = 72 := by rw [List.length_take]; omega
  have l72' : (d'.take 72).length = 72 := by rw [List.length_take]; omega
  have t8 : (d.take 72).take 8 = (d'.take 72).take 8 := by
    rw [List.take_take, List.take_take]; exact h8
  have d40 : (d.take 72).drop 40 = (d'.take 72).drop 40 := by rw [List.drop_take, List.drop_take, h40]
  unfold lineText anonymized
  simp only [Option.getD_some, l72, l72', f0]
  rw [if_neg (show ¬ 72 < 72 by decide), if_neg (show ¬ 72 < 72 by decide), ← hfam]
  by_cases h2 : Spec.byte d 0 = 2
  · rw [if_pos h2]
    simp only [Option.map_some]
    obtain ⟨a1, a2, a3, a4⟩ := ha.1 h2
    have s1 : anon.f (((d.take 72).drop 8).take 4) = anon.f (((d'.take 72).drop 8).take 4) := by
      have := a1
      rw [← sub_take72 8 4 (by omega) d, ← sub_take72 8 4 (by omega) d'] at this
      exact this
    have s2 : anon.f (((d.take 72).drop 24).take 4) = anon.f (((d'.take 72).drop 24).take 4) := by
      have := a2
      rw [← sub_take72 24 4 (by omega) d, ← sub_take72 24 4 (by omega) d'] at this
      exact this
    have s3 : ((d.take 72).take 24).drop (8 + 4) = ((d'.take 72).take 24).drop (8 + 4) := by
      have := a3
      rw [← sub_take72 12 12 (by omega) d, ← sub_take72 12 12 (by omega) d'] at this
      have e : ∀ e : Bytes, (e.take 24).drop (8 + 4) = sub 12 12 e := by
        intro e; rw [List.drop_take]; rfl
      rw [e, e, this]
    have s4 : (d.take 72).drop (24 + 4) = (d'.take 72).drop (24 + 4) := by
      have := a4
      rw [← sub_take72 28 12 (by omega) d, ← sub_take72 28 12 (by omega) d'] at this
      have e : ∀ e : Bytes, e.drop (24 + 4) = sub 28 12 e ++ e.drop 40 := by
        intro e
        unfold sub
        rw [show e.drop 40 = (e.drop 28).drop 12 by rw [List.drop_drop], List.take_append_drop]
      rw [e, e, this, d40]
    rw [t8, s1, s2, s3, s4]
    show some ((marshalRecord zone _).getD []) = some ((marshalRecord zone _).getD [])
    rw [marshalRecord_core zone t _ a b none hab]
  · rw [if_neg h2]
    by_cases h10 : Spec.byte d 0 = 10
    · rw [if_pos h10]
      simp only [Option.map_some]
      obtain ⟨a1, a2⟩ := ha.2 h10
      have s1 : anon.f (((d.take 72).drop 8).take 16) = anon.f (((d'.take 72).drop 8).take 16) := by
        have := a1
        rw [← sub_take72 8 16 (by omega) d, ← sub_take72 8 16 (by omega) d'] at this
        exact this
      have s2 : anon.f (((d.take 72).drop 24).take 16) = anon.f (((d'.take 72).drop 24).take 16) := by
        have := a2
        rw [← sub_take72 24 16 (by omega) d, ← sub_take72 24 16 (by omega) d'] at this
        exact this
      have s3 : ∀ e : Bytes, (e.take 24).drop (8 + 16) = [] := by
        intro e
        rw [List.drop_take]; simp
      rw [t8, s1, s2, s3, s3, show (d.take 72).drop (24 + 16) = (d'.take 72).drop (24 + 16) from d40]
      show some ((marshalRecord zone _).getD []) = some ((marshalRecord zone _).getD [])
      rw [marshalRecord_core zone t _ a b none hab]
    · rw [if_neg h10]; rfl

theorem notExcluded (m : NetlinkMessage) : makeArchivalRecord m none ≠ .ok none := by
  unfold makeArchivalRecord
  split
  · exact fun h => by cases h
  split
  · exact fun h => by cases h
  · exact makeRecord_notNone _ _ _

theorem dropped_iff (ex : Option ExcludeConfig) (m : NetlinkMessage) (ht : m.header.type = 20) : makeArchivalRecord m ex = .ok none ↔ Excludes ex m.data := by
  cases ex with
  | none => exact ⟨fun h => absurd h (notExcluded m), fun ⟨_, h, _⟩ => by cases h⟩
  | some ex =>
    rw [C11_excluded_iff]
    exact ⟨fun ⟨_, d, rest, h1, h2⟩ => ⟨ex, rfl, d, rest, h1, h2⟩, fun ⟨_, e, d, rest, h1, h2⟩ => by cases e; exact ⟨ht, d, rest, h1, h2⟩⟩

theorem outcome_alike (zone : Int → Int) (anon : Anonymizer) (ex : Option ExcludeConfig) (t : Int) {m m' : Option NetlinkMessage} (h : Alike anon.f ex m m') :
    outcome (lineText zone anon) ex t m = outcome (lineText zone anon) ex t m' := by
  cases m with
  | none => cases m' with
    | none => rfl
    | some _ => exact h.elim
  | some m => cases m' with
    | none => exact h.elim
    | some m' =>
      obtain ⟨hs, ha, hx⟩ := h
      obtain ⟨hh, hl, h8, h40⟩ := hs
      unfold outcome
      simp only
      by_cases ht : m.header.type = 20
      case neg =>
        have e1 : makeArchivalRecord m ex = .err .notType20 := by unfold makeArchivalRecord; rw [if_pos ht]
        have e2 : makeArchivalRecord m' ex = .err .notType20 := by unfold makeArchivalRecord; rw [if_pos (hh ▸ ht)]
        rw [e1, e2]
      have ht' : m'.header.type = 20 := hh ▸ ht
      rw [← dropped_iff ex m ht, ← dropped_iff ex m' ht'] at hx
      by_cases h72 : 72 ≤ m.data.length
      case neg =>
        have sp : ∀ d : Bytes, d.length < 72 → splitInetDiagMsg d = none := fun d hd => if_pos (by rw [align72]; omega)
        have e1 : makeArchivalRecord m ex = .err .parseFailed := by
          unfold makeArchivalRecord; rw [if_neg (by simp [ht]), sp _ (by omega)]
        have e2 : makeArchivalRecord m' ex = .err .parseFailed := by
          unfold makeArchivalRecord; rw [if_neg (by simp [ht']), sp _ (by omega)]
        rw [e1, e2]
      have e72 : m.data.drop 72 = m'.data.drop 72 := by
        have : ∀ d : Bytes, d.drop 72 = (d.drop 40).drop 32 := by intro d; rw [List.drop_drop]
        rw [this, this, h40]
      have t8 : (m.data.take 72).take 8 = (m'.data.take 72).take 8 := by rw [List.take_take, List.take_take]; exact h8
      have d40 : (m.data.take 72).drop 40 = (m'.data.take 72).drop 40 := by rw [List.drop_take, List.drop_take, h40]
      have hhead : SameHeader (m.data.take 72) (m'.data.take 72) := ⟨by rw [List.length_take, List.length_take, hl], t8, d40⟩
      have made : (match makeRecord (m.data.take 72) (m.data.drop 72) m.spare with
          | .panic => none | .err _ => some none | .ok o => some (o.map (fun r : ArchivalRecord => bare (lineText zone anon) { r with timestamp := t })))
          = (match makeRecord (m'.data.take 72) (m'.data.drop 72) m'.spare with
          | .panic => none | .err _ => some none | .ok o => some (o.map (fun r : ArchivalRecord => bare (lineText zone anon) { r with timestamp := t }))) := by
        have hr := makeRecord_core (m.data.take 72) (m'.data.take 72) (m.data.drop 72) m.spare m'.spare
        rw [← e72]
        revert hr
        cases makeRecord (m.data.take 72) (m.data.drop 72) m.spare <;> cases makeRecord (m'.data.take 72) (m.data.drop 72) m'.spare <;> intro hr <;>
          first | exact hr.elim | rfl | skip
        obtain ⟨tbl, tbl', rfl, rfl, htbl⟩ := hr
        simp only [Option.map_some]
        rw [bare_of (lineText zone anon) (a := ⟨t, some (m.data.take 72), some tbl, none⟩) (b := ⟨t, some (m'.data.take 72), some tbl', none⟩)
          ⟨rfl, rfl, hhead, htbl⟩ (lineText_same zone anon m.data m'.data h72 hl h8 h40 ha t tbl tbl' htbl)]
      have form : ∀ n : NetlinkMessage, n.header.type = 20 → 72 ≤ n.data.length → makeArchivalRecord n ex = .ok none
          ∨ makeArchivalRecord n ex = makeRecord (n.data.take 72) (n.data.drop 72) n.spare := by
        intro n hn hln
        unfold makeArchivalRecord
        rw [if_neg (by simp [hn]), splitInetDiagMsg_ok hln]
        cases ex with
        | none => exact Or.inr rfl
        | some ex =>
          simp only
          rw [parseIDM_ok (by rw [List.length_take]; omega)]
          simp only
          split
          · exact Or.inl rfl
          · exact Or.inr rfl
      rcases form m ht h72 with f1 | f1
      · rw [f1, hx.1 f1]
      · rcases form m' ht' (by omega) with f2 | f2
        · exact absurd (f1.symm.trans (hx.2 f2)) (makeRecord_notNone _ _ _)
        · rw [f1, f2]; exact made

theorem outcomes_alike (zone : Int → Int) (anon : Anonymizer) (ex : Option ExcludeConfig) (t : Int) : ∀ (l l' : List (Option NetlinkMessage)),
    l.length = l'.length → (∀ p ∈ l.zip l', Alike anon.f ex p.1 p.2) → l.map (outcome (lineText zone anon) ex t) = l'.map (outcome (lineText zone anon) ex t) := by
  intro l
  induction l with
  | nil => intro l' hl _; cases l' with
    | nil => rfl
    | cons _ _ => simp at hl
  | cons m l ih =>
    intro l' hl h
    cases l' with
    | nil => simp at hl
    | cons m' l' =>
      simp only [List.map_cons]
      rw [outcome_alike zone anon ex t (h (m, m') (by simp)), ih l' (by simpa using hl) (fun p hp => h p (by simp [hp]))]

/-! ## C119 -/

/-- What the saver does, as seen from outside without the event socket, with its clock. -/
def hidden (zone : Int → Int) (anon : Anonymizer) (tr : List Stamped) : List (Int × Action × Option (Option Bytes)) :=
  tr.map (fun a => (a.time, hiddenAct (lineText zone anon) a.act))

theorem hidden_eq (zone : Int → Int) (anon : Anonymizer) (tr : List Stamped) :
    hidden zone anon tr = (bareTrace (lineText zone anon) tr).map (fun p => (p.1, p.2.1, p.2.2.map (fun z => z.2.2.2.2))) := by
  unfold hidden bareTrace
  rw [List.map_map]
  refine List.map_congr_left (fun a _ => ?_)
  obtain ⟨t, a⟩ := a
  cases a with
  | send q task =>
    obtain ⟨m, w⟩ := task
    cases m <;> rfl
  | _ => rfl

/-- C119 (partial: every tcp_info reaches to `tcpi_busy_time`, see `C119_violated`). Two daemons with the same clocks and the same configuration, but
marshallers that anonymize cached records at other times (`view`), whose kernels report the same except for addresses that are anonymized to the same. Either both crash, or both do the same at the same times, except for the addresses they
announce on the event socket: the same files are created under the same names, the same lines are queued for them, the same numbers are exported. -/
theorem C119_saver_partial (zone : Int → Int) (anon : Anonymizer) (env : Env) (hv : ViewOK env) (view : Nat → ArchivalRecord → ArchivalRecord)
    (hv' : ViewOK { env with view := view }) (bs cs : List MessageBlock) (hl : bs.length = cs.length)
    (ha : ∀ p ∈ bs.zip cs, AlikeBlocks anon.f env.exclude p.1 p.2)
    (hI : ∀ b ∈ bs, AllInfoOK env.exclude b) (hI' : ∀ b ∈ cs, AllInfoOK env.exclude b) :
    (runSaver env bs = none ∧ runSaver { env with view := view } cs = none)
    ∨ ∃ s t, runSaver env bs = some s ∧ runSaver { env with view := view } cs = some t ∧ hidden zone anon s.trace = hidden zone anon t.trace ∧ s.stats = t.stats := by
  have h := runSaver_sim (lineText zone anon) env hv bs cs hl (fun p hp => ?_) hI hI'
  · have e : runSaver { env with view := view } cs = runSaver env cs := by
      rw [runSaver_view env hv cs hI', runSaver_view { env with view := view } hv' cs hI']; rfl
    rw [e]
    revert h
    cases runSaver env bs <;> cases runSaver env cs
    · exact fun _ => Or.inl ⟨rfl, rfl⟩
    · exact fun h => h.elim
    · exact fun h => h.elim
    · exact fun h => Or.inr ⟨_, _, rfl, rfl, by rw [hidden_eq, hidden_eq, h.trace], h.stats⟩
  · have q := ha p hp
    exact ⟨q.time4, q.time6, outcomes_alike zone anon _ _ _ _ q.length4 q.messages4, outcomes_alike zone anon _ _ _ _ q.length6 q.messages6⟩

/-- What happens to a file, without addresses. -/
def blindEvent (zone : Int → Int) (anon : Anonymizer) : FileEvent → Option (FileName × ArchivalRecord) × Nat × Option (Option Bytes)
  | .opened n h => (some (n, h), 0, none)
  | .wrote q r => (none, q, some (lineText zone anon r))
  | .closed q => (none, q, none)

theorem blind_events (zone : Int → Int) (anon : Anonymizer) (w : Nat) (tr : List Stamped) :
    (fileEvents w tr).map (blindEvent zone anon) = (hidden zone anon tr).filterMap (fun p => match p.2.1, p.2.2 with
      | .openFile w' n h, _ => if w' = w then some (some (n, h), 0, none) else none
      | .send q ⟨_, some w'⟩, some l => if w' = w then some (none, q, some l) else none
      | .send q ⟨_, some w'⟩, none => if w' = w then some (none, q, none) else none
      | _, _ => none) := by
  unfold hidden fileEvents
  rw [List.filterMap_map, List.map_filterMap]
  congr 1
  funext a
  obtain ⟨t, a⟩ := a
  cases a with
  | openFile w' n h =>
    simp only [fileEvent, Function.comp, hiddenAct]
    split <;> rfl
  | send q task =>
    obtain ⟨m, w'⟩ := task
    cases m <;> cases w' <;> simp only [fileEvent, Function.comp, hiddenAct, Option.map_some, Option.map_none] <;> split <;> rfl
  | _ => rfl

theorem same_text (zone : Int → Int) (anon : Anonymizer) (w : Nat) (tr tr' : List Stamped) (h : hidden zone anon tr = hidden zone anon tr')
    {n n' : FileName} {hd hd' : ArchivalRecord} {ws ws' : List ArchivalRecord} {q q' : Nat}
    (e : fileEvents w tr = .opened n hd :: ws.map (.wrote q) ++ [.closed q]) (e' : fileEvents w tr' = .opened n' hd' :: ws'.map (.wrote q') ++ [.closed q']) :
    n = n' ∧ fileText (jsonEnv zone anon).json anon.f hd ws = fileText (jsonEnv zone anon).json anon.f hd' ws' := by
  have hb : (fileEvents w tr).map (blindEvent zone anon) = (fileEvents w tr').map (blindEvent zone anon) := by
    rw [blind_events, blind_events, h]
  rw [e, e'] at hb
  simp only [List.cons_append, List.map_cons, List.map_append, List.map_map, List.map_nil, List.cons.injEq, blindEvent, Prod.mk.injEq, Option.some.injEq,
    and_true] at hb
  obtain ⟨⟨h1, h2⟩, h3⟩ := hb
  have h4 := List.append_inj_left' h3 rfl
  have h5 : ws.map (lineText zone anon) = ws'.map (lineText zone anon) := by
    have := congrArg (List.filterMap (fun p : Option (FileName × ArchivalRecord) × Nat × Option (Option Bytes) => p.2.2)) h4
    rw [List.filterMap_map, List.filterMap_map] at this
    have f : ∀ (q : Nat) (l : List ArchivalRecord), l.filterMap ((fun p : Option (FileName × ArchivalRecord) × Nat × Option (Option Bytes) => p.2.2) ∘
        (blindEvent zone anon ∘ FileEvent.wrote q)) = l.map (lineText zone anon) := by
      intro q l
      induction l with
      | nil => rfl
      | cons r l ih => rw [List.filterMap_cons, List.map_cons, ih]; rfl
    rw [f, f] at this
    exact this
  refine ⟨h1, ?_⟩
  have g : ∀ l : List ArchivalRecord, (l.filterMap (anonymized anon.f)).flatMap (lineOf (jsonEnv zone anon).json)
      = ((l.map (lineText zone anon)).filterMap id).flatMap (fun b => b ++ [10]) := by
    intro l
    induction l with
    | nil => rfl
    | cons r l ih =>
      rw [List.map_cons, List.filterMap_cons, List.filterMap_cons]
      cases hr : anonymized anon.f r with
      | none => simp only [lineText, hr, Option.map_none, id_eq]; exact ih
      | some r' => simp only [lineText, hr, Option.map_some, id_eq, List.flatMap_cons, ih]; rfl
  unfold fileText
  rw [g, g, h5, h2]

/-- C119 (partial, as `C119_saver_partial`). Both daemons' `main` have returned, each under its own schedule of collector, saver, marshallers, pipes and
compressors: the same files have been opened, and what two compressors that did not fail have left on disk is the same, byte by byte. -/
theorem C119_disk_partial (zone : Int → Int) (anon : Anonymizer) (env : Env) (hv : ViewOK env) (view : Nat → ArchivalRecord → ArchivalRecord)
    (hv' : ViewOK { env with view := view }) (bs cs : List MessageBlock) (hl : bs.length = cs.length)
    (ha : ∀ p ∈ bs.zip cs, AlikeBlocks anon.f env.exclude p.1 p.2)
    (hI : ∀ b ∈ bs, AllInfoOK env.exclude b) (hI' : ∀ b ∈ cs, AllInfoOK env.exclude b) (hm : 0 < env.marshallers) (hm' : env.marshallers < 2 ^ 64)
    (cap cap' : Nat) (sched sched' : List DChoice) (d d' : Disk) (hr : runDisk (jsonEnv zone anon) env cap bs sched = some d)
    (hr' : runDisk (jsonEnv zone anon) { env with view := view } cap' cs sched' = some d') (hp : d.proc.pc = .returned) (hp' : d'.proc.pc = .returned) (w : Nat) :
    (d.writers w = none ∧ d'.writers w = none)
    ∨ ∃ z z', d.writers w = some z ∧ d'.writers w = some z'
      ∧ (z.child ≠ .exited false → z'.child ≠ .exited false → ∃ text, z.disk = some text ∧ z'.disk = some text) := by
  obtain ⟨s, hs, hw⟩ := C100_on_disk (jsonEnv zone anon) env cap bs hm hm' sched d hr hp
  obtain ⟨t, ht, hw'⟩ := C100_on_disk (jsonEnv zone anon) { env with view := view } cap' cs hm hm' sched' d' hr' hp'
  rcases C119_saver_partial zone anon env hv view hv' bs cs hl ha hI hI' with ⟨h1, -⟩ | ⟨s1, t1, h1, h2, h3, -⟩
  · rw [hs] at h1; cases h1
  · rw [hs] at h1; rw [ht] at h2
    cases h1; cases h2
    have hb : (fileEvents w s.trace).map (blindEvent zone anon) = (fileEvents w t.trace).map (blindEvent zone anon) := by
      rw [blind_events, blind_events, h3]
    rcases hw w with ⟨e1, e2⟩ | ⟨n, hd, ws, q, z, e1, e2, -, e4⟩
    · rcases hw' w with ⟨f1, f2⟩ | ⟨n', hd', ws', q', z', f1, f2, -, f4⟩
      · exact Or.inl ⟨e2, f2⟩
      · rw [e1, f1] at hb; simp at hb
    · rcases hw' w with ⟨f1, f2⟩ | ⟨n', hd', ws', q', z', f1, f2, -, f4⟩
      · rw [e1, f1] at hb; simp at hb
      · refine Or.inr ⟨z, z', e2, f2, fun c c' => ?_⟩
        rcases e4 with e4 | ⟨-, e4⟩
        · exact absurd e4 c
        rcases f4 with f4 | ⟨-, f4⟩
        · exact absurd f4 c'
        exact ⟨_, e4, f4.trans (congrArg some (same_text zone anon w _ _ h3 e1 f1).2.symm)⟩

/-- C119 (partial, as above). At any two moments of the two daemons, under any schedules, so also when they are killed: what has been written to the file with
number `w` is, in both cases, the beginning of one and the same text. -/
theorem C119_moment_partial (zone : Int → Int) (anon : Anonymizer) (env : Env) (hv : ViewOK env) (view : Nat → ArchivalRecord → ArchivalRecord)
    (hv' : ViewOK { env with view := view }) (bs cs : List MessageBlock) (hl : bs.length = cs.length)
    (ha : ∀ p ∈ bs.zip cs, AlikeBlocks anon.f env.exclude p.1 p.2)
    (hI : ∀ b ∈ bs, AllInfoOK env.exclude b) (hI' : ∀ b ∈ cs, AllInfoOK env.exclude b) (hm : 0 < env.marshallers) (hm' : env.marshallers < 2 ^ 64)
    (hc : runSaver env bs ≠ none) (sched sched' : List PChoice) (p p' : Proc) (hr : runProc (jsonEnv zone anon) env bs sched = some p)
    (hr' : runProc (jsonEnv zone anon) { env with view := view } cs sched' = some p') (w : Nat) :
    ∃ text, contents (p.m.files w) <+: text ∧ contents (p'.m.files w) <+: text := by
  rcases C119_saver_partial zone anon env hv view hv' bs cs hl ha hI hI' with ⟨h1, -⟩ | ⟨s, t, h1, h2, h3, -⟩
  · exact absurd h1 hc
  · rcases C74_killed (jsonEnv zone anon) env bs s h1 hm hm' sched p hr w with e | ⟨n, hd, ws, q, e1, e2, -⟩
    · rcases C74_killed (jsonEnv zone anon) { env with view := view } cs t h2 hm hm' sched' p' hr' w with f | ⟨n', hd', ws', q', f1, f2, -⟩
      · exact ⟨[], by rw [e]; exact List.prefix_refl _, by rw [f]; exact List.prefix_refl _⟩
      · exact ⟨_, by rw [e]; exact List.nil_prefix, f2⟩
    · rcases C74_killed (jsonEnv zone anon) { env with view := view } cs t h2 hm hm' sched' p' hr' w with f | ⟨n', hd', ws', q', f1, f2, -⟩
      · exact ⟨_, e2, by rw [f]; exact List.nil_prefix⟩
      · exact ⟨_, e2, (same_text zone anon w _ _ h3 e1 f1).2 ▸ f2⟩

/-! ## Examples -/

instance (m m' : NetlinkMessage) : Decidable (SameMessage m m') :=
  decidable_of_iff (m.header = m'.header ∧ m.data.length = m'.data.length ∧ m.data.take 8 = m'.data.take 8 ∧ m.data.drop 40 = m'.data.drop 40)
    ⟨fun ⟨a, b, c, d⟩ => ⟨a, b, c, d⟩, fun ⟨a, b, c, d⟩ => ⟨a, b, c, d⟩⟩

instance (f : Bytes → Bytes) (d d' : Bytes) : Decidable (SameAnonymized f d d') := by unfold SameAnonymized; infer_instance

/-- Test of two messages, if nothing is excluded. -/
def alikeB (f : Bytes → Bytes) : Option NetlinkMessage → Option NetlinkMessage → Bool
  | none, none => true
  | some m, some m' => decide (SameMessage m m') && decide (SameAnonymized f m.data m'.data)
  | _, _ => false

/-- Test of two polls, if nothing is excluded. -/
def alikeBlocksB (f : Bytes → Bytes) (b c : MessageBlock) : Bool :=
  decide (b.v4Time = c.v4Time) && decide (b.v6Time = c.v6Time) && decide (b.v4Messages.length = c.v4Messages.length)
    && decide (b.v6Messages.length = c.v6Messages.length) && (b.v4Messages.zip c.v4Messages).all (fun p => alikeB f p.1 p.2)
    && (b.v6Messages.zip c.v6Messages).all (fun p => alikeB f p.1 p.2)

theorem alikeB_ok {f : Bytes → Bytes} {m m' : Option NetlinkMessage} (h : alikeB f m m' = true) : Alike f none m m' := by
  cases m <;> cases m' <;> first | exact trivial | cases h | skip
  simp only [alikeB, Bool.and_eq_true, decide_eq_true_eq] at h
  exact ⟨h.1, h.2, ⟨fun ⟨_, e, _⟩ => (by cases e), fun ⟨_, e, _⟩ => (by cases e)⟩⟩

theorem alikeBlocksB_ok {f : Bytes → Bytes} {b c : MessageBlock} (h : alikeBlocksB f b c = true) : AlikeBlocks f none b c := by
  simp only [alikeBlocksB, Bool.and_eq_true, decide_eq_true_eq, List.all_eq_true] at h
  exact ⟨h.1.1.1.1.1, h.1.1.1.1.2, h.1.1.1.2, h.1.1.2, fun p hp => alikeB_ok (h.1.2 p hp), fun p hp => alikeB_ok (h.2 p hp)⟩

/-- The message of a connection from 10.1.2.`last`. -/
def fromHost (last : UInt8) (m : Option NetlinkMessage) : Option NetlinkMessage := m.map (fun m => { m with data := m.data.set 11 last })

/-- Three polls that show a connection from 10.1.2.`last`. -/
def hostBlocks (last : UInt8) : List MessageBlock :=
  [exBlock 1 [fromHost last (exMsg 1 5 0), exMsg 2 1 0], exBlock 2 [fromHost last (exMsg 1 6 0), exMsg 2 1 0], exBlock 3 [exMsg 2 1 9]]

-- non-vacuity: connections from 10.1.2.3 and from 10.1.2.99, both anonymized to 10.1.2.0; three records are saved, and the raw messages differ
example : (∀ p ∈ (hostBlocks 3).zip (hostBlocks 99), AlikeBlocks exAnon.f exEnv.exclude p.1 p.2) ∧ hostBlocks 3 ≠ hostBlocks 99
    ∧ (∀ b ∈ hostBlocks 3 ++ hostBlocks 99, AllInfoOK none b) ∧ (runSaver exEnv (hostBlocks 99)).map (fun s => (written s.trace).length) = some 3 := by
  refine ⟨?_, by decide +kernel, ?_, by decide +kernel⟩
  · have : ((hostBlocks 3).zip (hostBlocks 99)).all (fun p => alikeBlocksB exAnon.f p.1 p.2) = true := by decide +kernel
    exact fun p hp => alikeBlocksB_ok (List.all_eq_true.1 this p hp)
  · show ∀ b ∈ hostBlocks 3 ++ hostBlocks 99, ∀ r ∈ reports none b, InfoOK r
    decide +kernel

/-- A poll as it lies in the receive buffer: a message that ends with a tcp_info of only 104 bytes (as sent by kernels before 4.1), then the 16 byte netlink
header and the payload of the message of a connection from 10.1.2.`last`. -/
def besideHost (t : Int) (last : UInt8) : MessageBlock :=
  let next := fromHost last (exMsg 2 1 0)
  exBlock t [(exMsgA 1 ([108, 0, 2, 0] ++ List.replicate 104 0)).map (fun m => { m with spare := List.replicate 16 0 ++ (next.map (·.data)).getD [] }), next]

/-- C119 violated by a short tcp_info: it is compared together with the bytes that follow it in the receive buffer, which hold the address of the next
connection. The two daemons see the same connections, except that in the second poll a connection comes from 10.1.2.99 instead of 10.1.2.3; both addresses
are anonymized to 10.1.2.0. The one daemon saves two records, the other three: the archive tells whether the address has changed. -/
theorem C119_violated : ∃ bs cs : List MessageBlock, bs.length = cs.length ∧ (∀ p ∈ bs.zip cs, AlikeBlocks exAnon.f exEnv.exclude p.1 p.2)
    ∧ (runSaver exEnv bs).map (fun s => (written s.trace).length) = some 2 ∧ (runSaver exEnv cs).map (fun s => (written s.trace).length) = some 3 := by
  refine ⟨[besideHost 1 3, besideHost 2 3], [besideHost 1 3, besideHost 2 99], rfl, ?_, by decide +kernel, by decide +kernel⟩
  have : ([besideHost 1 3, besideHost 2 3].zip [besideHost 1 3, besideHost 2 99]).all (fun p => alikeBlocksB exAnon.f p.1 p.2) = true := by decide +kernel
  exact fun p hp => alikeBlocksB_ok (List.all_eq_true.1 this p hp)

end TcpInfo
