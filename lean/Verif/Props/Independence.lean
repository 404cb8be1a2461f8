import Verif.Props.Subscriber
import Verif.Props.SaverInput
/-!
# C117: connections do not influence each other
-/

namespace TcpInfo
open Spec
open EventSocket (expected)

/-- The reports of connection `k` in a block, in order, with their times. -/
def reportsOf (ex : Option ExcludeConfig) (k : UInt64) (b : MessageBlock) : List ArchivalRecord := (reports ex b).filter (fun r => decide (ck r = k))

/-- A note without the addresses: the time of an opening, `none` for a closing. -/
def noteTime : Note → Option Int
  | .opened t _ => some t
  | .closed => none

/-! ## Histories of one connection -/

/-- The call is an update of `k` or the end of a cycle. -/
def concerns (k : UInt64) : Call → Bool
  | .update r => decide (ck r = k)
  | .endCycle => true

/-- The part of a history that concerns `k`. -/
def proj (k : UInt64) (h : List Call) : List Call := h.filter (concerns k)

theorem proj_own (k : UInt64) (h : List Call) (r : ArchivalRecord) (hk : ck r = k) : proj k (h ++ [.update r]) = proj k h ++ [.update r] := by
  simp [proj, List.filter_append, List.filter, concerns, hk]

theorem proj_other (k : UInt64) (h : List Call) (r : ArchivalRecord) (hk : ck r ≠ k) : proj k (h ++ [.update r]) = proj k h := by
  simp [proj, List.filter_append, List.filter, concerns, hk]

theorem proj_end (k : UInt64) (h : List Call) : proj k (h ++ [.endCycle]) = proj k h ++ [.endCycle] := by
  simp [proj, List.filter_append, List.filter, concerns]

theorem proj_cycles (k : UInt64) (h : List Call) :
    (cycles (proj k h)).1 = (cycles h).1.filter (fun r => decide (ck r = k)) ∧ (cycles (proj k h)).2 = (cycles h).2.filter (fun r => decide (ck r = k)) := by
  refine snoc_induction (P := fun h => (cycles (proj k h)).1 = (cycles h).1.filter (fun r => decide (ck r = k))
    ∧ (cycles (proj k h)).2 = (cycles h).2.filter (fun r => decide (ck r = k))) ⟨rfl, rfl⟩ ?_ h
  intro h c ih
  cases c with
  | endCycle => rw [proj_end, cycles_endCycle, cycles_endCycle]; exact ⟨ih.2, rfl⟩
  | update r =>
    by_cases hk : ck r = k
    · rw [proj_own k h r hk, cycles_update, cycles_update]
      refine ⟨ih.1, ?_⟩
      by_cases hc : complete r = true
      · simp [hc, ih.2, List.filter_append, List.filter, hk]
      · simp [hc, ih.2]
    · rw [proj_other k h r hk, cycles_update]
      refine ⟨ih.1, ?_⟩
      by_cases hc : complete r = true
      · simp [hc, ih.2, List.filter_append, List.filter, hk]
      · simp [hc, ih.2]

theorem proj_lastFor (k : UInt64) (h : List Call) :
    lastFor k (cycles (proj k h)).1 = lastFor k (cycles h).1 ∧ lastFor k (cycles (proj k h)).2 = lastFor k (cycles h).2 := by
  obtain ⟨h1, h2⟩ := proj_cycles k h
  unfold lastFor
  rw [h1, h2, List.filter_filter, List.filter_filter]
  simp

theorem proj_due (h : List Call) (r : ArchivalRecord) : Due (proj (ck r) h) r ↔ Due h r := by
  have e : reference (proj (ck r) h) r = reference h r := by
    obtain ⟨h1, h2⟩ := proj_lastFor (ck r) h
    show (if lastFor (ck r) (cycles (proj (ck r) h)).2 = none then lastFor (ck r) (cycles (proj (ck r) h)).1 else none)
      = (if lastFor (ck r) (cycles h).2 = none then lastFor (ck r) (cycles h).1 else none)
    rw [h1, h2]
  unfold Due
  rw [e]

theorem proj_saved (k : UInt64) {h : List Call} {out : List ArchivalRecord} (hs : SavedFor h out) :
    SavedFor (proj k h) (out.filter (fun r => decide (ck r = k))) := by
  induction hs with
  | nil => exact .nil
  | @due h out r _ hd ih =>
    by_cases hk : ck r = k
    · rw [proj_own k h r hk, List.filter_append]
      subst hk
      have e : [r].filter (fun x => decide (ck x = ck r)) = [r] := by simp [List.filter]
      rw [e]
      exact .due ih ((proj_due h r).2 hd)
    · rw [proj_other k h r hk, List.filter_append]
      have e : [r].filter (fun x => decide (ck x = k)) = [] := by simp [List.filter, hk]
      rw [e, List.append_nil]
      exact ih
  | @same h out r _ hd ih =>
    by_cases hk : ck r = k
    · rw [proj_own k h r hk]
      subst hk
      exact .same ih (fun x => hd ((proj_due h r).1 x))
    · rw [proj_other k h r hk]; exact ih
  | endCycle _ ih => rw [proj_end]; exact .endCycle ih

theorem proj_notes (k : UInt64) {h : List Call} {out : List Note} (hs : NotesFor k h out) : NotesFor k (proj k h) out := by
  induction hs with
  | nil => exact .nil
  | @first h out r id _ hk h1 h2 hn ih =>
    rw [proj_own k h r hk]
    exact .first ih hk ((proj_lastFor k h).1 ▸ h1) ((proj_lastFor k h).2 ▸ h2) hn
  | @again h out r _ hk h1 ih =>
    rw [proj_own k h r hk]
    refine .again ih hk ?_
    rw [(proj_lastFor k h).1, (proj_lastFor k h).2]; exact h1
  | @other h out r _ hk ih => rw [proj_other k h r hk]; exact ih
  | @gone h out _ h1 h2 ih =>
    rw [proj_end]
    refine .gone ih ?_ ?_
    · rw [(proj_lastFor k h).1]; exact h1
    · rw [(proj_lastFor k h).2]; exact h2
  | @stays h out _ h1 ih =>
    rw [proj_end]
    refine .stays ih ?_
    rw [(proj_lastFor k h).1, (proj_lastFor k h).2]; exact h1

/-- Up to the addresses, the notes are determined by the history. -/
theorem notesFor_unique {k : UInt64} {h : List Call} {a b : List Note} (ha : NotesFor k h a) (hb : NotesFor k h b) : a.map noteTime = b.map noteTime := by
  have key : ∀ {h a}, NotesFor k h a → ∀ h' b, h' = h → NotesFor k h' b → a.map noteTime = b.map noteTime := by
    intro h a ha
    induction ha with
    | nil => intro h' b e hb; cases hb <;> simp at e ⊢
    | first _ hk h1 h2 _ ih =>
      intro h' b e hb
      cases hb with
      | nil => simp at e
      | first hx hk' h1' h2' _ =>
        obtain ⟨e1, e2⟩ := List.append_inj' e rfl
        simp only [List.cons.injEq, Call.update.injEq, and_true] at e2
        rw [List.map_append, List.map_append, ih _ _ e1 hx, e2]; rfl
      | again hx hk' h1' =>
        obtain ⟨e1, e2⟩ := List.append_inj' e rfl
        subst e1
        rcases h1' with h1' | h1'
        · exact absurd h1 h1'
        · exact absurd h2 h1'
      | other hx hk' =>
        obtain ⟨e1, e2⟩ := List.append_inj' e rfl
        simp only [List.cons.injEq, Call.update.injEq, and_true] at e2
        subst e2
        exact absurd hk hk'
      | gone hx _ _ => obtain ⟨e1, e2⟩ := List.append_inj' e rfl; simp at e2
      | stays hx _ => obtain ⟨e1, e2⟩ := List.append_inj' e rfl; simp at e2
    | again _ hk h1 ih =>
      intro h' b e hb
      cases hb with
      | nil => simp at e
      | first hx hk' h1' h2' _ =>
        obtain ⟨e1, e2⟩ := List.append_inj' e rfl
        subst e1
        rcases h1 with h1 | h1
        · exact absurd h1' h1
        · exact absurd h2' h1
      | again hx _ _ => obtain ⟨e1, -⟩ := List.append_inj' e rfl; exact ih _ _ e1 hx
      | other hx _ => obtain ⟨e1, -⟩ := List.append_inj' e rfl; exact ih _ _ e1 hx
      | gone hx _ _ => obtain ⟨e1, e2⟩ := List.append_inj' e rfl; simp at e2
      | stays hx _ => obtain ⟨e1, e2⟩ := List.append_inj' e rfl; simp at e2
    | other _ hk ih =>
      intro h' b e hb
      cases hb with
      | nil => simp at e
      | first hx hk' h1' h2' _ =>
        obtain ⟨e1, e2⟩ := List.append_inj' e rfl
        simp only [List.cons.injEq, Call.update.injEq, and_true] at e2
        subst e2
        exact absurd hk' hk
      | again hx _ _ => obtain ⟨e1, -⟩ := List.append_inj' e rfl; exact ih _ _ e1 hx
      | other hx _ => obtain ⟨e1, -⟩ := List.append_inj' e rfl; exact ih _ _ e1 hx
      | gone hx _ _ => obtain ⟨e1, e2⟩ := List.append_inj' e rfl; simp at e2
      | stays hx _ => obtain ⟨e1, e2⟩ := List.append_inj' e rfl; simp at e2
    | gone _ h1 h2 ih =>
      intro h' b e hb
      cases hb with
      | nil => simp at e
      | first hx _ _ _ _ => obtain ⟨e1, e2⟩ := List.append_inj' e rfl; simp at e2
      | again hx _ _ => obtain ⟨e1, e2⟩ := List.append_inj' e rfl; simp at e2
      | other hx _ => obtain ⟨e1, e2⟩ := List.append_inj' e rfl; simp at e2
      | gone hx _ _ => obtain ⟨e1, -⟩ := List.append_inj' e rfl; rw [List.map_append, List.map_append, ih _ _ e1 hx]
      | stays hx h1' =>
        obtain ⟨e1, -⟩ := List.append_inj' e rfl
        subst e1
        rcases h1' with h1' | h1'
        · exact absurd h1' h1
        · exact absurd h2 h1'
    | stays _ h1 ih =>
      intro h' b e hb
      cases hb with
      | nil => simp at e
      | first hx _ _ _ _ => obtain ⟨e1, e2⟩ := List.append_inj' e rfl; simp at e2
      | again hx _ _ => obtain ⟨e1, e2⟩ := List.append_inj' e rfl; simp at e2
      | other hx _ => obtain ⟨e1, e2⟩ := List.append_inj' e rfl; simp at e2
      | gone hx h1' h2' =>
        obtain ⟨e1, -⟩ := List.append_inj' e rfl
        subst e1
        rcases h1 with h1 | h1
        · exact absurd h1 h1'
        · exact absurd h2' h1
      | stays hx _ => obtain ⟨e1, -⟩ := List.append_inj' e rfl; exact ih _ _ e1 hx
  exact key ha h b rfl hb

theorem proj_history (ex : Option ExcludeConfig) (k : UInt64) (bs : List MessageBlock) :
    proj k (history ex bs) = (bs.map (reportsOf ex k)).flatMap (fun rs => rs.map .update ++ [.endCycle]) := by
  induction bs with
  | nil => rfl
  | cons b bs ih =>
    have e : history ex (b :: bs) = ((reports ex b).map .update ++ [.endCycle]) ++ history ex bs := by simp [history]
    have e2 : ∀ rs : List ArchivalRecord, proj k (rs.map .update ++ [.endCycle]) = (rs.filter (fun r => decide (ck r = k))).map .update ++ [.endCycle] := by
      intro rs
      unfold proj
      rw [List.filter_append, List.filter_map]
      rfl
    rw [e]
    unfold proj at ih e2 ⊢
    rw [List.filter_append, ih, e2]
    rfl

/-! ## C117 -/

/-- C117 (partial: files can be created, no cookie is 0, and neither process crashes; see `C117_violated`). Two daemons with different clocks, numbers of
marshallers and other settings are given different polls; but poll by poll the reports of connection `k` are the same. Then the records of `k` queued for
writing are the same, in the same order, whatever other connections there are. -/
theorem C117_saved_partial (env env' : Env) (hf : NoFaults env) (hf' : NoFaults env') (hv : ViewOK env) (hv' : ViewOK env') (bs bs' : List MessageBlock)
    (hI : ∀ b ∈ bs, AllInfoOK env.exclude b) (hI' : ∀ b ∈ bs', AllInfoOK env'.exclude b)
    (hz : ∀ b ∈ bs, ∀ r ∈ reports env.exclude b, ck r ≠ 0) (hz' : ∀ b ∈ bs', ∀ r ∈ reports env'.exclude b, ck r ≠ 0)
    (s s' : Saver) (h : runSaver env bs = some s) (h' : runSaver env' bs' = some s') (k : UInt64)
    (same : bs.map (reportsOf env.exclude k) = bs'.map (reportsOf env'.exclude k)) :
    (written s.trace).filter (fun r => decide (ck r = k)) = (written s'.trace).filter (fun r => decide (ck r = k)) := by
  have h1 := proj_saved k (C32_saved env hf hv bs hI hz s h)
  have h2 := proj_saved k (C32_saved env' hf' hv' bs' hI' hz' s' h')
  rw [proj_history, same, ← proj_history] at h1
  exact savedFor_unique h1 h2

/-- C117 (partial, as above). And it is announced and declared closed as often, in the same order, and each time it is announced with the same time. -/
theorem C117_events_partial (env env' : Env) (hf : NoFaults env) (hf' : NoFaults env') (hv : ViewOK env) (hv' : ViewOK env') (bs bs' : List MessageBlock)
    (hI : ∀ b ∈ bs, AllInfoOK env.exclude b) (hI' : ∀ b ∈ bs', AllInfoOK env'.exclude b)
    (hz : ∀ b ∈ bs, ∀ r ∈ reports env.exclude b, ck r ≠ 0) (hz' : ∀ b ∈ bs', ∀ r ∈ reports env'.exclude b, ck r ≠ 0)
    (s s' : Saver) (h : runSaver env bs = some s) (h' : runSaver env' bs' = some s') (k : UInt64)
    (same : bs.map (reportsOf env.exclude k) = bs'.map (reportsOf env'.exclude k)) :
    (notesOf (env.uuid k) ((saverEvents s.trace).filterMap expected)).map noteTime
      = (notesOf (env'.uuid k) ((saverEvents s'.trace).filterMap expected)).map noteTime := by
  obtain ⟨o1, n1, e1⟩ := C66_events_partial env hf hv bs hI hz s h k
  obtain ⟨o2, n2, e2⟩ := C66_events_partial env' hf' hv' bs' hI' hz' s' h' k
  rw [e1, e2]
  have hp : proj k (history env.exclude bs) = proj k (history env'.exclude bs') := by rw [proj_history, same, ← proj_history]
  have hl : lastFor k (cycles (history env.exclude bs)).1 = lastFor k (cycles (history env'.exclude bs')).1 := by
    rw [← (proj_lastFor k _).1, hp, (proj_lastFor k _).1]
  have n1' := proj_notes k n1
  rw [hp] at n1'
  rw [List.map_append, List.map_append, notesFor_unique n1' (proj_notes k n2), hl]

theorem same_of_perm (k : UInt64) {l l' : List ArchivalRecord} (hp : l.Perm l') (h1 : (l.filter (fun r => decide (ck r = k))).length ≤ 1) :
    l.filter (fun r => decide (ck r = k)) = l'.filter (fun r => decide (ck r = k)) := by
  have hq := hp.filter (fun r => decide (ck r = k))
  revert h1 hq
  generalize l.filter (fun r => decide (ck r = k)) = a
  generalize l'.filter (fun r => decide (ck r = k)) = b
  intro h1 hq
  match a, h1 with
  | [], _ => exact hq.nil_eq
  | [x], _ => exact List.singleton_perm.1 hq

/-- C117 (partial, as above). The order in which the kernel lists the connections of a poll, and whether it does so in its answer for IPv4 or for IPv6, plays no
part: if poll by poll the same reports come in different orders, and `k` is reported at most once by each poll, then its records are the same. -/
theorem C117_order_partial (env env' : Env) (hf : NoFaults env) (hf' : NoFaults env') (hv : ViewOK env) (hv' : ViewOK env') (bs bs' : List MessageBlock)
    (hI : ∀ b ∈ bs, AllInfoOK env.exclude b) (hI' : ∀ b ∈ bs', AllInfoOK env'.exclude b)
    (hz : ∀ b ∈ bs, ∀ r ∈ reports env.exclude b, ck r ≠ 0) (hz' : ∀ b ∈ bs', ∀ r ∈ reports env'.exclude b, ck r ≠ 0)
    (s s' : Saver) (h : runSaver env bs = some s) (h' : runSaver env' bs' = some s') (hl : bs.length = bs'.length)
    (hp : ∀ p ∈ bs.zip bs', (reports env.exclude p.1).Perm (reports env'.exclude p.2)) (k : UInt64)
    (once : ∀ b ∈ bs, (reportsOf env.exclude k b).length ≤ 1) :
    (written s.trace).filter (fun r => decide (ck r = k)) = (written s'.trace).filter (fun r => decide (ck r = k)) := by
  refine C117_saved_partial env env' hf hf' hv hv' bs bs' hI hI' hz hz' s s' h h' k ?_
  clear h h' hI hI' hz hz'
  induction bs generalizing bs' with
  | nil => cases bs' with
    | nil => rfl
    | cons _ _ => simp at hl
  | cons b bs ih =>
    cases bs' with
    | nil => simp at hl
    | cons b' bs' =>
      rw [List.map_cons, List.map_cons, ih bs' (by simpa using hl) (fun p hp' => hp p (by simp [hp'])) (fun b hb => once b (by simp [hb]))]
      congr 1
      exact same_of_perm k (hp (b, b') (by simp)) (once b (by simp))

-- non-vacuity: connection 1 alone, and among two others in another order, with other clocks
example : ((runSaver exEnv [exBlock 1 [exMsg 1 0 1], exBlock 2 [exMsg 1 5 1], exBlock 3 []]).map (fun s => (written s.trace).map ck)) = some [1, 1]
    ∧ ((runSaver (exEnvWith 7 [] 3) [exBlock 1 [exMsg 2 0 1, exMsg 1 0 1], exBlock 2 [exMsg 3 0 1, exMsg 1 5 1, exMsg 2 3 1], exBlock 3 [exMsg 3 0 1]]).map
        (fun s => (written s.trace).map ck)) = some [2, 1, 3, 1, 2]
    ∧ [exBlock 1 [exMsg 1 0 1], exBlock 2 [exMsg 1 5 1], exBlock 3 []].map (reportsOf none 1)
      = [exBlock 1 [exMsg 2 0 1, exMsg 1 0 1], exBlock 2 [exMsg 3 0 1, exMsg 1 5 1, exMsg 2 3 1], exBlock 3 [exMsg 3 0 1]].map (reportsOf none 1) := by
  decide +kernel

example : NoFaults (exEnvWith 7 [] 3) ∧ ViewOK (exEnvWith 7 [] 3)
    ∧ ∀ b ∈ [exBlock 1 [exMsg 2 0 1, exMsg 1 0 1], exBlock 2 [exMsg 3 0 1, exMsg 1 5 1, exMsg 2 3 1], exBlock 3 [exMsg 3 0 1]],
      ∀ r ∈ reports none b, InfoOK r ∧ ck r ≠ 0 :=
  ⟨⟨fun _ => rfl, by decide⟩, fun _ _ => ⟨rfl, rfl, ⟨rfl, rfl, rfl⟩, rfl⟩, by decide +kernel⟩

-- two orders of the same reports
example : (reports none (exBlock 1 [exMsg 2 0 1, exMsg 1 0 1, exMsg 3 4 1])).Perm (reports none (exBlock 1 [exMsg 3 4 1, exMsg 2 0 1, exMsg 1 0 1]))
    ∧ (reportsOf none 1 (exBlock 1 [exMsg 2 0 1, exMsg 1 0 1, exMsg 3 4 1])).length = 1 := by
  refine ⟨?_, by decide +kernel⟩
  have : reports none (exBlock 1 [exMsg 3 4 1, exMsg 2 0 1, exMsg 1 0 1])
      = (reports none (exBlock 1 [exMsg 2 0 1, exMsg 1 0 1, exMsg 3 4 1])).drop 2 ++ (reports none (exBlock 1 [exMsg 2 0 1, exMsg 1 0 1, exMsg 3 4 1])).take 2 := by
    decide +kernel
  rw [this]
  exact (List.perm_append_comm.trans (by rw [List.take_append_drop])).symm

/-- C117 violated: the reports of connection 1 are the same, but a report of connection 3 that cannot be parsed takes the whole process down, so that of
connection 1 nothing more is recorded. -/
theorem C117_violated : ∃ bs bs' : List MessageBlock, bs.map (reportsOf exEnv.exclude 1) = bs'.map (reportsOf exEnv.exclude 1)
    ∧ ((runSaver exEnv bs).map (fun s => ((written s.trace).filter (fun r => decide (ck r = 1))).length)) = some 2
    ∧ runSaver exEnv bs' = none :=
  ⟨[exBlock 1 [exMsg 1 0 1], exBlock 2 [exMsg 1 5 1]], [exBlock 1 [exMsg 1 0 1, exMsgA 3 [5, 0, 1, 0, 42]], exBlock 2 [exMsg 1 5 1]], by decide +kernel⟩

end TcpInfo
