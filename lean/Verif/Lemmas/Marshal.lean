import Verif.Spec.Marshal
import Verif.Lemmas.SaverFiles
/-!
# Interleavings of the saver and the marshallers
-/

namespace TcpInfo
open Spec

/-- What executing a task does to writer `w`. -/
def taskOps (me : MEnv) (w : Nat) (t : Task) : List FileOp :=
  if t.writer = some w then
    match t.message with
    | none => [.close]
    | some r => match anonymizeRecord me.anon r with
      | none => []
      | some r' => [.data (me.json r'), .data nl]
  else []

/-- What an action of the saver eventually does to writer `w`. -/
def actOps (me : MEnv) (w : Nat) : Action → List FileOp
  | .openFile w' _ h => if w' = w then [.data (me.json h), .data nl] else []
  | .send _ t => taskOps me w t
  | _ => []

/-- What a marshaller at `pc` still does to `w` before it is idle. -/
def pcOps (me : MEnv) (w : Nat) : PC → List FileOp
  | .got t => taskOps me w t
  | .write1 w' b => if w' = w then [.data b, .data nl] else []
  | .write2 w' => if w' = w then [.data nl] else []
  | _ => []

/-- What a marshaller still does to `w`. -/
def pend (me : MEnv) (w : Nat) (wk : Worker) : List FileOp := pcOps me w wk.pc ++ wk.queue.flatMap (taskOps me w)

/-- The same for the marshaller with index `i`. -/
def pendAt (me : MEnv) (w : Nat) (ws : List Worker) (i : Nat) : List FileOp := ((ws[i]?).map (pend me w)).getD []

/-- Task for a writer that belongs to marshaller `i`. -/
def TaskAt (home : Nat → Nat) (i : Nat) (t : Task) : Prop := ∃ w, t.writer = some w ∧ home w = i

def PCAt (home : Nat → Nat) (i : Nat) : PC → Prop
  | .got t => TaskAt home i t
  | .write1 w _ => home w = i
  | .write2 w => home w = i
  | _ => True

/-- Well-formed saver program for `n` marshallers: every writer's tasks go to one marshaller, a writer is opened before anything else, the channels are
closed at the very end and only there. -/
structure ProgOK (n : Nat) (home : Nat → Nat) (prog : List Action) : Prop where
  tasks : ∀ q t, Action.send q t ∈ prog → q < n ∧ TaskAt home q t
  first : ∀ a b w nm h, prog = a ++ Action.openFile w nm h :: b → ∀ me, a.flatMap (actOps me w) = []
  ends : ∃ p, prog = p ++ [.closeChans] ∧ .closeChans ∉ p

def PC.exitedB : PC → Bool
  | .exited => true
  | _ => false

/-- Number of marshallers that have not finished. -/
def running (ws : List Worker) : Nat := (ws.map (fun wk => if wk.pc.exitedB then 0 else 1)).sum

structure MInv (me : MEnv) (n : Nat) (home : Nat → Nat) (prog : List Action) (done : List Action) (st : MState) : Prop where
  split : prog = done ++ st.rem
  len : st.workers.length = n
  files : ∀ w, st.files w ++ pendAt me w st.workers (home w) = done.flatMap (actOps me w)
  tasks : ∀ i wk, st.workers[i]? = some wk → (∀ t ∈ wk.queue, TaskAt home i t) ∧ PCAt home i wk.pc
  crash : st.crashed = false
  closed : st.closed = true ↔ .closeChans ∈ done
  wg : st.wg = running st.workers + (if st.closed then 0 else 1)
  exited : ∀ wk ∈ st.workers, wk.pc = .exited → wk.queue = [] ∧ st.closed = true

theorem pendAt_set_ne (me : MEnv) (w : Nat) (ws : List Worker) (i j : Nat) (wk : Worker) (h : j ≠ i) :
    pendAt me w (ws.set i wk) j = pendAt me w ws j := by
  unfold pendAt; rw [List.getElem?_set_ne (by omega)]

theorem pendAt_set_eq (me : MEnv) (w : Nat) (ws : List Worker) (i : Nat) (wk wk0 : Worker) (h : ws[i]? = some wk0) :
    pendAt me w (ws.set i wk) i = pend me w wk := by
  unfold pendAt
  have : i < ws.length := by
    rcases Nat.lt_or_ge i ws.length with h1 | h1
    · exact h1
    · rw [List.getElem?_eq_none h1] at h; simp at h
  rw [List.getElem?_set_self this]; rfl

theorem pendAt_eq (me : MEnv) (w : Nat) (ws : List Worker) (i : Nat) (wk0 : Worker) (h : ws[i]? = some wk0) :
    pendAt me w ws i = pend me w wk0 := by
  unfold pendAt; rw [h]; rfl

theorem sum_set (f : Worker → Nat) (ws : List Worker) (i : Nat) (wk wk0 : Worker) (h : ws[i]? = some wk0) :
    ((ws.set i wk).map f).sum + f wk0 = (ws.map f).sum + f wk := by
  induction ws generalizing i with
  | nil => simp at h
  | cons a ws ih =>
    cases i with
    | zero => simp at h; subst h; simp; omega
    | succ i =>
      simp only [List.getElem?_cons_succ] at h
      have := ih i h
      simp only [List.set_cons_succ, List.map_cons, List.sum_cons]
      omega

theorem running_set (ws : List Worker) (i : Nat) (wk wk0 : Worker) (h : ws[i]? = some wk0) :
    running (ws.set i wk) + (if wk0.pc.exitedB then 0 else 1) = running ws + (if wk.pc.exitedB then 0 else 1) :=
  sum_set (fun wk => if wk.pc.exitedB then 0 else 1) ws i wk wk0 h

theorem tasks_set {home : Nat → Nat} {ws : List Worker} {i : Nat} {wk : Worker}
    (h : ∀ i wk, ws[i]? = some wk → (∀ t ∈ wk.queue, TaskAt home i t) ∧ PCAt home i wk.pc)
    (hw : (∀ t ∈ wk.queue, TaskAt home i t) ∧ PCAt home i wk.pc) :
    ∀ j wk', (ws.set i wk)[j]? = some wk' → (∀ t ∈ wk'.queue, TaskAt home j t) ∧ PCAt home j wk'.pc := by
  intro j wk' hj
  rw [List.getElem?_set] at hj
  by_cases hij : i = j
  · subst hij
    rw [if_pos rfl] at hj
    split at hj
    · injection hj with hj; subst hj; exact hw
    · simp at hj
  · rw [if_neg hij] at hj; exact h j wk' hj

theorem exited_set {ws : List Worker} {i : Nat} {wk : Worker} {cl cl' : Bool}
    (h : ∀ wk ∈ ws, wk.pc = .exited → wk.queue = [] ∧ cl = true) (hc : cl = true → cl' = true)
    (hw : wk.pc = .exited → wk.queue = [] ∧ cl' = true) :
    ∀ wk' ∈ ws.set i wk, wk'.pc = .exited → wk'.queue = [] ∧ cl' = true := by
  intro wk' hm he
  rcases List.mem_or_eq_of_mem_set hm with hm | rfl
  · exact ⟨(h wk' hm he).1, hc (h wk' hm he).2⟩
  · exact hw he

/-- A change of one marshaller and of the files that leaves the total effect on each writer as it was. -/
theorem minv_worker {me : MEnv} {n : Nat} {home : Nat → Nat} {prog done : List Action} {st : MState} (hi : MInv me n home prog done st)
    {i : Nat} {wk0 wk : Worker} (h0 : st.workers[i]? = some wk0) {files : Nat → List FileOp}
    (hf1 : ∀ w, home w ≠ i → files w = st.files w)
    (hf2 : ∀ w, home w = i → files w ++ pend me w wk = st.files w ++ pend me w wk0)
    (ht : (∀ t ∈ wk.queue, TaskAt home i t) ∧ PCAt home i wk.pc)
    (hx : wk.pc = .exited → wk.queue = [] ∧ st.closed = true) (hx0 : wk0.pc ≠ .exited)
    {wg : Nat} (hwg : wg = if wk.pc.exitedB then st.wg - 1 else st.wg) :
    MInv me n home prog done { st with workers := st.workers.set i wk, files := files, wg := wg } where
  split := hi.split
  len := by simpa using hi.len
  files := by
    intro w
    by_cases hw : home w = i
    · rw [← hi.files w]
      show files w ++ pendAt me w (st.workers.set i wk) (home w) = _
      rw [hw, pendAt_set_eq me w _ i wk wk0 h0, pendAt_eq me w _ i wk0 h0]
      exact hf2 w hw
    · rw [← hi.files w]
      show files w ++ pendAt me w (st.workers.set i wk) (home w) = _
      rw [pendAt_set_ne me w _ i _ wk hw, hf1 w hw]
  tasks := tasks_set hi.tasks ht
  crash := hi.crash
  closed := hi.closed
  wg := by
    have h1 := running_set st.workers i wk wk0 h0
    have h2 : wk0.pc.exitedB = false := by
      cases h : wk0.pc <;> first | rfl | exact absurd h hx0
    rw [h2] at h1
    have h3 := hi.wg
    show wg = running (st.workers.set i wk) + if st.closed then 0 else 1
    rw [hwg]
    cases hb : wk.pc.exitedB <;> rw [hb] at h1 <;> simp at h1 ⊢ <;> omega
  exited := exited_set hi.exited id hx

theorem minv_workerStep {me : MEnv} {n : Nat} {home : Nat → Nat} {prog done : List Action} {st st' : MState} (hi : MInv me n home prog done st)
    (i : Nat) (h : st.workerStep me i = some st') : MInv me n home prog done st' := by
  unfold MState.workerStep at h
  cases hw : st.workers[i]? with
  | none => rw [hw] at h; simp at h
  | some wk =>
    rw [hw] at h
    obtain ⟨q, pc⟩ := wk
    have hq := (hi.tasks i _ hw).1
    have hp := (hi.tasks i _ hw).2
    simp only at h hq hp
    cases pc with
    | idle =>
      simp only at h
      cases q with
      | nil =>
        simp only at h
        split at h
        · rename_i hc
          injection h with h; subst h
          exact minv_worker hi hw (wk := ⟨[], .exited⟩) (fun _ _ => rfl) (fun w _ => by simp [pend, pcOps])
            ⟨by simp, trivial⟩ (fun _ => ⟨rfl, hc⟩) (by simp) (by simp [PC.exitedB])
        · simp at h
      | cons t ts =>
        simp only at h
        injection h with h; subst h
        exact minv_worker hi hw (wk := ⟨ts, .got t⟩) (fun _ _ => rfl) (fun w _ => by simp [pend, pcOps])
            ⟨fun t' ht' => hq t' (by simp [ht']), hq t (by simp)⟩ (by simp) (by simp) (by simp [PC.exitedB])
    | got t =>
      obtain ⟨m, wr⟩ := t
      obtain ⟨w, hw1, hw2⟩ := hp
      simp only at hw1
      subst hw1
      cases m with
      | none =>
        simp only at h
        injection h with h; subst h
        refine minv_worker hi hw (wk := ⟨q, .idle⟩) (fun w' hw' => ?_) (fun w' _ => ?_) ⟨hq, trivial⟩ (by simp) (by simp) (by simp [PC.exitedB])
        · exact if_neg (fun e => hw' (by rw [show w' = w from e]; exact hw2))
        · by_cases e : w' = w
          · subst e; simp [pend, pcOps, taskOps]
          · simp [pend, pcOps, taskOps, e, Ne.symm e]
      | some r =>
        simp only at h
        cases ha : anonymizeRecord me.anon r with
        | none =>
          rw [ha] at h
          injection h with h; subst h
          refine minv_worker hi hw (wk := ⟨q, .idle⟩) (fun w' hw' => rfl) (fun w' _ => ?_) ⟨hq, trivial⟩ (by simp) (by simp) (by simp [PC.exitedB])
          simp [pend, pcOps, taskOps, ha]
        | some r' =>
          rw [ha] at h
          injection h with h; subst h
          refine minv_worker hi hw (wk := ⟨q, .write1 w (me.json r')⟩) (fun w' hw' => rfl) (fun w' _ => ?_) ⟨hq, hw2⟩ (by simp) (by simp)
            (by simp [PC.exitedB])
          simp [pend, pcOps, taskOps, ha]
    | write1 w b =>
      simp only at h
      injection h with h; subst h
      refine minv_worker hi hw (wk := ⟨q, .write2 w⟩) (fun w' hw' => ?_) (fun w' _ => ?_) ⟨hq, hp⟩ (by simp) (by simp) (by simp [PC.exitedB])
      · exact if_neg (fun e => hw' (by subst e; exact hp))
      · by_cases e : w' = w
        · subst e; simp [pend, pcOps]
        · simp [pend, pcOps, e, Ne.symm e]
    | write2 w =>
      simp only at h
      injection h with h; subst h
      refine minv_worker hi hw (wk := ⟨q, .idle⟩) (fun w' hw' => ?_) (fun w' _ => ?_) ⟨hq, trivial⟩ (by simp) (by simp) (by simp [PC.exitedB])
      · exact if_neg (fun e => hw' (by subst e; exact hp))
      · by_cases e : w' = w
        · subst e; simp [pend, pcOps]
        · simp [pend, pcOps, e, Ne.symm e]
    | exited => simp at h

/-- The channels are still open while the saver has something to do. -/
theorem minv_open {me : MEnv} {n : Nat} {home : Nat → Nat} {prog done : List Action} {st : MState} (hp : ProgOK n home prog)
    (hi : MInv me n home prog done st) (hr : st.rem ≠ []) : st.closed = false := by
  cases hc : st.closed with
  | false => rfl
  | true =>
    obtain ⟨p, he, hn⟩ := hp.ends
    have h1 := hi.closed.1 hc
    have h2 := hi.split
    obtain ⟨r, x, hx⟩ : ∃ r x, st.rem = r ++ [x] := ⟨st.rem.dropLast, st.rem.getLast hr, (List.dropLast_concat_getLast hr).symm⟩
    rw [hx, he, ← List.append_assoc] at h2
    have h3 := List.append_inj_left' h2 rfl
    exact absurd (h3 ▸ List.mem_append_left r h1) hn

/-- An action of the saver that only affects files. -/
theorem minv_rem {me : MEnv} {n : Nat} {home : Nat → Nat} {prog done : List Action} {st : MState} (hi : MInv me n home prog done st)
    {a : Action} {rem : List Action} (hr : st.rem = a :: rem) (hcl : a ≠ .closeChans) {files : Nat → List FileOp}
    (hf : ∀ w, files w ++ pendAt me w st.workers (home w) = done.flatMap (actOps me w) ++ actOps me w a) :
    MInv me n home prog (done ++ [a]) { st with rem := rem, files := files } where
  split := by rw [hi.split, hr]; simp
  len := hi.len
  files := by intro w; rw [List.flatMap_append, List.flatMap_singleton]; exact hf w
  tasks := hi.tasks
  crash := hi.crash
  closed := by rw [List.mem_append, List.mem_singleton]; exact ⟨fun h => Or.inl (hi.closed.1 h), fun h => h.elim hi.closed.2 (fun h => absurd h.symm hcl)⟩
  wg := hi.wg
  exited := hi.exited

theorem minv_saverStep {me : MEnv} {n : Nat} {home : Nat → Nat} {prog done : List Action} {st st' : MState} (hp : ProgOK n home prog)
    (hi : MInv me n home prog done st) (h : st.saverStep me = some st') : ∃ done, MInv me n home prog done st' := by
  unfold MState.saverStep at h
  cases hr : st.rem with
  | nil => rw [hr] at h; simp at h
  | cons a rem =>
    have hop := minv_open hp hi (by rw [hr]; simp)
    rw [hr] at h
    have hother : ∀ w, actOps me w a = [] →
        st.files w ++ pendAt me w st.workers (home w) = done.flatMap (actOps me w) ++ actOps me w a := by
      intro w h; rw [h, List.append_nil]; exact hi.files w
    cases a with
    | openFile w nm hd =>
      simp only at h
      injection h with h; subst h
      refine ⟨_, minv_rem hi hr (by simp) (fun w' => ?_)⟩
      by_cases e : w' = w
      · subst e
        have h1 := hp.first done rem w' nm hd (by rw [hi.split, hr]) me
        have h2 := hi.files w'
        rw [h1] at h2 ⊢
        rw [List.append_eq_nil_iff] at h2
        simp [h2.1, h2.2, actOps]
      · have : actOps me w' (.openFile w nm hd) = [] := by simp [actOps, Ne.symm e]
        rw [← hother w' this]
        simp [e]
    | send q t =>
      simp only at h
      obtain ⟨hq, w, hw1, hw2⟩ := hp.tasks q t (by rw [hi.split, hr]; simp)
      have hlt : q < st.workers.length := by rw [hi.len]; exact hq
      rw [List.getElem?_eq_getElem hlt] at h
      simp only at h
      rw [if_neg (show ¬ st.closed = true by simp [hop])] at h
      split at h
      · injection h with h; subst h
        have h0 : st.workers[q]? = some st.workers[q] := List.getElem?_eq_getElem hlt
        refine ⟨done ++ [.send q t], ?_⟩
        exact
        { split := by rw [hi.split, hr]; simp
          len := by simpa using hi.len
          files := by
            intro w'
            rw [List.flatMap_append, List.flatMap_singleton, ← hi.files w']
            show st.files w' ++ pendAt me w' (st.workers.set q _) (home w') = _
            by_cases e : w' = w
            · subst e
              rw [hw2, pendAt_set_eq me w' _ q _ _ h0, pendAt_eq me w' _ q _ h0]
              simp [pend, actOps]
            · have h1 : actOps me w' (.send q t) = [] := by
                simp only [actOps, taskOps, hw1]
                exact if_neg (by simpa using (Ne.symm e))
              rw [h1, List.append_nil]
              by_cases hh : home w' = q
              · rw [hh, pendAt_set_eq me w' _ q _ _ h0, pendAt_eq me w' _ q _ h0]
                simp only [actOps] at h1
                simp [pend, h1]
              · rw [pendAt_set_ne me w' _ q _ _ hh]
          tasks := by
            refine tasks_set hi.tasks ⟨?_, (hi.tasks q _ h0).2⟩
            intro t' ht'
            rcases List.mem_append.1 ht' with ht' | ht'
            · exact (hi.tasks q _ h0).1 t' ht'
            · rw [List.mem_singleton] at ht'; subst ht'; exact ⟨w, hw1, hw2⟩
          crash := hi.crash
          closed := by
            rw [List.mem_append, List.mem_singleton]
            exact ⟨fun h => Or.inl (hi.closed.1 h), fun h => h.elim hi.closed.2 (fun h => by simp at h)⟩
          wg := by
            have h1 := running_set st.workers q { st.workers[q] with queue := st.workers[q].queue ++ [t] } _ h0
            have h2 := hi.wg
            show st.wg = running (st.workers.set q _) + _
            simp only at h1 h2 ⊢
            omega
          exited := by
            refine exited_set hi.exited id ?_
            intro he
            have := (hi.exited st.workers[q] (List.getElem_mem hlt) he).2
            rw [hop] at this; simp at this }
      · simp at h
    | closeChans =>
      simp only [hop, Bool.false_eq_true, if_false] at h
      injection h with h; subst h
      refine ⟨done ++ [.closeChans], ?_⟩
      exact
      { split := by rw [hi.split, hr]; simp
        len := hi.len
        files := by intro w; rw [List.flatMap_append, List.flatMap_singleton]; exact hother w rfl
        tasks := hi.tasks
        crash := hi.crash
        closed := by simp
        wg := by have := hi.wg; rw [hop] at this; simp at this ⊢; omega
        exited := fun wk hm he => ⟨(hi.exited wk hm he).1, rfl⟩ }
    | flowCreated _ _ _ => injection h with h; subst h; exact ⟨_, minv_rem hi hr (by simp) (fun w => hother w rfl)⟩
    | flowDeleted _ _ => injection h with h; subst h; exact ⟨_, minv_rem hi hr (by simp) (fun w => hother w rfl)⟩
    | observeSent _ => injection h with h; subst h; exact ⟨_, minv_rem hi hr (by simp) (fun w => hother w rfl)⟩
    | observeReceived _ => injection h with h; subst h; exact ⟨_, minv_rem hi hr (by simp) (fun w => hother w rfl)⟩

theorem minv_step {me : MEnv} {n : Nat} {home : Nat → Nat} {prog done : List Action} {st st' : MState} (hp : ProgOK n home prog)
    (hi : MInv me n home prog done st) (c : Choice) (h : st.step me c = some st') : ∃ done, MInv me n home prog done st' := by
  unfold MState.step at h
  rw [hi.crash] at h
  simp only [Bool.false_eq_true, if_false] at h
  cases c with
  | saver => exact minv_saverStep hp hi h
  | worker i => exact ⟨done, minv_workerStep hi i h⟩

theorem running_replicate (n : Nat) : running (List.replicate n ⟨[], .idle⟩) = n := by
  unfold running
  rw [List.map_replicate]
  simp [PC.exitedB]

theorem minv_init (me : MEnv) {n : Nat} (home : Nat → Nat) (prog : List Action) :
    MInv me n home prog [] (mInit prog n) where
  split := rfl
  len := by simp [mInit]
  files := by
    intro w
    simp only [mInit, pendAt, List.getElem?_replicate]
    split <;> simp [pend, pcOps]
  tasks := by
    intro i wk h
    simp only [mInit, List.getElem?_replicate] at h
    split at h
    · injection h with h; subst h; exact ⟨by simp, trivial⟩
    · simp at h
  crash := rfl
  closed := by simp [mInit]
  wg := by simp [mInit, running_replicate]
  exited := by
    intro wk h he
    simp only [mInit] at h
    rw [(List.mem_replicate.1 h).2] at he; simp at he

theorem minv_exec {me : MEnv} {n : Nat} {home : Nat → Nat} {prog : List Action} (hp : ProgOK n home prog) (cs : List Choice) {st st' : MState}
    (hi : ∃ done, MInv me n home prog done st) (h : MState.exec me cs st = some st') : ∃ done, MInv me n home prog done st' := by
  induction cs generalizing st with
  | nil => injection h with h; subst h; exact hi
  | cons c cs ih =>
    unfold MState.exec at h
    cases hs : st.step me c with
    | none => rw [hs] at h; simp at h
    | some st1 =>
      rw [hs] at h
      obtain ⟨done, hi⟩ := hi
      exact ih (minv_step hp hi c hs) h

/-! ## Termination and progress -/

def pcCost : PC → Nat
  | .idle => 1
  | .got _ => 4
  | .write1 _ _ => 3
  | .write2 _ => 2
  | .exited => 0

def workerCost (wk : Worker) : Nat := 5 * wk.queue.length + pcCost wk.pc

/-- Decreases with every step. -/
def cost (st : MState) : Nat := 6 * st.rem.length + (st.workers.map workerCost).sum + (if st.crashed then 0 else 1)

theorem cost_step (me : MEnv) (st st' : MState) (c : Choice) (h : st.step me c = some st') : cost st' < cost st := by
  unfold MState.step at h
  split at h
  · simp at h
  rename_i hc
  have hcr : st.crashed = false := by simpa using hc
  cases c with
  | saver =>
    simp only at h
    unfold MState.saverStep at h
    cases hr : st.rem with
    | nil => rw [hr] at h; simp at h
    | cons a rem =>
      rw [hr] at h
      cases a with
      | send q t =>
        simp only at h
        cases hq : st.workers[q]? with
        | none => rw [hq] at h; injection h with h; subst h; simp [cost, hr, hcr]
        | some wk =>
          rw [hq] at h
          simp only at h
          split at h
          · injection h with h; subst h; simp [cost, hr, hcr]
          · split at h
            · injection h with h; subst h
              have := sum_set workerCost st.workers q { wk with queue := wk.queue ++ [t] } wk hq
              simp [cost, hr, hcr, workerCost] at this ⊢
              omega
            · simp at h
      | closeChans =>
        simp only at h
        split at h <;> (injection h with h; subst h; simp [cost, hr, hcr]) <;> omega
      | openFile _ _ _ => injection h with h; subst h; simp [cost, hr, hcr, MState.op]
      | flowCreated _ _ _ => injection h with h; subst h; simp [cost, hr, hcr]
      | flowDeleted _ _ => injection h with h; subst h; simp [cost, hr, hcr]
      | observeSent _ => injection h with h; subst h; simp [cost, hr, hcr]
      | observeReceived _ => injection h with h; subst h; simp [cost, hr, hcr]
  | worker i =>
    simp only at h
    unfold MState.workerStep at h
    cases hw : st.workers[i]? with
    | none => rw [hw] at h; simp at h
    | some wk =>
      rw [hw] at h
      obtain ⟨q, pc⟩ := wk
      have key : ∀ wk' files wg, workerCost wk' < workerCost ⟨q, pc⟩ →
          cost { st with workers := st.workers.set i wk', files := files, wg := wg } < cost st := by
        intro wk' files wg hlt
        have := sum_set workerCost st.workers i wk' _ hw
        simp only [cost] at *
        omega
      cases pc with
      | idle =>
        cases q with
        | nil =>
          simp only at h
          split at h
          · injection h with h; subst h; exact key _ _ _ (by simp [workerCost, pcCost])
          · simp at h
        | cons t ts =>
          injection h with h; subst h; exact key _ _ _ (by simp [workerCost, pcCost]; omega)
      | got t =>
        obtain ⟨m, w⟩ := t
        cases m with
        | none =>
          cases w with
          | none => injection h with h; subst h; simp [cost, hcr]
          | some w => injection h with h; subst h; exact key _ _ _ (by simp [workerCost, pcCost])
        | some r =>
          cases w with
          | none => injection h with h; subst h; simp [cost, hcr]
          | some w =>
            simp only at h
            split at h <;> (injection h with h; subst h; exact key _ _ _ (by simp [workerCost, pcCost]))
      | write1 w b => injection h with h; subst h; exact key _ _ _ (by simp [workerCost, pcCost])
      | write2 w => injection h with h; subst h; exact key _ _ _ (by simp [workerCost, pcCost])
      | exited => simp at h

theorem cost_exec (me : MEnv) (cs : List Choice) (st st' : MState) (h : MState.exec me cs st = some st') : cs.length + cost st' ≤ cost st := by
  induction cs generalizing st with
  | nil => injection h with h; subst h; simp
  | cons c cs ih =>
    unfold MState.exec at h
    cases hs : st.step me c with
    | none => rw [hs] at h; simp at h
    | some st1 =>
      rw [hs] at h
      have := ih st1 h
      have := cost_step me st st1 c hs
      simp; omega

theorem cost_init (prog : List Action) (n : Nat) : cost (mInit prog n) = 6 * prog.length + n + 1 := by
  simp [cost, mInit, workerCost, pcCost]

/-- A marshaller that is in the middle of something, or has something to do, can move. -/
theorem worker_moves (me : MEnv) (st : MState) (i : Nat) (wk : Worker) (h : st.workers[i]? = some wk) (hx : wk.pc ≠ .exited)
    (hq : wk.pc = .idle → wk.queue ≠ [] ∨ st.closed = true) : st.workerStep me i ≠ none := by
  unfold MState.workerStep
  rw [h]
  obtain ⟨q, pc⟩ := wk
  cases pc with
  | idle =>
    cases q with
    | nil =>
      have := (hq rfl).resolve_left (by simp)
      simp [this]
    | cons t ts => simp
  | got t =>
    obtain ⟨m, w⟩ := t
    cases m with
    | none => cases w <;> simp
    | some r =>
      cases w with
      | none => simp
      | some w => simp only; split <;> simp
  | write1 w b => simp
  | write2 w => simp
  | exited => simp at hx

/-- The process has come to its regular end: saver and marshallers have finished. -/
def Finished (st : MState) : Prop := st.rem = [] ∧ (∀ wk ∈ st.workers, wk.pc = .exited ∧ wk.queue = []) ∧ st.crashed = false

theorem progress {me : MEnv} {n : Nat} {home : Nat → Nat} {prog done : List Action} {st : MState} (hp : ProgOK n home prog)
    (hi : MInv me n home prog done st) (hn : ∀ c, st.step me c = none) : Finished st := by
  have hs : ∀ c, st.step me c = (match c with | .saver => st.saverStep me | .worker i => st.workerStep me i) := by
    intro c; unfold MState.step; rw [hi.crash]; simp only [Bool.false_eq_true, if_false]; cases c <;> rfl
  have hw : ∀ i, st.workerStep me i = none := fun i => (hs (.worker i)).symm.trans (hn _)
  have hsv : st.saverStep me = none := (hs .saver).symm.trans (hn _)
  have hempty : ∀ wk ∈ st.workers, wk.queue = [] ∧ (wk.pc = .exited ∨ (wk.pc = .idle ∧ st.closed = false)) := by
    intro wk hm
    obtain ⟨i, hi'⟩ := List.getElem?_of_mem hm
    by_cases hx : wk.pc = .exited
    · exact ⟨(hi.exited wk hm hx).1, Or.inl hx⟩
    · by_cases hid : wk.pc = .idle ∧ wk.queue = [] ∧ st.closed = false
      · exact ⟨hid.2.1, Or.inr ⟨hid.1, hid.2.2⟩⟩
      · refine absurd (hw i) (worker_moves me st i wk hi' hx ?_)
        intro hidle
        by_cases hq : wk.queue = []
        · right
          cases hc : st.closed with
          | true => rfl
          | false => exact absurd ⟨hidle, hq, hc⟩ hid
        · exact Or.inl hq
  have hrem : st.rem = [] := by
    cases hr : st.rem with
    | nil => rfl
    | cons a rem =>
      exfalso
      have hop := minv_open hp hi (by rw [hr]; simp)
      unfold MState.saverStep at hsv
      rw [hr] at hsv
      cases a with
      | send q t =>
        obtain ⟨hq, -⟩ := hp.tasks q t (by rw [hi.split, hr]; simp)
        have hlt : q < st.workers.length := by rw [hi.len]; exact hq
        simp only at hsv
        rw [List.getElem?_eq_getElem hlt] at hsv
        simp [hop, (hempty _ (List.getElem_mem hlt)).1] at hsv
      | closeChans => simp [hop] at hsv
      | openFile _ _ _ => simp at hsv
      | flowCreated _ _ _ => simp at hsv
      | flowDeleted _ _ => simp at hsv
      | observeSent _ => simp at hsv
      | observeReceived _ => simp at hsv
  refine ⟨hrem, ?_, hi.crash⟩
  intro wk hm
  obtain ⟨h1, h2⟩ := hempty wk hm
  refine ⟨h2.resolve_right ?_, h1⟩
  rintro ⟨-, hc⟩
  obtain ⟨p, he, -⟩ := hp.ends
  have hcl : st.closed = true := hi.closed.2 (by
    have := hi.split
    rw [hrem, List.append_nil] at this
    rw [← this, he]; simp)
  rw [hc] at hcl; simp at hcl

theorem running_zero {ws : List Worker} (h : running ws = 0) : ∀ wk ∈ ws, wk.pc = .exited := by
  induction ws with
  | nil => simp
  | cons a ws ih =>
    simp only [running, List.map_cons, List.sum_cons] at h
    intro wk hm
    rcases List.mem_cons.1 hm with rfl | hm
    · cases hp : wk.pc <;> first | rfl | (rw [hp] at h; simp [PC.exitedB] at h)
    · exact ih (by simp only [running]; omega) wk hm

/-- `Done.Wait` returns exactly when everything has finished. -/
theorem wg_zero {me : MEnv} {n : Nat} {home : Nat → Nat} {prog done : List Action} {st : MState} (hp : ProgOK n home prog)
    (hi : MInv me n home prog done st) : st.wg = 0 ↔ Finished st := by
  have h1 := hi.wg
  constructor
  · intro h
    rw [h] at h1
    have hc : st.closed = true := by cases hc : st.closed with
      | true => rfl
      | false => rw [hc] at h1; simp at h1
    rw [hc] at h1
    have h2 := running_zero (ws := st.workers) (by simp at h1; omega)
    refine ⟨?_, fun wk hm => ⟨h2 wk hm, (hi.exited wk hm (h2 wk hm)).1⟩, hi.crash⟩
    by_cases hr : st.rem = []
    · exact hr
    · have := minv_open hp hi hr; rw [hc] at this; simp at this
  · rintro ⟨hr, hw, -⟩
    have hc : st.closed = true := by
      obtain ⟨p, he, -⟩ := hp.ends
      refine hi.closed.2 ?_
      have := hi.split
      rw [hr, List.append_nil] at this
      rw [← this, he]; simp
    have : ∀ ws : List Worker, (∀ wk ∈ ws, wk.pc = .exited ∧ wk.queue = []) → running ws = 0 := by
      intro ws
      induction ws with
      | nil => simp [running]
      | cons a ws ih =>
        intro h
        have h1 := ih (fun wk hm => h wk (by simp [hm]))
        simp only [running, List.map_cons, List.sum_cons] at h1 ⊢
        rw [(h a (by simp)).1]
        simpa [PC.exitedB] using h1
    rw [h1, this _ hw, hc]; rfl

/-- Everything has been done. -/
theorem finished_files {me : MEnv} {n : Nat} {home : Nat → Nat} {prog done : List Action} {st : MState}
    (hi : MInv me n home prog done st) (hf : Finished st) (w : Nat) : st.files w = prog.flatMap (actOps me w) := by
  have h1 := hi.split
  rw [hf.1, List.append_nil] at h1
  rw [h1, ← hi.files w]
  unfold pendAt
  cases h : st.workers[home w]? with
  | none => simp
  | some wk =>
    have := hf.2.1 wk (List.mem_of_getElem? h)
    simp [pend, this.1, this.2, pcOps]

/-- What has been done is a beginning of all that is to be done. -/
theorem files_prefix {me : MEnv} {n : Nat} {home : Nat → Nat} {prog done : List Action} {st : MState}
    (hi : MInv me n home prog done st) (w : Nat) : st.files w <+: prog.flatMap (actOps me w) := by
  have := hi.files w
  rw [hi.split, List.flatMap_append, ← this]
  exact (List.prefix_append _ _).trans (List.prefix_append _ _)

end TcpInfo
