import Verif.Spec.HappensBefore
import Verif.Lemmas.Process
/-!
# Order of the accesses in every run of the process
-/

namespace TcpInfo
open Spec

/-- How many operations `o` are in the log. -/
def total (L : Log) (o : Op) : Nat := (L.filter (fun e => e.2 = o)).length

theorem get_lt {L : Log} {i : Nat} {x : PChoice × Op} (h : L[i]? = some x) : i < L.length := (List.getElem?_eq_some_iff.1 h).1

theorem get_ext {L : Log} {i : Nat} {x : PChoice × Op} (M : Log) (h : L[i]? = some x) : (L ++ M)[i]? = some x := by
  rw [List.getElem?_append_left (get_lt h)]; exact h

theorem earlier_ext {L : Log} (M : Log) (o : Op) {i : Nat} (h : i ≤ L.length) : earlier (L ++ M) o i = earlier L o i := by
  unfold earlier; rw [List.take_append_of_le_length h]

theorem earlier_end (L M : Log) (o : Op) : earlier (L ++ M) o L.length = total L o := by
  unfold earlier total; rw [List.take_left]

/-- What has happened remains as it is. -/
theorem Spec.HB.ext {L : Log} (M : Log) {i j : Nat} (h : HB L i j) : HB (L ++ M) i j := by
  induction h with
  | order h1 h2 h3 => exact .order h1 (get_ext M h2) (get_ext M h3)
  | sent h1 h2 h3 =>
    refine .sent (get_ext M h1) (get_ext M h2) ?_
    rw [earlier_ext M _ (Nat.le_of_lt (get_lt h1)), earlier_ext M _ (Nat.le_of_lt (get_lt h2))]; exact h3
  | room h1 h2 h3 =>
    refine .room (get_ext M h1) (get_ext M h2) ?_
    rw [earlier_ext M _ (Nat.le_of_lt (get_lt h1)), earlier_ext M _ (Nat.le_of_lt (get_lt h2))]; exact h3
  | closed h1 h2 => exact .closed (get_ext M h1) (get_ext M h2)
  | done h1 h2 => exact .done (get_ext M h1) (get_ext M h2)
  | trans _ _ h1 h2 => exact .trans h1 h2

/-- A position in an extended log is an old one or one in the extension. -/
theorem get_app {L M : Log} {i : Nat} {x : PChoice × Op} (h : (L ++ M)[i]? = some x) : L[i]? = some x ∨ (L.length ≤ i ∧ M[i - L.length]? = some x) := by
  rcases Nat.lt_or_ge i L.length with hl | hl
  · left; rw [List.getElem?_append_left hl] at h; exact h
  · right; rw [List.getElem?_append_right hl] at h; exact ⟨hl, h⟩

theorem total_app (L M : Log) (o : Op) : total (L ++ M) o = total L o + total M o := by
  unfold total; rw [List.filter_append, List.length_append]

theorem total_none {M : Log} {o : Op} (h : ∀ e ∈ M, e.2 ≠ o) : total M o = 0 := by
  unfold total
  rw [List.filter_eq_nil_iff.2 (by intro e he; simpa using h e he)]; rfl

/-- Order of the file accesses, in every reachable state: who has used a file, and what the tasks and the marshallers know about earlier uses. -/
structure AccInv (me : MEnv) (home : Nat → Nat) (st : MState) (L : Log) : Prop where
  cnt : ∀ q wk, st.workers[q]? = some wk → total L (.send (.tasks q)) = total L (.recv (.tasks q)) + wk.queue.length
  used : ∀ (i : Nat) g w, L[i]? = some (g, Op.use w) → st.files w ≠ [] ∧ (g = .saver ∨ g = .worker (home w))
  queue : ∀ q wk k t w, st.workers[q]? = some wk → wk.queue[k]? = some t → taskOps me w t ≠ [] →
    ∃ s : Nat, L[s]? = some (.saver, Op.send (.tasks q)) ∧ earlier L (.send (.tasks q)) s = total L (.recv (.tasks q)) + k
      ∧ ∀ i : Nat, L[i]? = some (.saver, Op.use w) → i < s
  pcs : ∀ q wk w, st.workers[q]? = some wk → pcOps me w wk.pc ≠ [] → ∀ i : Nat, L[i]? = some (.saver, Op.use w) →
    ∃ (j : Nat) (o : Op), L[j]? = some (.worker q, o) ∧ HB L i j
  hb : ∀ (i j : Nat) g g' w, i < j → L[i]? = some (g, Op.use w) → L[j]? = some (g', Op.use w) → HB L i j

theorem acc_init (me : MEnv) (home : Nat → Nat) (n : Nat) : AccInv me home (mInit [] n) [] where
  cnt := by
    intro q wk h
    simp only [mInit, List.getElem?_replicate] at h
    split at h
    · injection h with h; subst h; rfl
    · simp at h
  used := by simp
  queue := by
    intro q wk k t w h hk
    simp only [mInit, List.getElem?_replicate] at h
    split at h
    · injection h with h; subst h; simp at hk
    · simp at h
  pcs := by simp
  hb := by simp

/-- Operations of goroutine `c` other than on channels of marshallers, with uses of files only by a marshaller that was about to do so. -/
theorem acc_ext {me : MEnv} {home : Nat → Nat} {st st' : MState} {L : Log} (hi : AccInv me home st L) (c : PChoice) (os : List Op)
    (h1 : ∀ o ∈ os, ∀ q, o ≠ .send (.tasks q) ∧ o ≠ .recv (.tasks q))
    (h2 : ∀ w, Op.use w ∈ os → st'.files w ≠ [] ∧ ∃ wk, c = .worker (home w) ∧ st.workers[home w]? = some wk ∧ pcOps me w wk.pc ≠ [])
    (h3 : ∀ (q : Nat) (wk' : Worker), st'.workers[q]? = some wk' → ∃ wk, st.workers[q]? = some wk ∧ wk'.queue = wk.queue
      ∧ ∀ w, pcOps me w wk'.pc ≠ [] → pcOps me w wk.pc ≠ [])
    (h4 : ∀ w, st.files w ≠ [] → st'.files w ≠ []) : AccInv me home st' (L ++ os.map (fun o => (c, o))) := by
  have ht : ∀ o : Op, (∃ q, o = .send (.tasks q) ∨ o = .recv (.tasks q)) → total (os.map (fun o => (c, o))) o = 0 := by
    rintro o ⟨q, ho⟩
    refine total_none (fun e he => ?_)
    obtain ⟨o', ho', rfl⟩ := List.mem_map.1 he
    rcases ho with rfl | rfl
    · exact (h1 o' ho' q).1
    · exact (h1 o' ho' q).2
  have hM : ∀ (i : Nat) g o, (os.map (fun o => (c, o)))[i]? = some (g, o) → g = c ∧ o ∈ os := by
    intro i g o h
    rw [List.getElem?_map] at h
    cases ho : os[i]? with
    | none => rw [ho] at h; simp at h
    | some o' =>
      rw [ho] at h
      simp only [Option.map_some, Option.some.injEq, Prod.mk.injEq] at h
      exact ⟨h.1.symm, h.2 ▸ List.mem_of_getElem? ho⟩
  constructor
  · intro q wk' hq
    obtain ⟨wk, hw, hqu, -⟩ := h3 q wk' hq
    rw [total_app, total_app, ht _ ⟨q, .inl rfl⟩, ht _ ⟨q, .inr rfl⟩, hqu, hi.cnt q wk hw]
    omega
  · intro i g w h
    rcases get_app h with h | ⟨-, h⟩
    · exact ⟨h4 w (hi.used i g w h).1, (hi.used i g w h).2⟩
    · obtain ⟨rfl, hm⟩ := hM _ _ _ h
      obtain ⟨hf, wk, hc, -⟩ := h2 w hm
      exact ⟨hf, .inr hc⟩
  · intro q wk' k t w hq hk hne
    obtain ⟨wk, hw, hqu, -⟩ := h3 q wk' hq
    rw [hqu] at hk
    obtain ⟨s, hs1, hs2, hs3⟩ := hi.queue q wk k t w hw hk hne
    refine ⟨s, get_ext _ hs1, ?_, ?_⟩
    · rw [earlier_ext _ _ (Nat.le_of_lt (get_lt hs1)), total_app, ht _ ⟨q, .inr rfl⟩, hs2]; omega
    · intro i h
      rcases get_app h with h | ⟨-, h⟩
      · exact hs3 i h
      · obtain ⟨hc, hm⟩ := hM _ _ _ h
        obtain ⟨-, wk, hc', -⟩ := h2 w hm
        rw [← hc] at hc'; simp at hc'
  · intro q wk' w hq hne i h
    obtain ⟨wk, hw, -, hpc⟩ := h3 q wk' hq
    rcases get_app h with h | ⟨-, h⟩
    · obtain ⟨j, o, hj, hb⟩ := hi.pcs q wk w hw (hpc w hne) i h
      exact ⟨j, o, get_ext _ hj, hb.ext _⟩
    · obtain ⟨hc, hm⟩ := hM _ _ _ h
      obtain ⟨-, wk, hc', -⟩ := h2 w hm
      rw [← hc] at hc'; simp at hc'
  · intro i j g g' w hij hgi hgj
    rcases get_app hgj with hj | ⟨hl, hj⟩
    · rcases get_app hgi with h | ⟨hl', h⟩
      · exact (hi.hb i j g g' w hij h hj).ext _
      · have := get_lt hj; omega
    · obtain ⟨hc, hm⟩ := hM _ _ _ hj
      obtain ⟨-, wk, hc', hw, hne⟩ := h2 w hm
      rcases get_app hgi with h | ⟨hl', h⟩
      · rcases (hi.used i g w h).2 with rfl | rfl
        · obtain ⟨j', o, hj', hb⟩ := hi.pcs (home w) wk w hw hne i h
          refine (hb.ext _).trans (.order ?_ (get_ext _ hj') (by rw [hgj, hc, hc']))
          have := get_lt hj'; omega
        · exact .order hij (by rw [hgi]) (by rw [hgj, hc, hc'])
      · obtain ⟨hc2, -⟩ := hM _ _ _ h
        exact .order hij (by rw [hgi, hc2]) (by rw [hgj, hc])

/-- The saver uses a file that nobody has used, and for which there is no task. -/
theorem acc_open {me : MEnv} {home : Nat → Nat} {st st' : MState} {L : Log} (hi : AccInv me home st L) (w : Nat) (hf : st.files w = [])
    (hf' : st'.files w ≠ []) (hfm : ∀ w, st.files w ≠ [] → st'.files w ≠ []) (hw : st'.workers = st.workers)
    (hq : ∀ (q : Nat) (wk : Worker) (t : Task), st.workers[q]? = some wk → t ∈ wk.queue → taskOps me w t = [])
    (hp : ∀ (q : Nat) (wk : Worker), st.workers[q]? = some wk → pcOps me w wk.pc = []) : AccInv me home st' (L ++ [(.saver, .use w)]) := by
  have hno : ∀ (i : Nat) g, L[i]? ≠ some (g, Op.use w) := fun i g h => (hi.used i g w h).1 hf
  have ht : ∀ o : Op, o ≠ .use w → total [(PChoice.saver, Op.use w)] o = 0 := by
    intro o ho
    refine total_none (fun e he => ?_)
    rw [List.mem_singleton.1 he]; exact ho.symm
  have hone : ∀ (i : Nat) g o, [(PChoice.saver, Op.use w)][i]? = some (g, o) → o = .use w ∧ g = .saver := by
    intro i g o h
    cases i with
    | zero => simp at h; exact ⟨h.2.symm, h.1.symm⟩
    | succ i => simp at h
  constructor
  · intro q wk hq'
    rw [hw] at hq'
    rw [total_app, total_app, ht _ (by simp), ht _ (by simp)]
    exact hi.cnt q wk hq'
  · intro i g w' h
    rcases get_app h with h | ⟨-, h⟩
    · exact ⟨hfm w' (hi.used i g w' h).1, (hi.used i g w' h).2⟩
    · obtain ⟨ho, hg⟩ := hone _ _ _ h
      injection ho with ho; subst ho
      exact ⟨hf', .inl hg⟩
  · intro q wk k t w' hq' hk hne
    rw [hw] at hq'
    obtain ⟨s, hs1, hs2, hs3⟩ := hi.queue q wk k t w' hq' hk hne
    refine ⟨s, get_ext _ hs1, ?_, ?_⟩
    · rw [earlier_ext _ _ (Nat.le_of_lt (get_lt hs1)), total_app, ht _ (by simp), hs2]; omega
    · intro i h
      rcases get_app h with h | ⟨-, h⟩
      · exact hs3 i h
      · obtain ⟨ho, -⟩ := hone _ _ _ h
        injection ho with ho; subst ho
        exact absurd (hq q wk t hq' (List.mem_of_getElem? hk)) hne
  · intro q wk w' hq' hne i h
    rw [hw] at hq'
    rcases get_app h with h | ⟨-, h⟩
    · obtain ⟨j, o, hj, hb⟩ := hi.pcs q wk w' hq' hne i h
      exact ⟨j, o, get_ext _ hj, hb.ext _⟩
    · obtain ⟨ho, -⟩ := hone _ _ _ h
      injection ho with ho; subst ho
      exact absurd (hp q wk hq') hne
  · intro i j g g' w' hij hgi hgj
    rcases get_app hgj with hj | ⟨hl, hj⟩
    · rcases get_app hgi with h | ⟨hl', h⟩
      · exact (hi.hb i j g g' w' hij h hj).ext _
      · have := get_lt hj; omega
    · obtain ⟨ho, -⟩ := hone _ _ _ hj
      injection ho with ho; subst ho
      rcases get_app hgi with h | ⟨hl', h⟩
      · exact absurd h (hno i g)
      · have h1 := get_lt h
        have h2 := get_lt hj
        simp at h1 h2; omega

/-- The saver sends a task. -/
theorem acc_send {me : MEnv} {home : Nat → Nat} {st st' : MState} {L : Log} (hi : AccInv me home st L) (q : Nat) (t : Task) (wk : Worker)
    (hq : st.workers[q]? = some wk) (hf : st'.files = st.files) (hw : st'.workers = st.workers.set q { wk with queue := wk.queue ++ [t] }) :
    AccInv me home st' (L ++ [(.saver, .send (.tasks q))]) := by
  have hone : ∀ (i : Nat) g o, [(PChoice.saver, Op.send (.tasks q))][i]? = some (g, o) → o = .send (.tasks q) ∧ g = .saver := by
    intro i g o h
    cases i with
    | zero => simp at h; exact ⟨h.2.symm, h.1.symm⟩
    | succ i => simp at h
  have huse : ∀ (i : Nat) g w, (L ++ [(PChoice.saver, Op.send (.tasks q))])[i]? = some (g, Op.use w) → L[i]? = some (g, Op.use w) := by
    intro i g w h
    rcases get_app h with h | ⟨-, h⟩
    · exact h
    · have := (hone _ _ _ h).1; simp at this
  have ht : ∀ o : Op, o ≠ .send (.tasks q) → total [(PChoice.saver, Op.send (.tasks q))] o = 0 := by
    intro o ho
    refine total_none (fun e he => ?_)
    rw [List.mem_singleton.1 he]; exact ho.symm
  have hlt : q < st.workers.length := (List.getElem?_eq_some_iff.1 hq).1
  have hcase : ∀ q' wk', st'.workers[q']? = some wk' → (q' = q ∧ wk' = { wk with queue := wk.queue ++ [t] }) ∨ (q' ≠ q ∧ st.workers[q']? = some wk') := by
    intro q' wk' h
    rw [hw] at h
    by_cases e : q' = q
    · subst e
      rw [List.getElem?_set_self hlt] at h
      injection h with h
      exact .inl ⟨rfl, h.symm⟩
    · rw [List.getElem?_set_ne (Ne.symm e)] at h
      exact .inr ⟨e, h⟩
  constructor
  · intro q' wk' h
    rw [total_app, total_app, ht (.recv _) (by simp)]
    rcases hcase q' wk' h with ⟨rfl, rfl⟩ | ⟨e, h'⟩
    · have := hi.cnt q' wk hq
      have h1 : total [(PChoice.saver, Op.send (.tasks q'))] (.send (.tasks q')) = 1 := by simp [total]
      rw [h1, this]; simp; omega
    · rw [ht _ (by simpa using e)]
      exact hi.cnt q' wk' h'
  · intro i g w h
    rw [hf]; exact hi.used i g w (huse i g w h)
  · intro q' wk' k t' w h hk hne
    have old : ∀ wk0, st.workers[q']? = some wk0 → wk0.queue[k]? = some t' →
        ∃ s : Nat, (L ++ [(PChoice.saver, Op.send (.tasks q))])[s]? = some (.saver, Op.send (.tasks q'))
          ∧ earlier (L ++ [(PChoice.saver, Op.send (.tasks q))]) (.send (.tasks q')) s = total (L ++ [(PChoice.saver, Op.send (.tasks q))]) (.recv (.tasks q')) + k
          ∧ ∀ i : Nat, (L ++ [(PChoice.saver, Op.send (.tasks q))])[i]? = some (.saver, Op.use w) → i < s := by
      intro wk0 h0 hk0
      obtain ⟨s, hs1, hs2, hs3⟩ := hi.queue q' wk0 k t' w h0 hk0 hne
      refine ⟨s, get_ext _ hs1, ?_, fun i h => hs3 i (huse i _ w h)⟩
      rw [earlier_ext _ _ (Nat.le_of_lt (get_lt hs1)), total_app, ht _ (by simp), hs2]; omega
    rcases hcase q' wk' h with ⟨rfl, rfl⟩ | ⟨e, h'⟩
    · simp only at hk
      rcases Nat.lt_or_ge k wk.queue.length with hl | hl
      · rw [List.getElem?_append_left hl] at hk
        exact old wk hq hk
      · have hk' : k = wk.queue.length := by
          rw [List.getElem?_append_right hl] at hk
          have := (List.getElem?_eq_some_iff.1 hk).1
          simp at this; omega
        subst hk'
        refine ⟨L.length, by simp, ?_, fun i h => get_lt (huse i _ w h)⟩
        rw [earlier_end, total_app, ht (.recv _) (by simp), hi.cnt q' wk hq]; omega
    · exact old wk' h' hk
  · intro q' wk' w h hne i hu
    replace hu := huse i _ w hu
    have : ∃ wk0, st.workers[q']? = some wk0 ∧ pcOps me w wk0.pc ≠ [] := by
      rcases hcase q' wk' h with ⟨rfl, rfl⟩ | ⟨e, h'⟩
      · exact ⟨wk, hq, hne⟩
      · exact ⟨wk', h', hne⟩
    obtain ⟨wk0, h0, hn0⟩ := this
    obtain ⟨j, o, hj, hb⟩ := hi.pcs q' wk0 w h0 hn0 i hu
    exact ⟨j, o, get_ext _ hj, hb.ext _⟩
  · intro i j g g' w hij hgi hgj
    exact (hi.hb i j g g' w hij (huse i g w hgi) (huse j g' w hgj)).ext _

/-- A marshaller receives a task. -/
theorem acc_recv {me : MEnv} {home : Nat → Nat} {st st' : MState} {L : Log} (hi : AccInv me home st L) (q : Nat) (t : Task) (ts : List Task)
    (hq : st.workers[q]? = some ⟨t :: ts, .idle⟩) (hf : st'.files = st.files) (hw : st'.workers = st.workers.set q ⟨ts, .got t⟩) :
    AccInv me home st' (L ++ [(.worker q, .recv (.tasks q))]) := by
  have hone : ∀ (i : Nat) g o, [(PChoice.worker q, Op.recv (.tasks q))][i]? = some (g, o) → o = .recv (.tasks q) ∧ g = .worker q := by
    intro i g o h
    cases i with
    | zero => simp at h; exact ⟨h.2.symm, h.1.symm⟩
    | succ i => simp at h
  have huse : ∀ (i : Nat) g w, (L ++ [(PChoice.worker q, Op.recv (.tasks q))])[i]? = some (g, Op.use w) → L[i]? = some (g, Op.use w) := by
    intro i g w h
    rcases get_app h with h | ⟨-, h⟩
    · exact h
    · have := (hone _ _ _ h).1; simp at this
  have ht : ∀ o : Op, o ≠ .recv (.tasks q) → total [(PChoice.worker q, Op.recv (.tasks q))] o = 0 := by
    intro o ho
    refine total_none (fun e he => ?_)
    rw [List.mem_singleton.1 he]; exact ho.symm
  have h1 : total [(PChoice.worker q, Op.recv (.tasks q))] (.recv (.tasks q)) = 1 := by simp [total]
  have hlt : q < st.workers.length := (List.getElem?_eq_some_iff.1 hq).1
  have hcase : ∀ q' wk', st'.workers[q']? = some wk' → (q' = q ∧ wk' = ⟨ts, .got t⟩) ∨ (q' ≠ q ∧ st.workers[q']? = some wk') := by
    intro q' wk' h
    rw [hw] at h
    by_cases e : q' = q
    · subst e
      rw [List.getElem?_set_self hlt] at h
      injection h with h
      exact .inl ⟨rfl, h.symm⟩
    · rw [List.getElem?_set_ne (Ne.symm e)] at h
      exact .inr ⟨e, h⟩
  constructor
  · intro q' wk' h
    rw [total_app, total_app, ht (.send _) (by simp)]
    rcases hcase q' wk' h with ⟨rfl, rfl⟩ | ⟨e, h'⟩
    · have := hi.cnt q' _ hq
      rw [h1, this]; simp; omega
    · rw [ht _ (by simpa using e)]
      exact hi.cnt q' wk' h'
  · intro i g w h
    rw [hf]; exact hi.used i g w (huse i g w h)
  · intro q' wk' k t' w h hk hne
    rcases hcase q' wk' h with ⟨rfl, rfl⟩ | ⟨e, h'⟩
    · obtain ⟨s, hs1, hs2, hs3⟩ := hi.queue q' _ (k + 1) t' w hq (by simpa using hk) hne
      refine ⟨s, get_ext _ hs1, ?_, fun i h => hs3 i (huse i _ w h)⟩
      rw [earlier_ext _ _ (Nat.le_of_lt (get_lt hs1)), total_app, h1, hs2]; omega
    · obtain ⟨s, hs1, hs2, hs3⟩ := hi.queue q' wk' k t' w h' hk hne
      refine ⟨s, get_ext _ hs1, ?_, fun i h => hs3 i (huse i _ w h)⟩
      rw [earlier_ext _ _ (Nat.le_of_lt (get_lt hs1)), total_app, ht _ (by simpa using e), hs2]; omega
  · intro q' wk' w h hne i hu
    replace hu := huse i _ w hu
    rcases hcase q' wk' h with ⟨rfl, rfl⟩ | ⟨e, h'⟩
    · obtain ⟨s, hs1, hs2, hs3⟩ := hi.queue q' _ 0 t w hq (by simp) hne
      have hlast : (L ++ [(PChoice.worker q', Op.recv (.tasks q'))])[L.length]? = some (.worker q', Op.recv (.tasks q')) := by simp
      refine ⟨L.length, _, hlast, .trans (.order (hs3 i hu) (get_ext _ hu) (get_ext _ hs1)) (.sent (get_ext _ hs1) hlast ?_)⟩
      rw [earlier_ext _ _ (Nat.le_of_lt (get_lt hs1)), earlier_end, hs2]; omega
    · obtain ⟨j, o, hj, hb⟩ := hi.pcs q' wk' w h' hne i hu
      exact ⟨j, o, get_ext _ hj, hb.ext _⟩
  · intro i j g g' w hij hgi hgj
    exact (hi.hb i j g g' w hij (huse i g w hgi) (huse j g' w hgj)).ext _

/-- What a task does to a file, it does to the file of the task. -/
theorem taskOps_writer {me : MEnv} {w : Nat} {t : Task} (h : taskOps me w t ≠ []) : t.writer = some w := by
  unfold taskOps at h
  split at h
  · assumption
  · exact absurd rfl h

theorem taskAt_home {home : Nat → Nat} {i w : Nat} {t : Task} (h : TaskAt home i t) (hw : t.writer = some w) : home w = i := by
  obtain ⟨w', h1, h2⟩ := h
  rw [hw] at h1; injection h1 with h1; subst h1; exact h2

theorem pcAt_home {me : MEnv} {home : Nat → Nat} {i w : Nat} {pc : PC} (h : PCAt home i pc) (hw : pcOps me w pc ≠ []) : home w = i := by
  cases pc with
  | got t => exact taskAt_home h (taskOps_writer hw)
  | write1 w' b =>
    simp only [pcOps] at hw
    split at hw
    · rename_i e; subst e; exact h
    · exact absurd rfl hw
  | write2 w' =>
    simp only [pcOps] at hw
    split at hw
    · rename_i e; subst e; exact h
    · exact absurd rfl hw
  | idle => exact absurd rfl hw
  | exited => exact absurd rfl hw

theorem op_mono (st : MState) (w : Nat) (o : List FileOp) (w' : Nat) (h : st.files w' ≠ []) : (st.op w o).files w' ≠ [] := by
  simp only [MState.op]
  split
  · intro e; exact h (List.append_eq_nil_iff.1 e).1
  · exact h

theorem op_ne (st : MState) (w : Nat) (o : FileOp) (os : List FileOp) : (st.op w (o :: os)).files w ≠ [] := by
  simp [MState.op]

/-- The step of a marshaller. -/
theorem acc_worker {me : MEnv} {n : Nat} {home : Nat → Nat} {prog done : List Action} {p : Proc} {F : List Action} {L : Log}
    (hm : MInv me n home prog done (p.m.more F)) (hi : AccInv me home p.m L) (i : Nat) (m' : MState) (h : p.m.workerStep me i = some m') :
    AccInv me home m' (L ++ (p.workerOps i).map (fun o => (PChoice.worker i, o))) := by
  unfold MState.workerStep at h
  unfold Proc.workerOps
  cases hw : p.m.workers[i]? with
  | none => rw [hw] at h; simp at h
  | some wk =>
    rw [hw] at h
    have hlt : i < p.m.workers.length := (List.getElem?_eq_some_iff.1 hw).1
    have hat := hm.tasks i wk hw
    obtain ⟨q, pc⟩ := wk
    simp only at h hat ⊢
    -- a marshaller that only moves on
    have move : ∀ (pc' : PC) (os : List Op) (st' : MState), st'.workers = p.m.workers.set i ⟨q, pc'⟩ →
        (∀ o ∈ os, ∀ q, o ≠ .send (.tasks q) ∧ o ≠ .recv (.tasks q)) →
        (∀ w, Op.use w ∈ os → st'.files w ≠ [] ∧ pcOps me w pc ≠ []) → (∀ w, pcOps me w pc' ≠ [] → pcOps me w pc ≠ []) →
        (∀ w, p.m.files w ≠ [] → st'.files w ≠ []) → AccInv me home st' (L ++ os.map (fun o => (PChoice.worker i, o))) := by
      intro pc' os st' h1 h2 h3 h4 h5
      refine acc_ext hi (.worker i) os h2 (fun w hu => ?_) (fun q' wk' hq' => ?_) h5
      · obtain ⟨ha, hb⟩ := h3 w hu
        have := pcAt_home hat.2 hb
        exact ⟨ha, ⟨q, pc⟩, by rw [this], by rw [this]; exact hw, hb⟩
      · rw [h1] at hq'
        by_cases e : i = q'
        · subst e
          rw [List.getElem?_set_self hlt] at hq'
          injection hq' with hq'; subst hq'
          exact ⟨_, hw, rfl, h4⟩
        · rw [List.getElem?_set_ne e] at hq'
          exact ⟨wk', hq', rfl, fun _ h => h⟩
    cases pc with
    | idle =>
      simp only at h ⊢
      cases q with
      | nil =>
        simp only at h ⊢
        split at h
        · injection h with h; subst h
          refine move .exited _ _ rfl (by simp) (by simp) (by simp [pcOps]) (fun _ h => h)
        · simp at h
      | cons t ts =>
        simp only at h ⊢
        injection h with h; subst h
        exact acc_recv hi i t ts hw rfl rfl
    | got t =>
      obtain ⟨m, wr⟩ := t
      cases m with
      | none =>
        cases wr with
        | none => obtain ⟨w, hx, -⟩ := hat.2; simp at hx
        | some w =>
          simp only at h ⊢
          injection h with h; subst h
          refine move .idle [.use w] _ rfl (by simp) (fun w' hu => ?_) (by simp [pcOps]) (fun w' h => op_mono _ _ _ _ h)
          simp only [List.mem_singleton, Op.use.injEq] at hu
          subst hu
          exact ⟨op_ne _ _ _ _, by simp [pcOps, taskOps]⟩
      | some r =>
        cases wr with
        | none => obtain ⟨w, hx, -⟩ := hat.2; simp at hx
        | some w =>
          simp only at h ⊢
          cases ha : anonymizeRecord me.anon r with
          | none =>
            rw [ha] at h
            injection h with h; subst h
            exact move .idle [.rewrite r] _ rfl (by simp) (by simp) (by simp [pcOps]) (fun _ h => h)
          | some r' =>
            rw [ha] at h
            injection h with h; subst h
            refine move (.write1 w (me.json r')) [.rewrite r] _ rfl (by simp) (by simp) (fun w' hw' => ?_) (fun _ h => h)
            simp only [pcOps] at hw'
            split at hw'
            · rename_i e; subst e; simp [pcOps, taskOps, ha]
            · exact absurd rfl hw'
    | write1 w b =>
      simp only at h ⊢
      injection h with h; subst h
      refine move (.write2 w) [.use w] _ rfl (by simp) (fun w' hu => ?_) (fun w' hw' => ?_) (fun w' h => op_mono _ _ _ _ h)
      · simp only [List.mem_singleton, Op.use.injEq] at hu
        subst hu
        exact ⟨op_ne _ _ _ _, by simp [pcOps]⟩
      · simp only [pcOps] at hw' ⊢
        split at hw'
        · rename_i e; subst e; simp
        · exact absurd rfl hw'
    | write2 w =>
      simp only at h ⊢
      injection h with h; subst h
      refine move .idle [.use w] _ rfl (by simp) (fun w' hu => ?_) (by simp [pcOps]) (fun w' h => op_mono _ _ _ _ h)
      simp only [List.mem_singleton, Op.use.injEq] at hu
      subst hu
      exact ⟨op_ne _ _ _ _, by simp [pcOps]⟩
    | exited => simp at h

/-- Operations that concern neither files nor marshallers. -/
theorem acc_quiet {me : MEnv} {home : Nat → Nat} {st st' : MState} {L : Log} (hi : AccInv me home st L) (c : PChoice) (os : List Op)
    (h1 : ∀ o ∈ os, (∀ q, o ≠ .send (.tasks q) ∧ o ≠ .recv (.tasks q)) ∧ ∀ w, o ≠ .use w) (hw : st'.workers = st.workers) (hf : st'.files = st.files) :
    AccInv me home st' (L ++ os.map (fun o => (c, o))) :=
  acc_ext hi c os (fun o ho => (h1 o ho).1) (fun w hu => absurd rfl ((h1 _ hu).2 w)) (fun q wk' h => ⟨wk', by rw [← hw]; exact h, rfl, fun _ h => h⟩)
    (fun w h => by rw [hf]; exact h)

/-- An action of the saver. -/
theorem acc_saver {me : MEnv} {n : Nat} {home : Nat → Nat} {prog done : List Action} {p : Proc} {F : List Action} {L : Log} (hp : ProgOK n home prog)
    (hm : MInv me n home prog done (p.m.more F)) (hi : AccInv me home p.m L) (a : Action) (rem : List Action) (hr : p.m.rem = a :: rem) (m' : MState)
    (h : p.m.saverStep me = some m') (hc : m'.crashed = false) : AccInv me home m' (L ++ p.saverOps.map (fun o => (PChoice.saver, o))) := by
  unfold MState.saverStep at h
  unfold Proc.saverOps
  rw [hr] at h ⊢
  cases a with
  | openFile w nm hd =>
    simp only at h ⊢
    injection h with h; subst h
    have h0 : done.flatMap (actOps me w) = [] := hp.first done (rem ++ F) w nm hd (by rw [hm.split]; simp [MState.more, hr]) me
    have h1 := hm.files w
    rw [h0] at h1
    obtain ⟨h2, h3⟩ := List.append_eq_nil_iff.1 h1
    have hpend : ∀ (q : Nat) (wk : Worker), p.m.workers[q]? = some wk → home w = q → pend me w wk = [] := by
      intro q wk hq e
      subst e
      rw [pendAt_eq me w (p.m.more F).workers (home w) wk hq] at h3
      exact h3
    refine acc_open hi w h2 (op_ne _ _ _ _) (fun w' h => op_mono _ _ _ _ h) rfl (fun q wk t hq ht => ?_) (fun q wk hq => ?_)
    · apply Classical.byContradiction
      intro hne
      have e := taskAt_home ((hm.tasks q wk hq).1 t ht) (taskOps_writer hne)
      have := (List.append_eq_nil_iff.1 (hpend q wk hq e)).2
      exact hne (List.flatMap_eq_nil_iff.1 this t ht)
    · apply Classical.byContradiction
      intro hne
      have e := pcAt_home (hm.tasks q wk hq).2 hne
      exact hne (List.append_eq_nil_iff.1 (hpend q wk hq e)).1
  | send q t =>
    simp only at h ⊢
    cases hq : p.m.workers[q]? with
    | none =>
      rw [hq] at h
      injection h with h; subst h
      simp at hc
    | some wk =>
      rw [hq] at h
      simp only at h
      split at h
      · injection h with h; subst h
        simp at hc
      · split at h
        · injection h with h; subst h
          exact acc_send hi q t wk hq rfl rfl
        · simp at h
  | closeChans =>
    simp only at h ⊢
    split at h
    · injection h with h; subst h
      simp at hc
    · injection h with h; subst h
      refine acc_quiet hi .saver _ ?_ rfl rfl
      intro o ho
      rw [List.mem_append] at ho
      rcases ho with ho | ho
      · obtain ⟨q, -, rfl⟩ := List.mem_map.1 ho; simp
      · rw [List.mem_singleton.1 ho]; simp
  | flowCreated t u id =>
    simp only at h ⊢
    injection h with h; subst h
    exact acc_quiet hi .saver [] (by simp) rfl rfl
  | flowDeleted t u =>
    simp only at h ⊢
    injection h with h; subst h
    exact acc_quiet hi .saver [] (by simp) rfl rfl
  | observeSent x =>
    simp only at h ⊢
    injection h with h; subst h
    exact acc_quiet hi .saver [] (by simp) rfl rfl
  | observeReceived x =>
    simp only at h ⊢
    injection h with h; subst h
    exact acc_quiet hi .saver [] (by simp) rfl rfl

theorem acc_step {me : MEnv} {env : Env} {n : Nat} {home : Nat → Nat} {prog done : List Action} {p p' : Proc} {F : List Action} {L : Log}
    (hp : ProgOK n home prog) (hm : MInv me n home prog done (p.m.more F)) (hi : AccInv me home p.m L) (c : PChoice) (h : p.step me env c = some p')
    (hc : p'.m.crashed = false) : AccInv me home p'.m (L ++ (p.ops c).map (fun o => (c, o))) := by
  unfold Proc.step at h
  split at h
  · simp at h
  cases c with
  | main =>
    simp only [Proc.mainStep] at h
    simp only [Proc.ops, Proc.mainOps]
    cases hpc : p.pc with
    | collecting =>
      rw [hpc] at h
      cases hpo : p.polls with
      | nil =>
        rw [hpo] at h
        simp only at h ⊢
        injection h with h; subst h
        exact acc_quiet hi .main _ (by simp) rfl rfl
      | cons b bs =>
        rw [hpo] at h
        simp only at h ⊢
        split at h
        · injection h with h; subst h
          exact acc_quiet hi .main _ (by simp) rfl rfl
        · simp at h
    | waiting =>
      rw [hpc] at h
      simp only at h ⊢
      split at h
      · injection h with h; subst h
        exact acc_quiet hi .main _ (by simp) rfl rfl
      · simp at h
    | returned => rw [hpc] at h; simp at h
  | saver =>
    simp only [Proc.saverStep] at h
    simp only [Proc.ops]
    cases hr : p.m.rem with
    | cons a rem =>
      rw [hr] at h
      simp only at h
      obtain ⟨m', hm', rfl⟩ := Option.map_eq_some_iff.1 h
      exact acc_saver hp hm hi a rem hr m' hm' hc
    | nil =>
      rw [hr] at h
      simp only [Proc.saverOps, hr] at h ⊢
      split at h
      · simp at h
      · cases hch : p.chan with
        | cons b rest =>
          rw [hch] at h
          simp only at h ⊢
          have hq : ∀ o ∈ Op.recv .blocks :: p.loop.svr.cache.previous.map (fun e => Op.inspect e.2),
              (∀ q, o ≠ .send (.tasks q) ∧ o ≠ .recv (.tasks q)) ∧ ∀ w, o ≠ .use w := by
            intro o ho
            rcases List.mem_cons.1 ho with rfl | ho
            · simp
            · obtain ⟨e, -, rfl⟩ := List.mem_map.1 ho; simp
          split at h
          · injection h with h; subst h; simp at hc
          · injection h with h; subst h
            exact acc_quiet hi .saver _ hq rfl rfl
        | nil =>
          rw [hch] at h
          simp only at h ⊢
          split at h
          · split at h
            · injection h with h; subst h; simp at hc
            · injection h with h; subst h
              exact acc_quiet hi .saver _ (by simp) rfl rfl
          · simp at h
  | worker i =>
    simp only at h
    obtain ⟨m', hm', rfl⟩ := Option.map_eq_some_iff.1 h
    exact acc_worker hm hi i m' hm'

/-! ## The end of the run -/

/-- Goroutine `g` has called `Done`, and has done nothing since. -/
def Through (g : PChoice) (L : Log) : Prop := ∃ d : Nat, L[d]? = some (g, Op.done) ∧ ∀ (i : Nat) o, L[i]? = some (g, o) → i ≤ d

theorem Through.other {g c : PChoice} {L : Log} (h : Through g L) (hne : g ≠ c) (os : List Op) : Through g (L ++ os.map (fun o => (c, o))) := by
  obtain ⟨d, h1, h2⟩ := h
  refine ⟨d, get_ext _ h1, fun i o hi => ?_⟩
  rcases get_app hi with hi | ⟨-, hi⟩
  · exact h2 i o hi
  · obtain ⟨o', -, he⟩ := List.mem_map.1 (List.mem_of_getElem? hi)
    simp only [Prod.mk.injEq] at he
    exact absurd he.1.symm hne

theorem through_now (g : PChoice) (L : Log) (os : List Op) : Through g (L ++ (os ++ [Op.done]).map (fun o => (g, o))) := by
  refine ⟨L.length + os.length, ?_, fun i o hi => ?_⟩
  · rw [List.getElem?_append_right (by omega), List.map_append, List.getElem?_append_right (by simp)]; simp
  · have := get_lt hi
    simp at this; omega

structure EndInv (p : Proc) (L : Log) : Prop where
  exited : ∀ q wk, p.m.workers[q]? = some wk → wk.pc = .exited → Through (.worker q) L
  closed : p.m.closed = true → Through .saver L
  ids : ∀ (i : Nat) q o, L[i]? = some (PChoice.worker q, o) → q < p.m.workers.length
  nowait : p.pc ≠ .returned → ∀ (i : Nat) g, L[i]? ≠ some (g, Op.wait)
  back : p.pc = .returned → ∃ L0, L = L0 ++ [(.main, .wait)] ∧ ∀ i, i < L0.length → HB L i L0.length

theorem end_init (bs : List MessageBlock) (n : Nat) : EndInv (procInit bs n) [] where
  exited := by
    intro q wk h hx
    simp only [procInit, mInit, List.getElem?_replicate] at h
    split at h
    · injection h with h; subst h; simp at hx
    · simp at h
  closed := by simp [procInit, mInit]
  ids := by simp
  nowait := by simp
  back := by simp [procInit]

theorem mem_ops_wait {p : Proc} {c : PChoice} (h : Op.wait ∈ p.ops c) : c = .main ∧ p.pc = .waiting := by
  cases c with
  | main =>
    simp only [Proc.ops, Proc.mainOps] at h
    cases hpc : p.pc with
    | collecting =>
      rw [hpc] at h
      cases hpo : p.polls <;> rw [hpo] at h <;> simp at h
    | waiting => exact ⟨rfl, rfl⟩
    | returned => rw [hpc] at h; simp at h
  | saver =>
    exfalso
    simp only [Proc.ops, Proc.saverOps] at h
    cases hr : p.m.rem with
    | nil =>
      rw [hr] at h
      cases hch : p.chan <;> rw [hch] at h <;> simp at h
    | cons a rem =>
      rw [hr] at h
      cases a <;> simp at h
  | worker i =>
    exfalso
    simp only [Proc.ops, Proc.workerOps] at h
    cases hw : p.m.workers[i]? with
    | none => rw [hw] at h; simp at h
    | some wk =>
      rw [hw] at h
      obtain ⟨q, pc⟩ := wk
      cases pc with
      | idle => cases q <;> simp at h
      | got t => obtain ⟨m, w⟩ := t; cases m <;> cases w <;> simp at h
      | write1 w b => simp at h
      | write2 w => simp at h
      | exited => simp at h

/-- What a step changes that matters here. -/
theorem step_end {me : MEnv} {env : Env} {p p' : Proc} {c : PChoice} (h : p.step me env c = some p') (hc : p'.m.crashed = false) :
    p'.m.workers.length = p.m.workers.length
    ∧ (∀ q wk', p'.m.workers[q]? = some wk' → wk'.pc = .exited →
        (∃ wk, p.m.workers[q]? = some wk ∧ wk.pc = .exited ∧ c ≠ .worker q) ∨ (c = .worker q ∧ ∃ os, p.ops c = os ++ [.done]))
    ∧ (p'.m.closed = true → p.m.closed = true ∨ (c = .saver ∧ ∃ os, p.ops c = os ++ [.done]))
    ∧ (∀ q, c = .worker q → q < p.m.workers.length)
    ∧ p.pc ≠ .returned
    ∧ (p'.pc = .returned → c = .main ∧ p.pc = .waiting ∧ p.m.wg = 0)
    ∧ (c = .main → p.pc = .waiting → p'.pc = .returned) := by
  unfold Proc.step at h
  split at h
  · simp at h
  rename_i hlive
  have hnr : p.pc ≠ .returned := fun e => hlive (.inr e)
  have same : p'.m.workers = p.m.workers → p'.m.closed = p.m.closed → (∀ q, c ≠ .worker q) → (p'.m.workers.length = p.m.workers.length
    ∧ (∀ q wk', p'.m.workers[q]? = some wk' → wk'.pc = .exited →
        (∃ wk, p.m.workers[q]? = some wk ∧ wk.pc = .exited ∧ c ≠ .worker q) ∨ (c = .worker q ∧ ∃ os, p.ops c = os ++ [.done]))
    ∧ (p'.m.closed = true → p.m.closed = true ∨ (c = .saver ∧ ∃ os, p.ops c = os ++ [.done]))
    ∧ (∀ q, c = .worker q → q < p.m.workers.length)) := by
    intro h1 h2 h3
    exact ⟨by rw [h1], fun q wk' hq hx => .inl ⟨wk', by rw [← h1]; exact hq, hx, h3 q⟩, fun h => .inl (by rw [← h2]; exact h),
      fun q e => absurd e (h3 q)⟩
  cases c with
  | main =>
    simp only [Proc.mainStep] at h
    cases hpc : p.pc with
    | collecting =>
      rw [hpc] at h
      cases hpo : p.polls with
      | nil =>
        rw [hpo] at h
        simp only at h
        injection h with h; subst h
        obtain ⟨a, b, d, e⟩ := same rfl rfl (by simp)
        exact ⟨a, b, d, e, by simp, by simp, by simp⟩
      | cons b bs =>
        rw [hpo] at h
        simp only at h
        split at h
        · injection h with h; subst h
          obtain ⟨a, b, d, e⟩ := same rfl rfl (by simp)
          exact ⟨a, b, d, e, by simp, by simp [hpc], by simp⟩
        · simp at h
    | waiting =>
      rw [hpc] at h
      simp only at h
      split at h
      · rename_i hwg
        injection h with h; subst h
        obtain ⟨a, b, d, e⟩ := same rfl rfl (by simp)
        exact ⟨a, b, d, e, by simp, fun _ => ⟨rfl, rfl, hwg⟩, fun _ _ => rfl⟩
      · simp at h
    | returned => exact absurd hpc hnr
  | saver =>
    have key : p'.pc = p.pc ∧ p'.m.workers.length = p.m.workers.length
        ∧ (∀ (q : Nat) (wk' : Worker), p'.m.workers[q]? = some wk' → wk'.pc = .exited → ∃ wk, p.m.workers[q]? = some wk ∧ wk.pc = .exited)
        ∧ (p'.m.closed = true → p.m.closed = true ∨ ∃ os, p.saverOps = os ++ [.done]) := by
      simp only [Proc.saverStep] at h
      cases hr : p.m.rem with
      | nil =>
        rw [hr] at h
        simp only at h
        split at h
        · simp at h
        · cases hch : p.chan with
          | cons b rest =>
            rw [hch] at h
            simp only at h
            split at h
            · injection h with h; subst h; simp at hc
            · injection h with h; subst h
              exact ⟨rfl, rfl, fun q wk' h hx => ⟨wk', h, hx⟩, fun h => .inl h⟩
          | nil =>
            rw [hch] at h
            simp only at h
            split at h
            · split at h
              · injection h with h; subst h; simp at hc
              · injection h with h; subst h
                exact ⟨rfl, rfl, fun q wk' h hx => ⟨wk', h, hx⟩, fun h => .inl h⟩
            · simp at h
      | cons a rem =>
        rw [hr] at h
        simp only at h
        obtain ⟨m', hm', rfl⟩ := Option.map_eq_some_iff.1 h
        refine ⟨rfl, ?_⟩
        simp only at hc ⊢
        unfold MState.saverStep at hm'
        unfold Proc.saverOps
        rw [hr] at hm' ⊢
        cases a with
        | send q t =>
          simp only at hm'
          cases hq : p.m.workers[q]? with
          | none => rw [hq] at hm'; injection hm' with hm'; subst hm'; simp at hc
          | some wk =>
            rw [hq] at hm'
            simp only at hm'
            split at hm'
            · injection hm' with hm'; subst hm'; simp at hc
            · split at hm'
              · injection hm' with hm'; subst hm'
                refine ⟨by simp, fun q' wk' h hx => ?_, fun h => .inl h⟩
                simp only at h
                by_cases e : q = q'
                · subst e
                  rw [List.getElem?_set_self (List.getElem?_eq_some_iff.1 hq).1] at h
                  injection h with h; subst h
                  exact ⟨wk, hq, hx⟩
                · rw [List.getElem?_set_ne e] at h
                  exact ⟨wk', h, hx⟩
              · simp at hm'
        | closeChans =>
          simp only at hm'
          split at hm'
          · injection hm' with hm'; subst hm'; simp at hc
          · injection hm' with hm'; subst hm'
            exact ⟨rfl, fun q wk' h hx => ⟨wk', h, hx⟩, fun h => .inr ⟨_, rfl⟩⟩
        | openFile w nm hd =>
          simp only at hm'
          injection hm' with hm'; subst hm'
          exact ⟨rfl, fun q wk' h hx => ⟨wk', h, hx⟩, fun h => .inl h⟩
        | flowCreated t u id =>
          simp only at hm'
          injection hm' with hm'; subst hm'
          exact ⟨rfl, fun q wk' h hx => ⟨wk', h, hx⟩, fun h => .inl h⟩
        | flowDeleted t u =>
          simp only at hm'
          injection hm' with hm'; subst hm'
          exact ⟨rfl, fun q wk' h hx => ⟨wk', h, hx⟩, fun h => .inl h⟩
        | observeSent x =>
          simp only at hm'
          injection hm' with hm'; subst hm'
          exact ⟨rfl, fun q wk' h hx => ⟨wk', h, hx⟩, fun h => .inl h⟩
        | observeReceived x =>
          simp only at hm'
          injection hm' with hm'; subst hm'
          exact ⟨rfl, fun q wk' h hx => ⟨wk', h, hx⟩, fun h => .inl h⟩
    obtain ⟨k1, k2, k3, k4⟩ := key
    refine ⟨k2, fun q wk' hq hx => ?_, fun hcl => ?_, by simp, hnr, fun e => absurd (k1 ▸ e) hnr, by simp⟩
    · obtain ⟨wk, h1, h2⟩ := k3 q wk' hq hx
      exact .inl ⟨wk, h1, h2, by simp⟩
    · rcases k4 hcl with h1 | h1
      · exact .inl h1
      · exact .inr ⟨rfl, h1⟩
  | worker i =>
    simp only at h
    obtain ⟨m', hm', rfl⟩ := Option.map_eq_some_iff.1 h
    simp only at hc ⊢
    have key : ∃ wk pc q, p.m.workers[i]? = some wk ∧ m'.workers = p.m.workers.set i ⟨q, pc⟩ ∧ m'.closed = p.m.closed ∧ wk.pc ≠ .exited
        ∧ (pc = .exited → ∃ os, p.workerOps i = os ++ [.done]) := by
      unfold MState.workerStep at hm'
      unfold Proc.workerOps
      cases hw : p.m.workers[i]? with
      | none => rw [hw] at hm'; simp at hm'
      | some wk =>
        rw [hw] at hm'
        obtain ⟨q, pc⟩ := wk
        simp only at hm' ⊢
        cases pc with
        | idle =>
          cases q with
          | nil =>
            simp only at hm'
            split at hm'
            · injection hm' with hm'; subst hm'
              exact ⟨_, .exited, [], rfl, rfl, rfl, by simp, fun _ => ⟨[.ended (.tasks i)], rfl⟩⟩
            · simp at hm'
          | cons t ts =>
            simp only at hm'
            injection hm' with hm'; subst hm'
            exact ⟨_, .got t, ts, rfl, rfl, rfl, by simp, by simp⟩
        | got t =>
          obtain ⟨m, w⟩ := t
          cases m with
          | none =>
            cases w with
            | none => simp only at hm'; injection hm' with hm'; subst hm'; simp at hc
            | some w =>
              simp only at hm'
              injection hm' with hm'; subst hm'
              exact ⟨_, .idle, q, rfl, rfl, rfl, by simp, by simp⟩
          | some r =>
            cases w with
            | none => simp only at hm'; injection hm' with hm'; subst hm'; simp at hc
            | some w =>
              simp only at hm'
              cases ha : anonymizeRecord me.anon r with
              | none =>
                rw [ha] at hm'
                injection hm' with hm'; subst hm'
                exact ⟨_, .idle, q, rfl, rfl, rfl, by simp, by simp⟩
              | some r' =>
                rw [ha] at hm'
                injection hm' with hm'; subst hm'
                exact ⟨_, .write1 w (me.json r'), q, rfl, rfl, rfl, by simp, by simp⟩
        | write1 w b =>
          simp only at hm'
          injection hm' with hm'; subst hm'
          exact ⟨_, .write2 w, q, rfl, rfl, rfl, by simp, by simp⟩
        | write2 w =>
          simp only at hm'
          injection hm' with hm'; subst hm'
          exact ⟨_, .idle, q, rfl, rfl, rfl, by simp, by simp⟩
        | exited => simp at hm'
    obtain ⟨wk, pc, q, k1, k2, k3, k4, k5⟩ := key
    have hlt : i < p.m.workers.length := (List.getElem?_eq_some_iff.1 k1).1
    refine ⟨by rw [k2]; simp, fun q' wk' hq hx => ?_, fun hcl => .inl (by rw [← k3]; exact hcl), fun q' e => ?_, hnr, fun e => absurd e hnr, by simp⟩
    · rw [k2] at hq
      by_cases e : i = q'
      · subst e
        rw [List.getElem?_set_self hlt] at hq
        injection hq with hq; subst hq
        exact .inr ⟨rfl, k5 hx⟩
      · rw [List.getElem?_set_ne e] at hq
        exact .inl ⟨wk', hq, hx, by simpa using e⟩
    · injection e with e; subst e; exact hlt

theorem end_step {me : MEnv} {env : Env} {n : Nat} {home : Nat → Nat} {prog done : List Action} {p p' : Proc} {F : List Action} {L : Log}
    (hp : ProgOK n home prog) (hm : MInv me n home prog done (p.m.more F)) (hi : EndInv p L) (c : PChoice) (h : p.step me env c = some p')
    (hc : p'.m.crashed = false) (hs : p.m.closed = true → c ≠ .saver) : EndInv p' (L ++ (p.ops c).map (fun o => (c, o))) := by
  obtain ⟨e1, e2, e3, e4, e5, e6, e7⟩ := step_end h hc
  constructor
  · intro q wk' hq hx
    rcases e2 q wk' hq hx with ⟨wk, hw, hx', hne⟩ | ⟨rfl, os, ho⟩
    · exact (hi.exited q wk hw hx').other (Ne.symm hne) _
    · rw [ho]; exact through_now _ _ _
  · intro hcl
    rcases e3 hcl with hcl' | ⟨rfl, os, ho⟩
    · exact (hi.closed hcl').other (Ne.symm (hs hcl')) _
    · rw [ho]; exact through_now _ _ _
  · intro i q o hg
    rw [e1]
    rcases get_app hg with hg | ⟨-, hg⟩
    · exact hi.ids i q o hg
    · obtain ⟨o', -, he⟩ := List.mem_map.1 (List.mem_of_getElem? hg)
      simp only [Prod.mk.injEq] at he
      exact e4 q he.1
  · intro hnr i g hg
    rcases get_app hg with hg | ⟨-, hg⟩
    · exact hi.nowait e5 i g hg
    · obtain ⟨o', ho', he⟩ := List.mem_map.1 (List.mem_of_getElem? hg)
      simp only [Prod.mk.injEq] at he
      rw [he.2] at ho'
      obtain ⟨a, b⟩ := mem_ops_wait ho'
      exact hnr (e7 a b)
  · intro hr
    obtain ⟨rfl, hw, hwg⟩ := e6 hr
    have hops : p.ops .main = [.wait] := by simp [Proc.ops, Proc.mainOps, hw]
    refine ⟨L, by rw [hops]; rfl, ?_⟩
    rw [hops]
    have hlast : (L ++ [Op.wait].map (fun o => (PChoice.main, o)))[L.length]? = some (.main, Op.wait) := by simp
    obtain ⟨-, f2, -⟩ := (wg_zero hp hm).1 hwg
    have hcl : p.m.closed = true := by
      have h1 := hm.wg
      rw [show (p.m.more F).wg = 0 from hwg] at h1
      cases hx : p.m.closed with
      | true => rfl
      | false => rw [show (p.m.more F).closed = false from hx] at h1; simp at h1
    have thr : ∀ (i : Nat) g o, L[i]? = some (g, o) → Through g L → HB (L ++ [Op.wait].map (fun o => (PChoice.main, o))) i L.length := by
      rintro i g o hg ⟨d, h1, h2⟩
      have hd : HB (L ++ [Op.wait].map (fun o => (PChoice.main, o))) d L.length := .done (get_ext _ h1) hlast
      rcases Nat.lt_or_ge i d with hlt | hge
      · exact .trans (.order hlt (get_ext _ hg) (get_ext _ h1)) hd
      · have : i = d := by have := h2 i o hg; omega
        subst this; exact hd
    intro i hlt
    obtain ⟨⟨g, o⟩, hg⟩ : ∃ x, L[i]? = some x := ⟨_, List.getElem?_eq_getElem hlt⟩
    cases g with
    | main => exact .order hlt (get_ext _ hg) hlast
    | saver => exact thr i _ o hg (hi.closed hcl)
    | worker q =>
      have hq := hi.ids i q o hg
      obtain ⟨wk, hwk⟩ : ∃ x, p.m.workers[q]? = some x := ⟨_, List.getElem?_eq_getElem hq⟩
      exact thr i _ o hg (hi.exited q wk hwk (f2 wk (List.mem_of_getElem? hwk)).1)

/-- When the channels of the marshallers have been closed the saver is through. -/
theorem saver_through {me : MEnv} {env : Env} {bs : List MessageBlock} {p : Proc} (hpi : PInv me env bs p) {s : Saver} (h : runSaver env bs = some s)
    (hc : p.m.crashed = false) {n : Nat} {home : Nat → Nat} {done : List Action} (hp : ProgOK n home (program s))
    (hm : MInv me n home (program s) done (p.m.more (newActions p.loop.svr s))) (hcl : p.m.closed = true) : p.step me env .saver = none := by
  have hr : (p.m.more (newActions p.loop.svr s)).rem = [] := by
    apply Classical.byContradiction
    intro hne
    have := minv_open hp hm hne
    rw [show (p.m.more (newActions p.loop.svr s)).closed = p.m.closed from rfl, hcl] at this
    simp at this
  have hr : p.m.rem ++ newActions p.loop.svr s = [] := hr
  obtain ⟨h1, h2⟩ := List.append_eq_nil_iff.1 hr
  have he : p.ended = true := by
    cases hx : p.ended with
    | true => rfl
    | false =>
      have := (loop_prefix hpi h hc).2.2 hx
      have h3 := congrArg List.length h2
      rw [newActions_length] at h3
      simp at h3; omega
  unfold Proc.step Proc.saverStep
  rw [h1, he]
  simp

/-- State and log of the process after schedule `cs` when the collector submits the blocks `bs`. -/
def runLog (me : MEnv) (env : Env) (bs : List MessageBlock) (cs : List PChoice) : Option (Proc × Log) :=
  Proc.execLog me env cs (procInit bs env.marshallers) []

theorem execLog_fst (me : MEnv) (env : Env) (cs : List PChoice) (p : Proc) (L : Log) :
    (Proc.execLog me env cs p L).map (·.1) = Proc.exec me env cs p := by
  induction cs generalizing p L with
  | nil => rfl
  | cons c cs ih =>
    simp only [Proc.execLog, Proc.exec]
    cases p.step me env c with
    | none => rfl
    | some p' => exact ih p' _

theorem exec_inv {me : MEnv} {env : Env} {bs : List MessageBlock} {s : Saver} (h : runSaver env bs = some s) (hm : 0 < env.marshallers)
    (hm' : env.marshallers < 2 ^ 64) (cs : List PChoice) {p p' : Proc} {L L' : Log} (hp : PInv me env bs p) (hc : p.m.crashed = false)
    (ha : AccInv me (homeOf s) p.m L) (he : EndInv p L) (hr : Proc.execLog me env cs p L = some (p', L')) :
    PInv me env bs p' ∧ p'.m.crashed = false ∧ AccInv me (homeOf s) p'.m L' ∧ EndInv p' L' := by
  induction cs generalizing p L with
  | nil =>
    simp only [Proc.execLog, Option.some.injEq, Prod.mk.injEq] at hr
    obtain ⟨rfl, rfl⟩ := hr
    exact ⟨hp, hc, ha, he⟩
  | cons c cs ih =>
    simp only [Proc.execLog] at hr
    obtain ⟨p1, h1, h2⟩ := Option.bind_eq_some_iff.1 hr
    have hok := program_ok env bs s h hm hm'
    obtain ⟨cs0, hsim⟩ := sim_full hp h hc
    obtain ⟨done, hminv⟩ := process_inv me env bs s h hm hm' cs0 _ hsim
    have hc1 := (pstep_ok hp h hm hm' c h1).1
    refine ih (pinv_step hp c h1) hc1 (acc_step hok hminv ha c h1 hc1) (end_step hok hminv he c h1 hc1 ?_) h2
    rintro hcl rfl
    rw [saver_through hp h hc hok hminv hcl] at h1
    simp at h1

theorem runLog_inv {me : MEnv} {env : Env} {bs : List MessageBlock} {s : Saver} (h : runSaver env bs = some s) (hm : 0 < env.marshallers)
    (hm' : env.marshallers < 2 ^ 64) {cs : List PChoice} {p : Proc} {L : Log} (hr : runLog me env bs cs = some (p, L)) :
    AccInv me (homeOf s) p.m L ∧ EndInv p L :=
  (exec_inv h hm hm' cs (pinv_init me env bs) rfl (acc_init me _ _) (end_init bs _) hr).2.2

end TcpInfo
