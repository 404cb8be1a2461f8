import Verif.Spec.Creations
import Verif.Lemmas.SaverRun
import Verif.Lemmas.SaverInv
/-!
# The attempts to create files in a run
-/

namespace TcpInfo
open Spec

/-! ## One report -/

theorem failures_append (a b : List Creation) : failures (a ++ b) = failures a ++ failures b := by simp [failures]


/-- `queue` and its attempts. -/
theorem queue_creates (env : Env) (s : Saver) (msg : ArchivalRecord) (idm : InetDiagMsg) (hp : parseIDM msg.raw = .ok idm) (s' : Saver) (e : Option GoErr)
    (h : s.queue env msg = some (s', e)) (hi : FInv env s) :
    (1 ≤ env.marshallers → failures (queueCreates env s msg) = if e = none ∨ cookieOf idm = 0 then [] else [cookieOf idm])
    ∧ (e = none → cookieOf idm ≠ 0)
    ∧ (∀ c ∈ queueCreates env s msg, c.position ≤ s'.trace.length ∧ AllClosed (env.uuid c.cookie) (s'.trace.take c.position)
        ∧ (c.ok = true → ∃ a, s'.trace[c.position]? = some a ∧ OpensFile (env.uuid c.cookie) a)) := by
  unfold Saver.queue at h
  unfold queueCreates
  rw [hp] at h ⊢
  simp only at h ⊢
  by_cases hk0 : cookieOf idm = 0
  · rw [if_pos hk0] at h
    injection h with h; injection h with h1 h2; subst h1 h2
    simp [hk0, failures]
  rw [if_neg hk0] at h
  by_cases hm : env.marshallers < 1
  · rw [if_pos hm] at h
    injection h with h; injection h with h1 h2; subst h1 h2
    refine ⟨fun h => by omega, fun h => by simp at h, ?_⟩
    simp [hk0, hm]
  rw [if_neg hm] at h
  simp only [if_neg hk0, if_neg hm]
  obtain ⟨g1, g2⟩ := steps_getConn env s (cookieOf idm) idm msg.timestamp hk0 rfl
  generalize s.getConn env (cookieOf idm) idm msg.timestamp = sc at g1 g2 h ⊢
  obtain ⟨c1, -⟩ := steps_closeExpired env sc.1 (cookieOf idm) sc.2 g2
  generalize sc.1.closeExpired env (cookieOf idm) sc.2 = sc2 at c1 h ⊢
  have hf := (g1.trans c1).inv (finv_step env) hi
  by_cases hw : sc2.2.writer = none
  · have hcl : AllClosed (env.uuid (cookieOf idm)) sc2.1.trace := by
      intro w n hd ho hu
      have hlt : w < sc2.1.nextWriter := by
        refine Decidable.byContradiction fun hn => ?_
        have := hf.fresh w (by simpa using hn)
        simp only at this
        rw [this] at ho; simp at ho
      obtain ⟨k, n', hd', ws, own, hh⟩ := hf.files w hlt
      simp only at hh
      rcases hh with ⟨a1, ⟨c, a2, a3⟩, -⟩ | ⟨a1, -⟩
      · rw [a1] at ho
        have : n = n' := by
          rcases List.mem_cons.1 ho with e | e
          · injection e
          · simp at e
        subst this
        have hk := env.uuid_inj _ _ (own.name.symm.trans hu)
        subst hk
        rw [GoMap.get_set_self] at a2
        injection a2 with a2; subst a2
        rw [hw] at a3; simp at a3
      · exact ⟨queueOf env k, by rw [a1]; simp⟩
    rw [if_pos hw] at h ⊢
    unfold Saver.rotate at h
    unfold rotateCreates
    have hdir : (sc2.1.rotateDir env sc2.2).1.trace = sc2.1.trace ∧ (sc2.1.rotateDir env sc2.2).1.nextWriter = sc2.1.nextWriter := by
      unfold Saver.rotateDir; split <;> exact ⟨rfl, rfl⟩
    cases hok : env.createOK (sc2.1.rotateDir env sc2.2).1.tick with
    | false =>
      simp only [hok, if_true] at h
      injection h with h; injection h with h1 h2; subst h1 h2
      refine ⟨fun _ => by simp [failures, hk0], fun h => by simp at h, ?_⟩
      intro c hc
      have : c = _ := List.mem_singleton.1 hc
      subst this
      simp only [hdir.1, List.take_length]
      exact ⟨Nat.le_refl _, hcl, fun h => by simp at h⟩
    | true =>
      simp only [hok, Bool.true_eq_false, if_false] at h
      injection h with h; injection h with h1 h2; subst h1 h2
      refine ⟨fun _ => by simp [failures], fun _ => hk0, ?_⟩
      intro c hc
      have : c = _ := List.mem_singleton.1 hc
      subst this
      simp only [Saver.emit, hdir.1]
      refine ⟨by simp, ?_, fun _ => ?_⟩
      · rw [List.append_assoc, List.take_append_of_le_length (Nat.le_refl _), List.take_length]; exact hcl
      · have hid : sc2.2.id.cookieUint64 = cookieOf idm := by
          have := hf.cookie (cookieOf idm) sc2.2 (by simp only; rw [GoMap.get_set_self])
          exact this
        refine ⟨_, by rw [List.append_assoc, List.getElem?_append_right (Nat.le_refl _)]; simp; rfl, _, _, _, rfl, ?_⟩
        simp [hid]
  · rw [if_neg hw] at h ⊢
    simp only at h
    injection h with h; injection h with h1 h2; subst h1 h2
    refine ⟨fun _ => by simp [failures], fun _ => hk0, fun c hc => by simp at hc⟩

/-- A report is queued if and only if it is due. -/
theorem swap_creates (env : Env) (hv : ViewOK env) (h : List Call) (s : Saver) (hc : s.cache = cacheAfter h) (r : ArchivalRecord)
    (hr : complete r = true) (hi : InfoOK r) (hh : ∀ p ∈ (cycles h).1, InfoOK p) (s' : Saver) (hs : s.swapAndQueue env r = some s') :
    (¬ Due h r → swapCreates env s r = [] ∧ s'.trace = s.trace)
    ∧ (Due h r → ∃ s0 e, s0.trace = s.trace ∧ s0.conns = s.conns ∧ s0.nextWriter = s.nextWriter ∧ s0.queue env r = some (s', e)
        ∧ swapCreates env s r = queueCreates env s0 r) := by
  obtain ⟨idm, hidm, hck⟩ := cookieOf_parse hr
  have hup := update_reference h r hr
  unfold Saver.swapAndQueue at hs
  unfold swapCreates
  simp only at hs ⊢
  rw [hc, hup] at hs ⊢
  cases href : reference h r with
  | none =>
    have hdue : Due h r := by intro p hp; rw [href] at hp; simp at hp
    rw [href] at hs
    simp only at hs ⊢
    refine ⟨fun hn => absurd hdue hn, fun _ => ?_⟩
    obtain ⟨⟨s1, e⟩, h1, h2⟩ := Option.map_eq_some_iff.1 hs
    simp only at h2; subst h2
    exact ⟨_, e, by rfl, by rfl, by rfl, h1, rfl⟩
  | some p =>
    rw [href] at hs
    simp only [hidm] at hs ⊢
    obtain ⟨hpm, hpk⟩ := reference_mem href
    have hpc := cycles_complete h p (Or.inl hpm)
    obtain ⟨ch, hcmp, hch⟩ := compare_due r p hr hpc hi (hh p hpm)
    have hdue : Due h r ↔ ch ≠ .noMajorChange := by
      rw [hch]
      constructor
      · intro hd; exact hd p href
      · intro hd p' hp'
        rw [href] at hp'; injection hp' with hp'; subst hp'; exact hd
    have hvi : InfoOK (env.view s.tick p) := by
      intro v hv'
      refine hh p hpm v ?_
      rw [attrVal_eq, ← attrs_getD (hv s.tick p), ← attrVal_eq]; exact hv'
    have hcmp' : compareRecords r (some (env.view s.tick p)) = .ok ch := by rw [compare_view (hv s.tick p) hi hvi, hcmp]
    rw [hcmp'] at hs ⊢
    simp only at hs ⊢
    by_cases hcc : ch ≠ .noMajorChange
    · rw [if_pos hcc] at hs ⊢
      refine ⟨fun hn => absurd (hdue.2 hcc) hn, fun _ => ?_⟩
      obtain ⟨⟨s1, e⟩, h1, h2⟩ := Option.map_eq_some_iff.1 hs
      simp only at h2; subst h2
      refine ⟨_, e, ?_, ?_, ?_, h1, rfl⟩
      · simp only [Saver.recordClosing]; split <;> rfl
      · simp only [Saver.recordClosing]; split <;> rfl
      · simp only [Saver.recordClosing]; split <;> rfl
    · rw [if_neg hcc] at hs ⊢
      refine ⟨fun _ => ⟨rfl, ?_⟩, fun hd => absurd (hdue.1 hd) hcc⟩
      injection hs with hs; subst hs
      simp only [Saver.recordClosing]; split <;> rfl


/-! ## Runs -/

/-- Attempts made for a list of reports. -/
def createsAll (env : Env) : List ArchivalRecord → Saver → List Creation
  | [], _ => []
  | r :: rs, s => swapCreates env s r ++ match s.swapAndQueue env r with
    | none => []
    | some s' => createsAll env rs s'

theorem createsAll_append (env : Env) (a b : List ArchivalRecord) (s s' : Saver) (h : s.swapAll env a = some s') :
    createsAll env (a ++ b) s = createsAll env a s ++ createsAll env b s' := by
  induction a generalizing s with
  | nil => simp only [Saver.swapAll] at h; injection h with h; subst h; rfl
  | cons r a ih =>
    simp only [Saver.swapAll] at h
    obtain ⟨s1, h1, h2⟩ := Option.bind_eq_some_iff.1 h
    simp only [List.cons_append, createsAll, h1, ih s1 h2, List.append_assoc]

theorem handleCreates_all (env : Env) (t : Int) (msgs : List (Option NetlinkMessage)) (s : Saver) (a b : UInt64) (p : Saver × UInt64 × UInt64)
    (h : s.handleType env t msgs a b = some p) : handleCreates env t msgs s = createsAll env (msgs.filterMap (reportOf env.exclude t)) s := by
  induction msgs generalizing s a b with
  | nil => rfl
  | cons m msgs ih =>
    cases m with
    | none => exact ih s a b h
    | some msg =>
      simp only [Saver.handleType] at h
      rw [List.filterMap_cons, handleCreates]
      cases hmk : makeArchivalRecord msg env.exclude with
      | panic => rw [hmk] at h; simp at h
      | err e => rw [hmk] at h; simp only [reportOf, hmk]; exact ih s a b h
      | ok o =>
        cases o with
        | none => rw [hmk] at h; simp only [reportOf, hmk]; exact ih s a b h
        | some ar =>
          rw [hmk] at h
          simp only [reportOf, hmk, createsAll]
          simp only at h
          cases hs : s.swapAndQueue env { ar with timestamp := t } with
          | none => rw [hs] at h; simp at h
          | some s1 =>
            rw [hs] at h
            simp only at h ⊢
            rw [ih s1 _ _ h]

theorem blockCreates_all (env : Env) (l : LoopState) (b : MessageBlock) (l' : LoopState) (h : l.block env b = some l') :
    blockCreates env l b = createsAll env (reports env.exclude b) l.svr := by
  unfold LoopState.block at h
  unfold blockCreates
  split at h
  · simp at h
  · rename_i s a1 b1 h4
    rw [h4]
    split at h
    · simp at h
    · rename_i s' a2 b2 h6
      rw [reports, createsAll_append env _ _ _ _ (handleType_swapAll env _ _ _ _ _ _ _ _ h4).1, handleCreates_all env _ _ _ _ _ _ h4]
      simp only
      rw [handleCreates_all env _ _ _ _ _ _ h6]

theorem blocksCreates_append (env : Env) (a b : List MessageBlock) (l l' : LoopState) (h : LoopState.blocks env a l = some l') :
    blocksCreates env (a ++ b) l = blocksCreates env a l ++ blocksCreates env b l' := by
  induction a generalizing l with
  | nil => simp only [LoopState.blocks] at h; injection h with h; subst h; rfl
  | cons x a ih =>
    simp only [LoopState.blocks] at h
    obtain ⟨l1, h1, h2⟩ := Option.bind_eq_some_iff.1 h
    simp only [List.cons_append, blocksCreates, h1, ih l1 h2, List.append_assoc]

/-- Induction over a part of a run together with its attempts. -/
theorem blocks_creates (env : Env) (P : List Call → LoopState → List Creation → Prop) (Q : ArchivalRecord → Prop)
    (hu : ∀ h l L r s', complete r = true → Q r → P h l L → l.svr.swapAndQueue env r = some s' →
      P (h ++ [.update r]) { l with svr := s' } (L ++ swapCreates env l.svr r))
    (he : ∀ h l L l1 t s4 s6 r4 r6, P h l L → l.finish env = some l1 → P (h ++ [.endCycle]) (l1.report t s4 s6 r4 r6) L)
    (bs : List MessageBlock) (hQ : ∀ b ∈ bs, ∀ r ∈ reports env.exclude b, Q r) (h : List Call) (l0 l : LoopState) (L : List Creation) (hp : P h l0 L)
    (hb : LoopState.blocks env bs l0 = some l) : P (h ++ history env.exclude bs) l (L ++ blocksCreates env bs l0) := by
  induction bs generalizing h l0 L with
  | nil =>
    simp only [LoopState.blocks] at hb; injection hb with hb; subst hb
    simpa [history, blocksCreates] using hp
  | cons b bs ih =>
    simp only [LoopState.blocks] at hb
    obtain ⟨l1, hb1, hb2⟩ := Option.bind_eq_some_iff.1 hb
    obtain ⟨s, l2, s4, s6, r4, r6, e1, e2, e3, e4, e5⟩ := block_decompose env l0 b l1 hb1
    have hupd : ∀ (rs : List ArchivalRecord), (∀ r ∈ rs, complete r = true ∧ Q r) → ∀ (h : List Call) (l : LoopState) (L : List Creation) (s : Saver), P h l L →
        l.svr.swapAll env rs = some s → P (h ++ rs.map .update) { l with svr := s } (L ++ createsAll env rs l.svr) := by
      intro rs
      induction rs with
      | nil =>
        intro _ h l L s hp hs
        simp only [Saver.swapAll] at hs; injection hs with hs; subst hs
        simpa [createsAll] using hp
      | cons r rs ihr =>
        intro hrs h l L s hp hs
        simp only [Saver.swapAll] at hs
        obtain ⟨s1, hs1, hs2⟩ := Option.bind_eq_some_iff.1 hs
        have hr := hrs r (by simp)
        have := ihr (fun r' hr' => hrs r' (by simp [hr'])) (h ++ [.update r]) { l with svr := s1 } _ s (hu h l L r s1 hr.1 hr.2 hp hs1) hs2
        simp only [createsAll, hs1]
        simpa using this
    have p1 := hupd (reports env.exclude b) (fun r hr => ⟨reports_complete hr, hQ b (by simp) r hr⟩) h l0 L s hp e1
    have p2 := he _ _ _ l2 b.v4Time s4 s6 r4 r6 p1 e2
    rw [← e3] at p2
    have p3 := ih (fun b' hb' => hQ b' (by simp [hb'])) _ _ _ p2 hb2
    have e : h ++ history env.exclude (b :: bs) = (h ++ (reports env.exclude b).map .update ++ [.endCycle]) ++ history env.exclude bs := by
      simp [history]
    rw [e, blocksCreates, blockCreates_all env l0 b l1 hb1, hb1, ← List.append_assoc]
    exact p3

end TcpInfo
