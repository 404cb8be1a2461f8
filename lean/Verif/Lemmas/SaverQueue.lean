import Verif.Lemmas.SaverFold
import Verif.Props.Compare
/-!
# Effect of single saver operations on the observable trace
-/

namespace TcpInfo
open Spec

/-- Flow event of an action. -/
def flowEvent (u : String) (a : Stamped) : Option Bool := match a.act with
    | .flowCreated _ u' _ => if u' = u then some true else none
    | .flowDeleted _ u' => if u' = u then some false else none
    | _ => none

/-- Record written by an action. -/
def writtenOf (a : Stamped) : Option ArchivalRecord := match a.act with | .send _ ⟨some r, _⟩ => some r | _ => none

theorem flowEvents_snoc (u : String) (tr : List Stamped) (a : Stamped) : flowEvents u (tr ++ [a]) = flowEvents u tr ++ (flowEvent u a).toList := by
  unfold flowEvents
  rw [List.filterMap_append]
  show _ ++ List.filterMap (flowEvent u) [a] = _
  cases h : flowEvent u a <;> simp [h]

theorem written_snoc (tr : List Stamped) (a : Stamped) : written (tr ++ [a]) = written tr ++ (writtenOf a).toList := by
  unfold written
  rw [List.filterMap_append]
  show _ ++ List.filterMap writtenOf [a] = _
  cases h : writtenOf a <;> simp [h]

/-- The two projections of a state. -/
theorem getConn_effect (env : Env) (s : Saver) (k : UInt64) (idm : InetDiagMsg) (ts : Int) :
    let r := s.getConn env k idm ts
    r.1.conns.get k = some r.2
    ∧ (∀ k', k' ≠ k → r.1.conns.get k' = s.conns.get k')
    ∧ written r.1.trace = written s.trace
    ∧ ∀ u, flowEvents u r.1.trace = flowEvents u s.trace ++ (if u = env.uuid k ∧ s.conns.get k = none then [true] else []) := by
  simp only [Saver.getConn]
  cases h : s.conns.get k with
  | some c => simp [h]
  | none =>
    refine ⟨GoMap.get_set_self _ _ _, fun k' hne => GoMap.get_set_ne _ _ hne, ?_, ?_⟩
    · simp [Saver.emit, Saver.readClock, written_snoc, writtenOf]
    · intro u
      simp only [Saver.emit, Saver.readClock, flowEvents_snoc, flowEvent]
      by_cases hu : u = env.uuid k
      · simp [hu]
      · simp [hu, Ne.symm hu]

theorem closeExpired_effect (env : Env) (s : Saver) (k : UInt64) (c : Conn) :
    let r := s.closeExpired env k c
    r.1.conns = s.conns ∧ written r.1.trace = written s.trace ∧ ∀ u, flowEvents u r.1.trace = flowEvents u s.trace := by
  simp only [Saver.closeExpired]
  split
  · refine ⟨rfl, ?_, ?_⟩
    · simp [Saver.emit, Saver.readClock, written_snoc, writtenOf]
    · intro u; simp [Saver.emit, Saver.readClock, flowEvents_snoc, flowEvent]
  · exact ⟨rfl, rfl, fun _ => rfl⟩

theorem rotate_effect (env : Env) (s : Saver) (c : Conn) :
    let r := s.rotate env c
    r.1.conns = s.conns ∧ written r.1.trace = written s.trace ∧ (∀ u, flowEvents u r.1.trace = flowEvents u s.trace)
    ∧ (r.2.2 = none → ∃ w, r.2.1.writer = some w) ∧ ((∀ n, env.createOK n = true) → r.2.2 = none) := by
  have hd : (s.rotateDir env c).1.conns = s.conns ∧ (s.rotateDir env c).1.trace = s.trace := by
    unfold Saver.rotateDir
    split <;> exact ⟨rfl, rfl⟩
  simp only [Saver.rotate]
  split
  · rename_i hok
    refine ⟨hd.1, by simp only [hd.2], fun u => by simp only [hd.2], fun h => by simp at h, fun h => ?_⟩
    rw [h] at hok; simp at hok
  · refine ⟨hd.1, ?_, ?_, fun _ => ⟨_, rfl⟩, fun _ => rfl⟩
    · simp [Saver.emit, written_snoc, writtenOf, hd.2]
    · intro u; simp [Saver.emit, flowEvents_snoc, flowEvent, hd.2]

/-- Everything `queue` does, as far as connections, records and flow events are concerned. -/
theorem queue_effect (env : Env) (s : Saver) (msg : ArchivalRecord) (idm : InetDiagMsg) (hp : parseIDM msg.raw = .ok idm) :
    ∃ s' e, s.queue env msg = some (s', e)
    ∧ (∀ k', k' ≠ cookieOf idm → s'.conns.get k' = s.conns.get k')
    ∧ written s'.trace = written s.trace ++ (if e = none then [msg] else [])
    ∧ (e = none → ∃ c w, s'.conns.get (cookieOf idm) = some c ∧ c.writer = some w)
    ∧ (∀ u, flowEvents u s'.trace = flowEvents u s.trace ++
        (if u = env.uuid (cookieOf idm) ∧ s.conns.get (cookieOf idm) = none ∧ cookieOf idm ≠ 0 ∧ 1 ≤ env.marshallers then [true] else []))
    ∧ ((∀ n, env.createOK n = true) → cookieOf idm ≠ 0 → 1 ≤ env.marshallers → e = none) := by
  unfold Saver.queue
  rw [hp]
  simp only
  by_cases hk0 : cookieOf idm = 0
  · rw [if_pos hk0]
    exact ⟨s, _, rfl, fun _ _ => rfl, by simp, fun h => by simp at h, fun u => by simp [hk0], fun _ h => absurd hk0 h⟩
  rw [if_neg hk0]
  by_cases hm : env.marshallers < 1
  · rw [if_pos hm]
    refine ⟨s, _, rfl, fun _ _ => rfl, by simp, fun h => by simp at h, fun u => ?_, fun _ _ h => by omega⟩
    rw [if_neg (by rintro ⟨-, -, -, h⟩; omega)]; simp
  rw [if_neg hm]
  obtain ⟨g1, g2, g3, g4⟩ := getConn_effect env s (cookieOf idm) idm msg.timestamp
  generalize s.getConn env (cookieOf idm) idm msg.timestamp = sc at g1 g2 g3 g4
  obtain ⟨c1, c2, c3⟩ := closeExpired_effect env sc.1 (cookieOf idm) sc.2
  generalize sc.1.closeExpired env (cookieOf idm) sc.2 = sc2 at c1 c2 c3
  have r : ∃ sce, (if sc2.2.writer = none then sc2.1.rotate env sc2.2 else (sc2.1, sc2.2, none)) = sce
      ∧ sce.1.conns = sc2.1.conns ∧ written sce.1.trace = written sc2.1.trace ∧ (∀ u, flowEvents u sce.1.trace = flowEvents u sc2.1.trace)
      ∧ (sce.2.2 = none → ∃ w, sce.2.1.writer = some w) ∧ ((∀ n, env.createOK n = true) → sce.2.2 = none) := by
    split
    · exact ⟨_, rfl, rotate_effect env sc2.1 sc2.2⟩
    · rename_i hw
      refine ⟨_, rfl, rfl, rfl, fun _ => rfl, fun _ => ?_, fun _ => rfl⟩
      cases hx : sc2.2.writer with
      | none => exact absurd hx hw
      | some w => exact ⟨w, rfl⟩
  obtain ⟨sce, he, r1, r2, r3, r4, r5⟩ := r
  rw [he]
  have hflow : ∀ u, flowEvents u sce.1.trace = flowEvents u s.trace ++
      (if u = env.uuid (cookieOf idm) ∧ s.conns.get (cookieOf idm) = none ∧ cookieOf idm ≠ 0 ∧ 1 ≤ env.marshallers then [true] else []) := by
    intro u
    rw [r3, c3, g4]
    have : (u = env.uuid (cookieOf idm) ∧ s.conns.get (cookieOf idm) = none) ↔
        (u = env.uuid (cookieOf idm) ∧ s.conns.get (cookieOf idm) = none ∧ cookieOf idm ≠ 0 ∧ 1 ≤ env.marshallers) :=
      ⟨fun h => ⟨h.1, h.2, hk0, by omega⟩, fun h => ⟨h.1, h.2.1⟩⟩
    simp only [this]
  have hconn : ∀ k', k' ≠ cookieOf idm → (sce.1.conns.set (cookieOf idm) sce.2.1).get k' = s.conns.get k' := by
    intro k' hne
    rw [GoMap.get_set_ne _ _ hne, r1, c1, g2 k' hne]
  cases herr : sce.2.2 with
  | some e =>
    refine ⟨_, _, rfl, hconn, ?_, fun h => by simp at h, hflow, fun h => ?_⟩
    · simp only [r2, c2, g3]; simp
    · rw [r5 h] at herr; simp at herr
  | none =>
    refine ⟨_, _, rfl, hconn, ?_, fun _ => ?_, ?_, fun _ _ _ => rfl⟩
    · simp [Saver.emit, written_snoc, writtenOf, r2, c2, g3]
    · obtain ⟨w, hw⟩ := r4 herr
      exact ⟨_, w, GoMap.get_set_self _ _ _, hw⟩
    · intro u
      simp only [Saver.emit, flowEvents_snoc, flowEvent, Option.toList_none, List.append_nil]
      exact hflow u

/-- What `compareRecords` decides, for complete records. -/
theorem compare_due (r p : ArchivalRecord) (hr : complete r = true) (hp : complete p = true) (hir : InfoOK r) (hip : InfoOK p) :
    ∃ ch, compareRecords r (some p) = .ok ch ∧ (ch ≠ .noMajorChange ↔ (attrVal r 2 = none ∨ attrVal p 2 = none ∨ ¬ Unchanged r p)) := by
  have hr' : 72 ≤ (r.rawIDM.getD []).length := of_decide_eq_true hr
  have hp' : 72 ≤ (p.rawIDM.getD []).length := of_decide_eq_true hp
  cases hc : compareRecords r (some p) with
  | panic =>
    exfalso
    rw [C17_panic_iff] at hc
    obtain ⟨-, -, -, a, b, ha, hb, hab⟩ := hc
    have ha' := hir a.val (by rw [attrVal_eq, List.getD_eq_getElem?_getD, ha]; rfl)
    have hb' := hip b.val (by rw [attrVal_eq, List.getD_eq_getElem?_getD, hb]; rfl)
    omega
  | err e =>
    exfalso
    rw [compareRecords_def] at hc
    simp only at hc
    rw [parseIDM_ok (raw := p.raw) hp', parseIDM_ok (raw := r.raw) hr'] at hc
    simp only at hc
    split at hc
    · simp at hc
    · split at hc
      · simp at hc
      · split at hc
        · split at hc
          · split at hc
            · simp at hc
            · split at hc
              · split at hc
                · simp at hc
                · split at hc
                  · simp at hc
                  · split at hc <;> simp at hc
              · simp at hc
          · simp at hc
        · simp at hc
  | ok ch =>
    refine ⟨ch, rfl, ?_⟩
    cases h1 : attrVal r 2 with
    | none =>
      refine ⟨fun _ => Or.inl rfl, fun _ hch => ?_⟩
      exact C14_no_info_is_change r p (Or.inl h1) (by rw [hc, hch])
    | some a =>
      cases h2 : attrVal p 2 with
      | none =>
        refine ⟨fun _ => Or.inr (Or.inl rfl), fun _ hch => ?_⟩
        exact C14_no_info_is_change r p (Or.inr h2) (by rw [hc, hch])
      | some b =>
        have := C14_nochange_iff r p hr' hp' ⟨a, h1, hir a h1⟩ ⟨b, h2, hip b h2⟩
        rw [hc] at this
        simp only [Res.ok.injEq] at this
        simp [this]

end TcpInfo
