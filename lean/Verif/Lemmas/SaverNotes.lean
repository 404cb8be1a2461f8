import Verif.Lemmas.SaverRun
import Verif.Model.Wiring
import Verif.Spec.Subscriber
import Verif.Spec.EventClient
/-!
# What the events of the saver contain
-/

namespace TcpInfo
open Spec

theorem filterMap_congr {α β : Type} {l : List α} {f g : α → Option β} (h : ∀ a ∈ l, f a = g a) : l.filterMap f = l.filterMap g := by
  induction l with
  | nil => rfl
  | cons a l ih => rw [List.filterMap_cons, List.filterMap_cons, h a (by simp), ih (fun x hx => h x (by simp [hx]))]

/-- All actions added satisfy `P`. -/
def Ext (P : Action → Prop) (s s' : Saver) : Prop := ∃ ext, s'.trace = s.trace ++ ext ∧ ∀ a ∈ ext, P a.act

theorem Ext.refl {P : Action → Prop} {s s' : Saver} (h : s'.trace = s.trace) : Ext P s s' := ⟨[], by simp [h], by simp⟩
theorem Ext.trans {P : Action → Prop} {s t u : Saver} (h1 : Ext P s t) (h2 : Ext P t u) : Ext P s u := by
  obtain ⟨e1, a1, b1⟩ := h1
  obtain ⟨e2, a2, b2⟩ := h2
  refine ⟨e1 ++ e2, by rw [a2, a1, List.append_assoc], ?_⟩
  intro a ha
  rcases List.mem_append.1 ha with ha | ha
  · exact b1 a ha
  · exact b2 a ha
theorem Ext.emit {P : Action → Prop} {s t : Saver} (h : Ext P s t) {a : Action} (ha : P a) {u : Saver} (hu : u.trace = (t.emit a).trace) : Ext P s u :=
  h.trans ⟨[⟨t.clock, a⟩], by rw [hu]; rfl, by simpa using ha⟩
theorem Ext.same {P : Action → Prop} {s t u : Saver} (h : Ext P s t) (hu : u.trace = t.trace) : Ext P s u := h.trans (.refl hu)

/-- Open events announce `t0` and `id0`. -/
def Announces (t0 : Int) (id0 : SockID) (a : Action) : Prop := ∀ t u id, a = .flowCreated t u id → t = t0 ∧ id = id0

/-- Not an open event. -/
def NoOpen (a : Action) : Prop := ∀ t u id, a ≠ .flowCreated t u id

theorem getConn_ext (env : Env) (s : Saver) (k : UInt64) (idm : InetDiagMsg) (t : Int) :
    Ext (Announces t idm.id.getSockID) s (s.getConn env k idm t).1 := by
  unfold Saver.getConn
  split
  · exact .refl rfl
  · exact (Ext.refl (s' := s.readClock env) rfl).emit (a := .flowCreated t (env.uuid k) idm.id.getSockID) (by unfold Announces; simp) rfl

theorem closeExpired_ext (env : Env) (s : Saver) (k : UInt64) (c : Conn) (t : Int) (id : SockID) : Ext (Announces t id) s (s.closeExpired env k c).1 := by
  unfold Saver.closeExpired
  simp only
  split
  · exact (Ext.refl (s' := s.readClock env) rfl).emit (by unfold Announces; simp) rfl
  · exact .refl rfl

theorem rotate_ext (env : Env) (s : Saver) (c : Conn) (t : Int) (id : SockID) : Ext (Announces t id) s (s.rotate env c).1 := by
  have hd : (s.rotateDir env c).1.trace = s.trace := by unfold Saver.rotateDir; split <;> rfl
  unfold Saver.rotate
  simp only
  split
  · exact .refl hd
  · exact (Ext.refl (s' := (s.rotateDir env c).1) hd).emit (by unfold Announces; simp) rfl

theorem queue_ext (env : Env) (s s' : Saver) (r : ArchivalRecord) (idm : InetDiagMsg) (hp : parseIDM r.raw = .ok idm) (e : Option GoErr)
    (h : s.queue env r = some (s', e)) : Ext (Announces r.timestamp idm.id.getSockID) s s' := by
  unfold Saver.queue at h
  rw [hp] at h
  simp only at h
  split at h
  · injection h with h; injection h with h1 h2; subst h1; exact .refl rfl
  · split at h
    · injection h with h; injection h with h1 h2; subst h1; exact .refl rfl
    · have g1 := getConn_ext env s (cookieOf idm) idm r.timestamp
      generalize s.getConn env (cookieOf idm) idm r.timestamp = sc at h g1
      have g2 := closeExpired_ext env sc.1 (cookieOf idm) sc.2 r.timestamp idm.id.getSockID
      generalize sc.1.closeExpired env (cookieOf idm) sc.2 = sc2 at h g2
      have g3 : Ext (Announces r.timestamp idm.id.getSockID) sc2.1 (if sc2.2.writer = none then sc2.1.rotate env sc2.2 else (sc2.1, sc2.2, none)).1 := by
        split
        · exact rotate_ext env sc2.1 sc2.2 _ _
        · exact .refl rfl
      generalize (if sc2.2.writer = none then sc2.1.rotate env sc2.2 else (sc2.1, sc2.2, none)) = sce at h g3
      have g := (g1.trans g2).trans g3
      split at h
      · injection h with h; injection h with h1 h2; subst h1; exact g.same rfl
      · injection h with h; injection h with h1 h2; subst h1
        exact g.emit (by unfold Announces; simp) rfl

theorem swap_ext (env : Env) (s s' : Saver) (r : ArchivalRecord) (idm : InetDiagMsg) (hp : parseIDM r.raw = .ok idm)
    (h : s.swapAndQueue env r = some s') : Ext (Announces r.timestamp idm.id.getSockID) s s' := by
  have hq : ∀ s0 : Saver, s0.trace = s.trace → (s0.queue env r).map (·.1) = some s' → Ext (Announces r.timestamp idm.id.getSockID) s s' := by
    intro s0 h0 h1
    obtain ⟨⟨s1, e⟩, h2, h3⟩ := Option.map_eq_some_iff.1 h1
    subst h3
    exact (Ext.refl h0).trans (queue_ext env s0 s1 r idm hp e h2)
  unfold Saver.swapAndQueue at h
  simp only at h
  generalize s.cache.update r = cu at h
  obtain ⟨c, o⟩ := cu
  cases o with
  | panic => simp at h
  | err e => simp only [Option.some.injEq] at h; subst h; exact .refl rfl
  | ok o =>
    cases o with
    | none => simp only at h; refine hq _ ?_ h; rfl
    | some cached =>
      simp only [hp] at h
      generalize hold : env.view s.tick cached = old at h
      split at h
      · simp at h
      · injection h with h; subst h
        exact .refl (recordClosing_frame _ _ _ _).2.1
      · split at h
        · refine hq _ ?_ h
          exact (recordClosing_frame _ _ _ _).2.1
        · injection h with h; subst h
          exact .refl (recordClosing_frame _ _ _ _).2.1

theorem endConn_ext (env : Env) (s s' : Saver) (k : UInt64) (h : s.endConn env k = some s') : Ext NoOpen s s' := by
  have h0 : Ext NoOpen s ((s.readClock env).emit (.flowDeleted (env.wall (s.readClock env).clock) (env.uuid k))) :=
    (Ext.refl (s' := s.readClock env) rfl).emit (by unfold NoOpen; simp) rfl
  unfold Saver.endConn at h
  simp only at h
  split at h
  · simp at h
  · split at h
    · split at h
      · injection h with h; subst h; exact h0.emit (by unfold NoOpen; simp) rfl
      · injection h with h; subst h; exact h0
    · injection h with h; subst h; exact h0

theorem endAll_ext (env : Env) (ks : List UInt64) (s s' : Saver) (h : Saver.endAll env ks s = some s') : Ext NoOpen s s' := by
  induction ks generalizing s with
  | nil => simp only [Saver.endAll] at h; injection h with h; subst h; exact .refl rfl
  | cons k ks ih =>
    simp only [Saver.endAll] at h
    obtain ⟨s1, h1, h2⟩ := Option.bind_eq_some_iff.1 h
    exact (endConn_ext env s s1 k h1).trans (ih s1 h2)

theorem close_ext (env : Env) (s s' : Saver) (h : s.close env = some s') : Ext NoOpen s s' := by
  unfold Saver.close at h
  obtain ⟨s1, h1, rfl⟩ := Option.map_eq_some_iff.1 h
  exact ((Ext.refl (s' := { s with tick := s.tick + 1 }) rfl).trans (endAll_ext env _ _ s1 h1)).emit (by unfold NoOpen; simp) rfl

theorem expireAll_ext (env : Env) (res : GoMap ArchivalRecord) (ks : List UInt64) (l l' : LoopState) (h : LoopState.expireAll env res ks l = some l') :
    Ext NoOpen l.svr l'.svr := by
  induction ks generalizing l with
  | nil => simp only [LoopState.expireAll] at h; injection h with h; subst h; exact .refl rfl
  | cons k ks ih =>
    simp only [LoopState.expireAll] at h
    obtain ⟨l1, h1, h2⟩ := Option.bind_eq_some_iff.1 h
    refine Ext.trans ?_ (ih l1 h2)
    unfold LoopState.expire at h1
    split at h1
    · injection h1 with h1; subst h1; exact .refl rfl
    · simp only at h1
      split at h1
      · simp at h1
      · rename_i s1 hs1
        injection h1 with h1; subst h1
        have := endConn_ext env _ s1 k hs1
        obtain ⟨ext, e1, e2⟩ := this
        rw [(finalStats_frame _ _ _).2.1] at e1
        exact ⟨ext, e1, e2⟩

theorem report_ext (l : LoopState) (t : Int) (s4 s6 r4 r6 : UInt64) : Ext NoOpen l.svr (l.report t s4 s6 r4 r6).svr := by
  unfold LoopState.report
  split
  · simp only
    split <;> split
    · exact .refl rfl
    · exact (Ext.refl rfl).emit (t := l.svr) (by unfold NoOpen; simp) rfl
    · exact (Ext.refl rfl).emit (t := l.svr) (by unfold NoOpen; simp) rfl
    · exact ((Ext.refl rfl).emit (t := l.svr) (by unfold NoOpen; simp) rfl).emit (t := l.svr.emit _) (by unfold NoOpen; simp) rfl
  · exact .refl rfl

/-- The note of an action. -/
def noteOf (u : String) (a : Stamped) : Option Note := match a.act with
  | .flowCreated t u' id => if u' = u then some (.opened t (some id)) else none
  | .flowDeleted _ u' => if u' = u then some .closed else none
  | _ => none

/-- The notes of a trace. -/
def notes (u : String) (tr : List Stamped) : List Note := tr.filterMap (noteOf u)

theorem notes_events (u : String) (tr : List Stamped) : notesOf u ((saverEvents tr).filterMap EventSocket.expected) = notes u tr := by
  unfold notesOf saverEvents notes
  rw [List.filterMap_filterMap, List.filterMap_filterMap]
  apply filterMap_congr
  intro a _
  cases h : a.act <;> simp [eventOf, noteOf, h, EventSocket.expected, EventSocket.flowCreated, EventSocket.flowDeleted]

theorem ext_notes {t0 : Int} {id0 : SockID} {s s' : Saver} (h : Ext (Announces t0 id0) s s') (u : String) (x : List Bool)
    (hx : flowEvents u s'.trace = flowEvents u s.trace ++ x) :
    notes u s'.trace = notes u s.trace ++ x.map (fun b => if b then .opened t0 (some id0) else .closed) := by
  obtain ⟨ext, h1, h2⟩ := h
  rw [h1] at hx ⊢
  unfold flowEvents at hx
  unfold notes
  rw [List.filterMap_append] at hx ⊢
  have hx := List.append_cancel_left hx
  congr 1
  subst hx
  rw [List.map_filterMap]
  apply filterMap_congr
  intro a ha
  have h3 := h2 a ha
  unfold Announces at h3
  cases hact : a.act with
  | flowCreated t u' id =>
    obtain ⟨rfl, rfl⟩ := h3 t u' id hact
    by_cases hu : u' = u <;> simp [noteOf, hact, hu]
  | flowDeleted t u' => by_cases hu : u' = u <;> simp [noteOf, hact, hu]
  | _ => simp [noteOf, hact]

theorem noOpen_notes {s s' : Saver} (h : Ext NoOpen s s') (u : String) (x : List Bool) (hx : flowEvents u s'.trace = flowEvents u s.trace ++ x)
    (hx' : true ∉ x) : notes u s'.trace = notes u s.trace ++ x.map (fun _ => .closed) := by
  obtain ⟨ext, h1, h2⟩ := h
  have h0 : Ext (Announces 0 default) s s' := ⟨ext, h1, fun a ha t u id e => absurd e (h2 a ha t u id)⟩
  rw [ext_notes h0 u x hx]
  congr 1
  apply List.map_congr_left
  intro b hb
  cases b with
  | false => rfl
  | true => exact absurd hb hx'

end TcpInfo
