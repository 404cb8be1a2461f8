import Verif.Lemmas.LineLength
import Verif.Spec.Clock
/-!
# The saver without its wall clock

Leaving the times out of a state and then taking a step with a wall clock that always shows the zero time is the same as taking the step and then leaving the
times out.
-/

namespace TcpInfo
open Spec

/-- A map with its values changed. -/
def GoMap.over {α β : Type} (f : α → β) (m : GoMap α) : GoMap β := m.map (fun p => (p.1, f p.2))

namespace GoMap
variable {α β : Type} (f : α → β)
theorem over_get (m : GoMap α) (k : UInt64) : (m.over f).get k = (m.get k).map f := by
  induction m with
  | nil => rfl
  | cons p m ih =>
    obtain ⟨k', v⟩ := p
    show (if k' = k then some (f v) else GoMap.get (over f m) k) = (if k' = k then some v else GoMap.get m k).map f
    split
    · rfl
    · exact ih
theorem over_del (m : GoMap α) (k : UInt64) : (m.over f).del k = (m.del k).over f := by
  induction m with
  | nil => rfl
  | cons p m ih =>
    obtain ⟨k', v⟩ := p
    show List.filter _ ((k', f v) :: over f m) = over f (List.filter _ ((k', v) :: m))
    by_cases h : k' = k
    · rw [List.filter_cons_of_neg (by simpa using h), List.filter_cons_of_neg (by simpa using h)]; exact ih
    · rw [List.filter_cons_of_pos (by simpa using h), List.filter_cons_of_pos (by simpa using h)]
      exact congrArg (List.cons _) ih
theorem over_set (m : GoMap α) (k : UInt64) (v : α) : (m.over f).set k (f v) = (m.set k v).over f := by
  show (k, f v) :: (m.over f).del k = (k, f v) :: (m.del k).over f
  rw [over_del]
theorem over_keys (m : GoMap α) : (m.over f).keys = m.keys := by
  unfold keys over; rw [List.map_map]; rfl
end GoMap

def untimedConn (c : Conn) : Conn := { c with startTime := zeroTime }
def untimedCache (c : Cache) : Cache := { c with current := c.current.over untimedRecord, previous := c.previous.over untimedRecord }
def Saver.untimed (s : Saver) : Saver :=
  { s with conns := s.conns.over untimedConn, cache := untimedCache s.cache, trace := Spec.untimed s.trace }
/-- The environment whose wall clock always shows the zero time. -/
def Env.timeless (env : Env) : Env := env.withWall (fun _ => zeroTime) (fun _ => "")

theorem untimed_emit (s : Saver) {a a' : Action} (ha : untimedAct a = some a') : (s.emit a).untimed = s.untimed.emit a' := by
  unfold Saver.emit Saver.untimed Spec.untimed
  simp only [List.filterMap_append, List.filterMap_cons, List.filterMap_nil, ha, Option.map_some]

theorem untimed_quiet (s : Saver) {a : Action} (ha : untimedAct a = none) : (s.emit a).untimed = s.untimed := by
  unfold Saver.emit Saver.untimed Spec.untimed
  simp only [List.filterMap_append, List.filterMap_cons, List.filterMap_nil, ha, Option.map_none, List.append_nil]

variable (env : Env)

theorem untimed_read (s : Saver) : (s.readClock env).untimed = s.untimed.readClock env.timeless := rfl

theorem untimed_dir (s : Saver) (c : Conn) : s.untimed.rotateDir env.timeless (untimedConn c) = ((s.rotateDir env c).1.untimed, "") := by
  unfold Saver.rotateDir
  show (if c.sequence > 0 then _ else _) = _
  split <;> rfl

theorem untimed_rotate (s : Saver) (c : Conn) :
    s.untimed.rotate env.timeless (untimedConn c) = ((s.rotate env c).1.untimed, untimedConn (s.rotate env c).2.1, (s.rotate env c).2.2) := by
  unfold Saver.rotate
  rw [untimed_dir]
  generalize s.rotateDir env c = p
  obtain ⟨p, d⟩ := p
  show (if env.createOK p.tick = false then _ else _) = _
  by_cases hok : env.createOK p.tick = false
  · rw [if_pos hok]; simp only; rw [if_pos hok]; rfl
  · rw [if_neg hok]; simp only; rw [if_neg hok]
    refine Prod.ext ?_ rfl
    exact (untimed_emit { p with tick := p.tick + 1, nextWriter := p.nextWriter + 1 }
      (a := .openFile p.nextWriter ⟨d, env.uuid c.id.cookieUint64, c.sequence⟩ (headerRecord env c)) rfl).symm

theorem untimed_getConn (s : Saver) (k : UInt64) (idm : InetDiagMsg) (t : Int) :
    s.untimed.getConn env.timeless k idm zeroTime = ((s.getConn env k idm t).1.untimed, untimedConn (s.getConn env k idm t).2) := by
  have hg : s.untimed.conns.get k = (s.conns.get k).map untimedConn := GoMap.over_get _ _ _
  unfold Saver.getConn
  rw [hg]
  cases s.conns.get k with
  | some c => rfl
  | none =>
    refine Prod.ext ?_ rfl
    have h1 := untimed_emit (s.readClock env) (a := .flowCreated t (env.uuid k) idm.id.getSockID) rfl
    have h2 : (((s.readClock env).emit (.flowCreated t (env.uuid k) idm.id.getSockID)).conns.set k (newConnection idm t (s.readClock env).clock)).over untimedConn
        = (s.conns.over untimedConn).set k (newConnection idm zeroTime (s.readClock env).clock) :=
      (GoMap.over_set untimedConn s.conns k (newConnection idm t (s.readClock env).clock)).symm
    show ({ s.untimed.readClock env.timeless |>.emit (.flowCreated zeroTime (env.uuid k) idm.id.getSockID) with
      conns := (s.conns.over untimedConn).set k (newConnection idm zeroTime (s.readClock env).clock) } : Saver) = _
    rw [← h2, ← untimed_read, ← h1]
    rfl

theorem untimed_closeExpired (s : Saver) (k : UInt64) (c : Conn) :
    s.untimed.closeExpired env.timeless k (untimedConn c) = ((s.closeExpired env k c).1.untimed, untimedConn (s.closeExpired env k c).2) := by
  unfold Saver.closeExpired
  show (if c.expiration < (s.readClock env).clock ∧ c.writer.isSome then _ else _) = _
  by_cases hx : c.expiration < (s.readClock env).clock ∧ c.writer.isSome
  · rw [if_pos hx]; simp only; rw [if_pos hx]
    refine Prod.ext ?_ rfl
    exact (untimed_emit (s.readClock env) rfl).symm
  · rw [if_neg hx]; simp only; rw [if_neg hx]; rfl

theorem untimed_setConn (s : Saver) (k : UInt64) (c : Conn) :
    ({ s.untimed with conns := s.untimed.conns.set k (untimedConn c) } : Saver) = ({ s with conns := s.conns.set k c } : Saver).untimed := by
  show ({ s.untimed with conns := (s.conns.over untimedConn).set k (untimedConn c) } : Saver) = _
  rw [GoMap.over_set]; rfl

theorem untimed_queue (s : Saver) (m : ArchivalRecord) :
    s.untimed.queue env.timeless (untimedRecord m) = (s.queue env m).map (fun p => (p.1.untimed, p.2)) := by
  unfold Saver.queue
  show (match parseIDM m.raw with | .err _ => none | .panic => none | .ok idm => _) = _
  cases parseIDM m.raw with
  | err e => rfl
  | panic => rfl
  | ok idm =>
    simp only
    by_cases hz : cookieOf idm = 0
    · rw [if_pos hz, if_pos hz]; rfl
    · rw [if_neg hz, if_neg hz]
      by_cases hm : env.marshallers < 1
      · have hm' : env.timeless.marshallers < 1 := hm
        rw [if_pos hm, if_pos hm']; rfl
      · have hm' : ¬ env.timeless.marshallers < 1 := hm
        rw [if_neg hm, if_neg hm']
        have hg := untimed_getConn env s (cookieOf idm) idm m.timestamp
        rw [show (untimedRecord m).timestamp = zeroTime from rfl, hg]
        generalize s.getConn env (cookieOf idm) idm m.timestamp = p
        obtain ⟨p, c⟩ := p
        simp only
        rw [untimed_closeExpired]
        generalize p.closeExpired env (cookieOf idm) c = x
        obtain ⟨x, d⟩ := x
        simp only
        have hr : (if (untimedConn d).writer = none then x.untimed.rotate env.timeless (untimedConn d) else (x.untimed, untimedConn d, none))
            = ((if d.writer = none then x.rotate env d else (x, d, none)).1.untimed, untimedConn (if d.writer = none then x.rotate env d else (x, d, none)).2.1,
               (if d.writer = none then x.rotate env d else (x, d, none)).2.2) := by
          show (if d.writer = none then _ else _) = _
          split
          · exact untimed_rotate env x d
          · rfl
        rw [hr]
        generalize (if d.writer = none then x.rotate env d else (x, d, none)) = y
        obtain ⟨y, d1, e⟩ := y
        simp only
        rw [untimed_setConn]
        cases e with
        | some e => rfl
        | none =>
          simp only [Option.map_some, Option.some.injEq, Prod.mk.injEq, and_true]
          exact (untimed_emit _ rfl).symm

/-- saver/saver.go:293-297, the end of `endConn`. -/
def Saver.finish (s : Saver) (k : UInt64) : Saver :=
  match s.conns.get k with
  | some conn =>
    if conn.writer.isSome then { s.emit (.send (queueOf env k) { message := none, writer := conn.writer }) with conns := s.conns.del k } else s
  | none => s

theorem endConn_finish (s : Saver) (k : UInt64) : s.endConn env k = if env.marshallers = 0 then none else
    some (((s.readClock env).emit (.flowDeleted (env.wall (s.readClock env).clock) (env.uuid k))).finish env k) := by
  unfold Saver.endConn Saver.finish
  simp only
  generalize (s.readClock env).emit (.flowDeleted (env.wall (s.readClock env).clock) (env.uuid k)) = x
  split
  · rfl
  · cases x.conns.get k with
    | none => rfl
    | some c => simp only; split <;> rfl

theorem untimed_finish (s : Saver) (k : UInt64) : s.untimed.finish env.timeless k = (s.finish env k).untimed := by
  have hg : s.untimed.conns.get k = (s.conns.get k).map untimedConn := GoMap.over_get _ _ _
  unfold Saver.finish
  rw [hg]
  cases s.conns.get k with
  | none => rfl
  | some c =>
    simp only [Option.map_some]
    show (if c.writer.isSome then _ else _) = _
    by_cases hw : c.writer.isSome
    · rw [if_pos hw, if_pos hw]
      have h2 := untimed_emit s (a := .send (queueOf env k) ⟨none, c.writer⟩) rfl
      show ({ s.untimed.emit (.send (queueOf env k) ⟨none, c.writer⟩) with conns := (s.conns.over untimedConn).del k } : Saver) = _
      rw [GoMap.over_del, show s.untimed.emit (.send (queueOf env k) ⟨none, c.writer⟩) = (s.emit (.send (queueOf env k) ⟨none, c.writer⟩)).untimed from h2.symm]
      rfl
    · rw [if_neg hw, if_neg hw]

theorem untimed_endConn (s : Saver) (k : UInt64) : s.untimed.endConn env.timeless k = (s.endConn env k).map Saver.untimed := by
  rw [endConn_finish, endConn_finish]
  show (if env.marshallers = 0 then _ else _) = _
  by_cases hm : env.marshallers = 0
  · rw [if_pos hm, if_pos hm]; rfl
  · rw [if_neg hm, if_neg hm]
    have h1 := untimed_emit (s.readClock env) (a := .flowDeleted (env.wall (s.readClock env).clock) (env.uuid k)) rfl
    show some (((s.readClock env).untimed.emit (.flowDeleted zeroTime (env.uuid k))).finish env.timeless k) = some (Saver.untimed _)
    rw [← untimed_finish, h1]

theorem untimed_update (c : Cache) (m : ArchivalRecord) :
    (untimedCache c).update (untimedRecord m) = (untimedCache (c.update m).1,
      match (c.update m).2 with | .ok r => .ok (r.map untimedRecord) | .err e => .err e | .panic => .panic) := by
  unfold Cache.update
  show (match parseIDM m.raw with | .err e => _ | .panic => _ | .ok idm => _) = _
  cases parseIDM m.raw with
  | err e => rfl
  | panic => rfl
  | ok idm =>
    simp only
    have hg : (untimedCache c).previous.get (cookieOf idm) = (c.previous.get (cookieOf idm)).map untimedRecord := GoMap.over_get _ _ _
    rw [hg]
    refine Prod.ext ?_ rfl
    simp only [untimedCache, Cache.mk.injEq, and_true]
    refine ⟨GoMap.over_set _ _ _ _, ?_⟩
    cases c.previous.get (cookieOf idm) with
    | none => rfl
    | some r => exact GoMap.over_del _ _ _

theorem untimed_recordClosing (s : Saver) (k : UInt64) (m old : ArchivalRecord) :
    s.untimed.recordClosing k (untimedRecord m) (untimedRecord old) = (s.recordClosing k m old).untimed := by
  unfold Saver.recordClosing
  show (if hasDiagInfo m = false ∧ hasDiagInfo old = true then _ else _) = _
  split <;> rfl

/-- saver/saver.go:466-480, the end of `swapAndQueue`. -/
def Saver.decide (s : Saver) (m old : ArchivalRecord) : Option Saver :=
  match compareRecords m (some old) with
  | .panic => none
  | .err _ => some s
  | .ok change =>
    if change ≠ .noMajorChange then
      let s := { s with stats := { s.stats with diff := s.stats.diff + 1 } }
      (s.queue env m).map (·.1)
    else some s

theorem untimed_queue1 (s : Saver) (m : ArchivalRecord) :
    (s.untimed.queue env.timeless (untimedRecord m)).map (·.1) = ((s.queue env m).map (·.1)).map Saver.untimed := by
  rw [untimed_queue]
  cases s.queue env m <;> rfl

theorem untimed_decide (s : Saver) (m old : ArchivalRecord) :
    s.untimed.decide env.timeless (untimedRecord m) (untimedRecord old) = (s.decide env m old).map Saver.untimed := by
  unfold Saver.decide
  rw [show compareRecords (untimedRecord m) (some (untimedRecord old)) = compareRecords m (some old) from rfl]
  cases compareRecords m (some old) with
  | panic => rfl
  | err e => rfl
  | ok change =>
    simp only
    split
    · exact untimed_queue1 env { s with stats := { s.stats with diff := s.stats.diff + 1 } } m
    · rfl

theorem untimed_swap (hv : ViewUntimed env) (s : Saver) (m : ArchivalRecord) :
    s.untimed.swapAndQueue env.timeless (untimedRecord m) = (s.swapAndQueue env m).map Saver.untimed := by
  unfold Saver.swapAndQueue
  have hu : s.untimed.cache.update (untimedRecord m) = _ := untimed_update s.cache m
  simp only
  rw [hu]
  generalize s.cache.update m = p
  obtain ⟨c, r⟩ := p
  cases r with
  | panic => rfl
  | err e => rfl
  | ok r =>
    cases r with
    | none => exact untimed_queue1 env { s with stats := { s.stats with total := s.stats.total + 1, new := s.stats.new + 1 }, cache := c } m
    | some cached =>
      simp only [Option.map_some]
      rw [show env.timeless.view s.untimed.tick (untimedRecord cached) = untimedRecord (env.view s.tick cached) from (hv _ _).symm]
      show (match parseIDM m.raw with | .panic => none | .err _ => _ | .ok pmIDM => _) = _
      cases parseIDM m.raw with
      | panic => rfl
      | err e => rfl
      | ok idm =>
        simp only
        have hr := untimed_recordClosing { s with stats := { s.stats with total := s.stats.total + 1 }, cache := c, tick := s.tick + 1 } (cookieOf idm) m
          (env.view s.tick cached)
        exact (congrArg (fun x => Saver.decide env.timeless x (untimedRecord m) (untimedRecord (env.view s.tick cached))) hr).trans
          (untimed_decide env _ m (env.view s.tick cached))

theorem untimed_handleType (hv : ViewUntimed env) (t : Int) (ms : List (Option NetlinkMessage)) : ∀ (s : Saver) (a b : UInt64),
    Saver.handleType env.timeless zeroTime ms s.untimed a b = (Saver.handleType env t ms s a b).map (fun p => (p.1.untimed, p.2)) := by
  induction ms with
  | nil => exact fun s a b => rfl
  | cons m ms ih =>
    intro s a b
    cases m with
    | none => exact ih s a b
    | some m =>
      rw [Saver.handleType, Saver.handleType]
      show (match makeArchivalRecord m env.exclude with | .panic => none | .err _ => _ | .ok none => _ | .ok (some ar) => _) = _
      cases hmk : makeArchivalRecord m env.exclude with
      | panic => rfl
      | err e => exact ih s a b
      | ok r =>
        cases r with
        | none => exact ih s a b
        | some ar =>
          simp only
          have hmeta : ar.metadata = none := (makeArchivalRecord_size hmk).2.2
          have hs := untimed_swap env hv s { ar with timestamp := t }
          rw [show untimedRecord { ar with timestamp := t } = { ar with timestamp := zeroTime } by unfold untimedRecord; rw [hmeta]; rfl] at hs
          rw [hs]
          cases s.swapAndQueue env { ar with timestamp := t } with
          | none => rfl
          | some s1 => exact ih s1 _ _

/-- A state of the main loop without its times and exported rates. -/
def LoopState.untimed (l : LoopState) : LoopState := { l with svr := l.svr.untimed, reported := ⟨0, 0⟩, lastReportTime := 0 }

theorem untimed_finalStats (s : Saver) (k : UInt64) (ar : ArchivalRecord) :
    s.untimed.finalStats k (untimedRecord ar) = ((s.finalStats k ar).1.untimed, (s.finalStats k ar).2) := by
  unfold Saver.finalStats
  show (if hasDiagInfo ar = false then (match s.closingStats.get k with | some st => _ | none => _) else _) = _
  split
  · cases s.closingStats.get k <;> rfl
  · rfl

theorem untimed_expire (hv : ViewUntimed env) (l : LoopState) (res : GoMap ArchivalRecord) (k : UInt64) :
    l.untimed.expire env.timeless (res.over untimedRecord) k = (l.expire env res k).map LoopState.untimed := by
  unfold LoopState.expire
  rw [GoMap.over_get]
  cases res.get k with
  | none => rfl
  | some cached =>
    simp only [Option.map_some]
    rw [show env.timeless.view l.untimed.svr.tick (untimedRecord cached) = untimedRecord (env.view l.svr.tick cached) from (hv _ _).symm]
    have hf := untimed_finalStats { l.svr with tick := l.svr.tick + 1 } k (env.view l.svr.tick cached)
    rw [show ({ l.untimed.svr with tick := l.untimed.svr.tick + 1 } : Saver) = ({ l.svr with tick := l.svr.tick + 1 } : Saver).untimed from rfl, hf]
    generalize ({ l.svr with tick := l.svr.tick + 1 } : Saver).finalStats k (env.view l.svr.tick cached) = p
    obtain ⟨p, st⟩ := p
    simp only
    rw [untimed_endConn]
    cases p.endConn env k <;> rfl

theorem untimed_expireAll (hv : ViewUntimed env) (res : GoMap ArchivalRecord) (ks : List UInt64) : ∀ l : LoopState,
    LoopState.expireAll env.timeless (res.over untimedRecord) ks l.untimed = (LoopState.expireAll env res ks l).map LoopState.untimed := by
  induction ks with
  | nil => exact fun l => rfl
  | cons k ks ih =>
    intro l
    rw [LoopState.expireAll, LoopState.expireAll, untimed_expire env hv]
    cases l.expire env res k with
    | none => rfl
    | some l1 => exact ih l1

theorem untimed_report (l : LoopState) (t : Int) (s4 s6 r4 r6 : UInt64) : (l.report t s4 s6 r4 r6).untimed = l.untimed := by
  unfold LoopState.report
  simp only
  split
  · split
    · split
      · rfl
      · exact congrArg (fun x : Saver => LoopState.mk x ⟨0, 0⟩ l.closed 0) (untimed_quiet l.svr rfl)
    · split
      · exact congrArg (fun x : Saver => LoopState.mk x ⟨0, 0⟩ l.closed 0) (untimed_quiet l.svr rfl)
      · exact congrArg (fun x : Saver => LoopState.mk x ⟨0, 0⟩ l.closed 0) ((untimed_quiet _ rfl).trans (untimed_quiet l.svr rfl))
  · rfl

theorem untimedRecord_idem (r : ArchivalRecord) : untimedRecord (untimedRecord r) = untimedRecord r := by
  unfold untimedRecord
  cases r.metadata <;> rfl

theorem untimedAct_idem (a a' : Action) (h : untimedAct a = some a') : untimedAct a' = some a' := by
  cases a with
  | send q t =>
    obtain ⟨m, w⟩ := t
    simp only [untimedAct, Option.some.injEq] at h
    subst h
    cases m with
    | none => rfl
    | some m => simp only [untimedAct, Option.map_some, untimedRecord_idem]
  | openFile w n hd =>
    simp only [untimedAct, Option.some.injEq] at h
    subst h
    simp only [untimedAct, untimedRecord_idem]
  | observeSent n => simp [untimedAct] at h
  | observeReceived n => simp [untimedAct] at h
  | flowCreated t u id => simp only [untimedAct, Option.some.injEq] at h; subst h; rfl
  | flowDeleted t u => simp only [untimedAct, Option.some.injEq] at h; subst h; rfl
  | closeChans => simp only [untimedAct, Option.some.injEq] at h; subst h; rfl

theorem untimedTrace_idem (tr : List Stamped) : Spec.untimed (Spec.untimed tr) = Spec.untimed tr := by
  induction tr with
  | nil => rfl
  | cons a tr ih =>
    unfold Spec.untimed at ih ⊢
    cases h : untimedAct a.act with
    | none => simp only [List.filterMap_cons, h, Option.map_none]; exact ih
    | some x => simp only [List.filterMap_cons, h, Option.map_some, untimedAct_idem _ _ h]; exact congrArg _ ih

theorem GoMap.over_idem {α : Type} (f : α → α) (hf : ∀ a, f (f a) = f a) (m : GoMap α) : (m.over f).over f = m.over f := by
  unfold GoMap.over
  rw [List.map_map]
  exact List.map_congr_left (fun p _ => by simp [hf])

theorem untimed_idem (l : LoopState) : l.untimed.untimed = l.untimed := by
  unfold LoopState.untimed Saver.untimed untimedCache
  simp only [untimedTrace_idem, GoMap.over_idem untimedRecord untimedRecord_idem, GoMap.over_idem untimedConn (fun _ => rfl)]

theorem untimed_block (hv : ViewUntimed env) (l : LoopState) (b : MessageBlock) :
    (l.untimed.block env.timeless (untimedBlock b)).map LoopState.untimed = (l.block env b).map LoopState.untimed := by
  unfold LoopState.block
  rw [show l.untimed.svr.handleType env.timeless (untimedBlock b).v4Time (untimedBlock b).v4Messages 0 0 = _ from
    untimed_handleType env hv b.v4Time b.v4Messages l.svr 0 0]
  cases Saver.handleType env b.v4Time b.v4Messages l.svr 0 0 with
  | none => rfl
  | some p =>
    obtain ⟨p, s4, r4⟩ := p
    simp only [Option.map_some]
    rw [show p.untimed.handleType env.timeless (untimedBlock b).v6Time (untimedBlock b).v6Messages 0 0 = _ from
      untimed_handleType env hv b.v6Time b.v6Messages p 0 0]
    cases Saver.handleType env b.v6Time b.v6Messages p 0 0 with
    | none => rfl
    | some q =>
      obtain ⟨q, s6, r6⟩ := q
      simp only [Option.map_some]
      have hx := untimed_expireAll env hv q.cache.endCycle.2 (env.order q.tick q.cache.endCycle.2.keys)
        { l with svr := { q with cache := q.cache.endCycle.1, tick := q.tick + 1 } }
      have hk : env.timeless.order q.untimed.tick q.untimed.cache.endCycle.2.keys = env.order q.tick q.cache.endCycle.2.keys :=
        congrArg (env.order q.tick) (GoMap.over_keys _ _)
      rw [hk]
      rw [show ({ l.untimed with svr := { q.untimed with cache := q.untimed.cache.endCycle.1, tick := q.untimed.tick + 1 } } : LoopState)
        = ({ l with svr := { q with cache := q.cache.endCycle.1, tick := q.tick + 1 } } : LoopState).untimed from rfl]
      rw [show q.untimed.cache.endCycle.2 = q.cache.endCycle.2.over untimedRecord from rfl, hx]
      cases LoopState.expireAll env q.cache.endCycle.2 (env.order q.tick q.cache.endCycle.2.keys)
          { l with svr := { q with cache := q.cache.endCycle.1, tick := q.tick + 1 } } with
      | none => rfl
      | some l1 =>
        simp only [Option.map_some]
        rw [untimed_report, untimed_report, untimed_idem]

/-- Two runs that differ only in their wall clocks, one step: the states without times are the same. -/
theorem untimed_block_same (hv : ViewUntimed env) (wall : Int → Int) (date : Int → String) (l l' : LoopState) (b b' : MessageBlock)
    (hl : l.untimed = l'.untimed) (hb : untimedBlock b = untimedBlock b') :
    (l.block env b).map LoopState.untimed = (l'.block (env.withWall wall date) b').map LoopState.untimed := by
  rw [← untimed_block env hv, ← untimed_block (env.withWall wall date) hv, hl, hb]
  rfl

theorem untimed_blocks_same (hv : ViewUntimed env) (wall : Int → Int) (date : Int → String) (bs : List MessageBlock) : ∀ (bs' : List MessageBlock)
    (l l' : LoopState), l.untimed = l'.untimed → bs.map untimedBlock = bs'.map untimedBlock →
    (LoopState.blocks env bs l).map LoopState.untimed = (LoopState.blocks (env.withWall wall date) bs' l').map LoopState.untimed := by
  induction bs with
  | nil =>
    intro bs' l l' hl hb
    cases bs' with
    | nil => exact congrArg some hl
    | cons b' bs' => simp at hb
  | cons b bs ih =>
    intro bs' l l' hl hb
    cases bs' with
    | nil => simp at hb
    | cons b' bs' =>
      simp only [List.map_cons, List.cons.injEq] at hb
      have h1 := untimed_block_same env hv wall date l l' b b' hl hb.1
      rw [LoopState.blocks, LoopState.blocks]
      revert h1
      cases l.block env b <;> cases l'.block (env.withWall wall date) b' <;> simp only [Option.map_some, Option.map_none, Option.bind_some, Option.bind_none,
        reduceCtorEq, false_implies, imp_self, Option.some.injEq]
      exact fun h1 => ih bs' _ _ h1 hb.2

theorem untimed_endAll (ks : List UInt64) : ∀ s : Saver, Saver.endAll env.timeless ks s.untimed = (Saver.endAll env ks s).map Saver.untimed := by
  induction ks with
  | nil => exact fun s => rfl
  | cons k ks ih =>
    intro s
    rw [Saver.endAll, Saver.endAll, untimed_endConn]
    cases s.endConn env k with
    | none => rfl
    | some s1 => exact ih s1

theorem untimed_close (s : Saver) : s.untimed.close env.timeless = (s.close env).map Saver.untimed := by
  unfold Saver.close
  rw [show env.timeless.order s.untimed.tick s.untimed.conns.keys = env.order s.tick s.conns.keys from congrArg (env.order s.tick) (GoMap.over_keys _ _)]
  rw [show ({ s.untimed with tick := s.untimed.tick + 1 } : Saver) = ({ s with tick := s.tick + 1 } : Saver).untimed from rfl, untimed_endAll]
  cases Saver.endAll env (env.order s.tick s.conns.keys) { s with tick := s.tick + 1 } with
  | none => rfl
  | some s1 =>
    simp only [Option.map_some, Option.some.injEq]
    exact (untimed_emit s1 rfl).symm

theorem untimed_run (hv : ViewUntimed env) (wall : Int → Int) (date : Int → String) (bs bs' : List MessageBlock)
    (hb : bs.map untimedBlock = bs'.map untimedBlock) :
    (runSaver env bs).map Saver.untimed = (runSaver (env.withWall wall date) bs').map Saver.untimed := by
  have h := untimed_blocks_same env hv wall date bs bs' newLoop newLoop rfl hb
  unfold runSaver runBlocks
  revert h
  cases LoopState.blocks env bs newLoop <;> cases LoopState.blocks (env.withWall wall date) bs' newLoop <;>
    simp only [Option.map_some, Option.map_none, Option.bind_some, Option.bind_none, reduceCtorEq, false_implies, imp_self, Option.some.injEq]
  rename_i l l'
  intro h
  have hs : l.svr.untimed = l'.svr.untimed := congrArg LoopState.svr h
  rw [← untimed_close, ← untimed_close, hs]
  rfl

end TcpInfo
