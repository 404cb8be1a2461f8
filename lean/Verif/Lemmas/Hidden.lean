import Verif.Lemmas.SaverView
import Verif.Lemmas.Clock
/-!
# Two runs of the saver on inputs that differ in addresses only
-/

namespace TcpInfo
open Spec

/-- What of a record does not depend on its addresses, and a further observation `x` of it. -/
abbrev Bare (X : Type) := Int × Option Metadata × (Nat × Bytes × Bytes) × List (Option Bytes) × X

section
variable {X : Type} (x : ArchivalRecord → X)

def bare (r : ArchivalRecord) : Bare X :=
  (r.timestamp, r.metadata, ((r.rawIDM.getD []).length, (r.rawIDM.getD []).take 8, (r.rawIDM.getD []).drop 40),
    (r.attributes.getD []).map (·.map (·.val)), x r)

theorem bare_eq {a b : ArchivalRecord} (h : bare x a = bare x b) : SameButAddresses a b ∧ x a = x b := by
  simp only [bare, Prod.mk.injEq] at h
  obtain ⟨h1, h2, ⟨h3, h4, h5⟩, h6, h7⟩ := h
  exact ⟨⟨h1, h2, ⟨h3, h4, h5⟩, h6⟩, h7⟩

theorem bare_of {a b : ArchivalRecord} (h : SameButAddresses a b) (hx : x a = x b) : bare x a = bare x b := by
  obtain ⟨h1, h2, ⟨h3, h4, h5⟩, h6⟩ := h
  simp only [bare, Prod.mk.injEq]
  exact ⟨h1, h2, ⟨h3, h4, h5⟩, h6, hx⟩

/-- A socket identification without addresses. -/
def bareID (id : SockID) : SockID := { id with srcIP := "", dstIP := "" }

def bareConn (c : Conn) : Conn := { c with id := bareID c.id }

/-- An action without addresses; a record that is sent is given by what `bare` leaves of it. -/
def bareAct (a : Action) : Action × Option (Bare X) :=
  match a with
  | .flowCreated t u id => (.flowCreated t u (bareID id), none)
  | .send q ⟨m, w⟩ => (.send q ⟨none, w⟩, m.map (bare x))
  | a => (a, none)

/-- A sequence of actions without addresses, with the saver's clock. -/
def bareTrace (tr : List Stamped) : List (Int × Action × Option (Bare X)) := tr.map (fun a => (a.time, bareAct x a.act))

/-- The states of two savers are the same without addresses. -/
structure Sim (s t : Saver) : Prop where
  conns : s.conns.over bareConn = t.conns.over bareConn
  closingStats : s.closingStats = t.closingStats
  closingTotals : s.closingTotals = t.closingTotals
  current : s.cache.current.map (fun p => (p.1, bare x p.2)) = t.cache.current.map (fun p => (p.1, bare x p.2))
  previous : s.cache.previous.map (fun p => (p.1, bare x p.2)) = t.cache.previous.map (fun p => (p.1, bare x p.2))
  cycles : s.cache.cycles = t.cache.cycles
  stats : s.stats = t.stats
  tick : s.tick = t.tick
  clock : s.clock = t.clock
  nextWriter : s.nextWriter = t.nextWriter
  trace : bareTrace x s.trace = bareTrace x t.trace

/-- Both crash or both go on with related states. -/
def SimO {α β : Type} (R : α → β → Prop) : Option α → Option β → Prop
  | none, none => True
  | some a, some b => R a b
  | _, _ => False

end

/-! ## Maps -/

section
variable {α β : Type} (e : α → β)

theorem mapv_get (m : GoMap α) (k : UInt64) : GoMap.get (m.map (fun p => (p.1, e p.2))) k = (m.get k).map e := by
  induction m with
  | nil => rfl
  | cons p m ih =>
    obtain ⟨k', v⟩ := p
    simp only [List.map_cons, GoMap.get]
    split
    · rfl
    · exact ih

theorem mapv_del (m : GoMap α) (k : UInt64) : (m.del k).map (fun p => (p.1, e p.2)) = GoMap.del (m.map (fun p => (p.1, e p.2))) k := by
  unfold GoMap.del
  rw [List.filter_map]
  rfl

theorem mapv_set (m : GoMap α) (k : UInt64) (v : α) : (m.set k v).map (fun p => (p.1, e p.2)) = GoMap.set (m.map (fun p => (p.1, e p.2))) k (e v) := by
  unfold GoMap.set
  rw [List.map_cons, mapv_del]

theorem mapv_keys (m : GoMap α) : GoMap.keys (m.map (fun p => (p.1, e p.2))) = m.keys := by
  unfold GoMap.keys
  rw [List.map_map]
  rfl

/-- Related maps have related entries. -/
theorem mapv_rel {m m' : GoMap α} (h : m.map (fun p => (p.1, e p.2)) = m'.map (fun p => (p.1, e p.2))) (k : UInt64) :
    (m.get k).map e = (m'.get k).map e := by
  rw [← mapv_get, ← mapv_get, h]

theorem mapv_rel_del {m m' : GoMap α} (h : m.map (fun p => (p.1, e p.2)) = m'.map (fun p => (p.1, e p.2))) (k : UInt64) :
    (m.del k).map (fun p => (p.1, e p.2)) = (m'.del k).map (fun p => (p.1, e p.2)) := by
  rw [mapv_del, mapv_del, h]

theorem mapv_rel_set {m m' : GoMap α} (h : m.map (fun p => (p.1, e p.2)) = m'.map (fun p => (p.1, e p.2))) (k : UInt64) {v v' : α} (hv : e v = e v') :
    (m.set k v).map (fun p => (p.1, e p.2)) = (m'.set k v').map (fun p => (p.1, e p.2)) := by
  rw [mapv_set, mapv_set, h, hv]

theorem mapv_rel_keys {m m' : GoMap α} (h : m.map (fun p => (p.1, e p.2)) = m'.map (fun p => (p.1, e p.2))) : m.keys = m'.keys := by
  rw [← mapv_keys e, ← mapv_keys e, h]

end

/-! ## Records -/

theorem sub_drop40 {a b : Bytes} (h : a.drop 40 = b.drop 40) (o n : Nat) : sub (40 + o) n a = sub (40 + o) n b := by
  unfold sub
  rw [← List.drop_drop, ← List.drop_drop, h]

theorem sub_take8 {a b : Bytes} (h : a.take 8 = b.take 8) (o n : Nat) (hn : o + n ≤ 8) : sub o n a = sub o n b := by
  have e : ∀ c : Bytes, sub o n c = sub o n (c.take 8) := by
    intro c
    unfold sub
    rw [List.drop_take, List.take_take, Nat.min_eq_left (by omega)]
  rw [e a, e b, h]

/-- Headers that differ in addresses only are parsed to the same, except for the addresses. -/
theorem parse_sim {a b : Bytes} (h : SameHeader a b) :
    (∃ i j, parseIDM a = .ok i ∧ parseIDM b = .ok j ∧ cookieOf i = cookieOf j ∧ i.state = j.state ∧ i.inode = j.inode ∧ i.uid = j.uid
      ∧ bareID i.id.getSockID = bareID j.id.getSockID)
    ∨ (parseIDM a = .err .parseFailed ∧ parseIDM b = .err .parseFailed) := by
  obtain ⟨hl, h8, h40⟩ := h
  by_cases h72 : 72 ≤ a.length
  · left
    refine ⟨_, _, parseIDM_ok h72, parseIDM_ok (by omega), ?_, byte1_of_take8 h8, ?_, ?_, ?_⟩
    · have : sub 40 8 (sub 4 48 a) = sub 40 8 (sub 4 48 b) := by
        have e : ∀ c : Bytes, sub 40 8 (sub 4 48 c) = sub (40 + 4) 8 c := by
          intro c; unfold sub; rw [List.drop_take, List.take_take, List.drop_drop]; rfl
        rw [e, e, sub_drop40 h40]
      show UInt64.ofNat (leNat (sub 40 8 (sub 4 48 a))) = UInt64.ofNat (leNat (sub 40 8 (sub 4 48 b)))
      rw [this]
    · show UInt32.ofNat (leNat (sub (40 + 28) 4 a)) = UInt32.ofNat (leNat (sub (40 + 28) 4 b))
      rw [sub_drop40 h40]
    · show UInt32.ofNat (leNat (sub (40 + 24) 4 a)) = UInt32.ofNat (leNat (sub (40 + 24) 4 b))
      rw [sub_drop40 h40]
    · have ep : ∀ (o : Nat), o + 2 ≤ 4 → sub o 2 (sub 4 48 a) = sub o 2 (sub 4 48 b) := by
        intro o ho
        have e : ∀ c : Bytes, sub o 2 (sub 4 48 c) = sub (4 + o) 2 c := by
          intro c; unfold sub; rw [List.drop_take, List.take_take, List.drop_drop, Nat.min_eq_left (by omega)]
        rw [e, e, sub_take8 h8 _ _ (by omega)]
      have ei : sub 36 4 (sub 4 48 a) = sub 36 4 (sub 4 48 b) := by
        have e : ∀ c : Bytes, sub 36 4 (sub 4 48 c) = sub (40 + 0) 4 c := by
          intro c; unfold sub; rw [List.drop_take, List.take_take, List.drop_drop]; rfl
        rw [e, e, sub_drop40 h40]
      have ec : sub 40 8 (sub 4 48 a) = sub 40 8 (sub 4 48 b) := by
        have e : ∀ c : Bytes, sub 40 8 (sub 4 48 c) = sub (40 + 4) 8 c := by
          intro c; unfold sub; rw [List.drop_take, List.take_take, List.drop_drop]; rfl
        rw [e, e, sub_drop40 h40]
      simp only [bareID, LinuxSockID.getSockID, LinuxSockID.sPort, LinuxSockID.dPort, LinuxSockID.interface, LinuxSockID.cookieVal, parseSockID]
      rw [ep 0 (by omega), ep 2 (by omega), ei, ec]
  · right
    exact ⟨parseIDM_short (by omega), parseIDM_short (by omega)⟩

theorem infoOK_sim {a b : ArchivalRecord} (h : SameButAddresses a b) (ha : InfoOK a) : InfoOK b := by
  intro v hv
  refine ha v ?_
  rw [attrVal_eq, attrs_getD h, ← attrVal_eq]; exact hv

theorem compareAttrsLoop_congr' (tp : Nat) (p c c' : List (Option GoSlice)) (h : c.map (·.map (·.val)) = c'.map (·.map (·.val))) :
    compareAttrsLoop tp p c = compareAttrsLoop tp p c' := by
  induction p generalizing tp c c' with
  | nil =>
    cases c with
    | nil => cases c' with
      | nil => rfl
      | cons _ _ => simp at h
    | cons _ _ => cases c' with
      | nil => simp at h
      | cons _ _ => rfl
  | cons a p ih =>
    cases c with
    | nil => cases c' with
      | nil => rfl
      | cons _ _ => simp at h
    | cons b c =>
      cases c' with
      | nil => simp at h
      | cons b' c' =>
        simp only [List.map_cons, List.cons.injEq] at h
        have e := ih (tp + 1) c c' h.2
        simp only [compareAttrsLoop, e]
        split
        · rfl
        · cases b with
          | none =>
            cases b' with
            | none => rfl
            | some _ => simp at h
          | some y =>
            cases b' with
            | none => simp at h
            | some y' =>
              have hy : y.val = y'.val := by simpa using h.1
              cases a with
              | none => rfl
              | some z => simp only [hy]

theorem compare_sim' {pm pm' a : ArchivalRecord} (h : SameButAddresses pm pm') (hpm : InfoOK pm) (ha : InfoOK a) :
    compareRecords pm (some a) = compareRecords pm' (some a) := by
  have hl := attrs_length h
  have hpm' := infoOK_sim h hpm
  rw [compareRecords_def, compareRecords_def]
  simp only
  cases hp : parseIDM a.raw with
  | panic => rfl
  | err _ => rfl
  | ok m =>
    simp only
    rcases parse_sim h.header with ⟨i, j, hi, hj, -, hst, -⟩ | ⟨hi, hj⟩
    · rw [show pm.raw = pm.rawIDM.getD [] from rfl, show pm'.raw = pm'.rawIDM.getD [] from rfl, hi, hj]
      simp only
      rw [hst, hl]
      split
      · rfl
      · split
        · rfl
        · have e := attrs_getD h INET_DIAG_INFO
          cases h1 : pm.attrs.getD INET_DIAG_INFO none with
          | none =>
            cases h2 : pm'.attrs.getD INET_DIAG_INFO none with
            | none => cases a.attrs.getD INET_DIAG_INFO none <;> rfl
            | some y => rw [h1, h2] at e; simp at e
          | some y =>
            cases h2 : pm'.attrs.getD INET_DIAG_INFO none with
            | none => rw [h1, h2] at e; simp at e
            | some z =>
              have hyz : y.val = z.val := by rw [h1, h2] at e; simpa using e
              cases h3 : a.attrs.getD INET_DIAG_INFO none with
              | none => rfl
              | some w =>
                have hz : z.val.length = y.val.length := by rw [hyz]
                have hx : 168 ≤ y.val.length := hpm y.val (by rw [attrVal_eq]; show Option.map _ (pm.attrs.getD INET_DIAG_INFO none) = _; rw [h1]; rfl)
                simp only
                rw [slice_hi y _ _ (by decide +kernel) (by rw [busytimeOffset_eq]; exact hx), slice_hi y _ _ (by omega) (by rw [lastDataSentOffset_eq]; omega),
                  slice_hi z _ _ (by decide +kernel) (by rw [busytimeOffset_eq]; omega), slice_hi z _ _ (by omega) (by rw [lastDataSentOffset_eq]; omega), hyz]
                rw [compareAttrsLoop_congr' 0 a.attrs pm.attrs pm'.attrs h.attributes]
    · rw [show pm.raw = pm.rawIDM.getD [] from rfl, show pm'.raw = pm'.rawIDM.getD [] from rfl, hi, hj]

theorem compare_sim {pm pm' a b : ArchivalRecord} (h : SameButAddresses pm pm') (h' : SameButAddresses a b) (hpm : InfoOK pm) (ha : InfoOK a) :
    compareRecords pm (some a) = compareRecords pm' (some b) :=
  (compare_view h' hpm ha).trans (compare_sim' h hpm (infoOK_sim h' ha))

/-! ## The saver -/

section
variable {X : Type} (x : ArchivalRecord → X) (env : Env)

theorem bareTrace_emit {s t : Saver} (h : bareTrace x s.trace = bareTrace x t.trace) (hc : s.clock = t.clock) {a b : Action} (hab : bareAct x a = bareAct x b) :
    bareTrace x (s.emit a).trace = bareTrace x (t.emit b).trace := by
  show bareTrace x (s.trace ++ [⟨s.clock, a⟩]) = bareTrace x (t.trace ++ [⟨t.clock, b⟩])
  unfold bareTrace at h ⊢
  rw [List.map_append, List.map_append, h]
  simp only [List.map_cons, List.map_nil, hc, hab]

theorem Sim.emit {s t : Saver} (h : Sim x s t) {a b : Action} (hab : bareAct x a = bareAct x b) : Sim x (s.emit a) (t.emit b) :=
  ⟨h.conns, h.closingStats, h.closingTotals, h.current, h.previous, h.cycles, h.stats, h.tick, h.clock, h.nextWriter, bareTrace_emit x h.trace h.clock hab⟩

theorem Sim.readClock {s t : Saver} (h : Sim x s t) : Sim x (s.readClock env) (t.readClock env) :=
  ⟨h.conns, h.closingStats, h.closingTotals, h.current, h.previous, h.cycles, h.stats, congrArg (· + 1) h.tick, congrArg env.now h.tick, h.nextWriter, h.trace⟩

theorem bareConn_cookie {c d : Conn} (h : bareConn c = bareConn d) : c.id.cookieUint64 = d.id.cookieUint64 := by
  have h1 := congrArg (fun c : Conn => c.id.cookie) h
  exact congrArg Int64.toUInt64 h1

theorem bareConn_parts {c d : Conn} (h : bareConn c = bareConn d) :
    c.startTime = d.startTime ∧ c.sequence = d.sequence ∧ c.expiration = d.expiration ∧ c.writer = d.writer :=
  ⟨show (bareConn c).startTime = (bareConn d).startTime by rw [h], show (bareConn c).sequence = (bareConn d).sequence by rw [h],
    show (bareConn c).expiration = (bareConn d).expiration by rw [h], show (bareConn c).writer = (bareConn d).writer by rw [h]⟩

theorem headerRecord_sim {c d : Conn} (h : bareConn c = bareConn d) : headerRecord env c = headerRecord env d := by
  obtain ⟨h1, h2, -, -⟩ := bareConn_parts h
  unfold headerRecord
  rw [bareConn_cookie h, h1, h2]

theorem bareConn_update {c d : Conn} (h : bareConn c = bareConn d) (w : Option Nat) (e : Int) (n : Nat) :
    bareConn { c with writer := w, expiration := e, sequence := n } = bareConn { d with writer := w, expiration := e, sequence := n } := by
  have h1 := congrArg (fun c : Conn => ({ c with writer := w, expiration := e, sequence := n } : Conn)) h
  exact h1

theorem rotateDir_sim {s t : Saver} (h : Sim x s t) {c d : Conn} (hc : bareConn c = bareConn d) :
    Sim x (s.rotateDir env c).1 (t.rotateDir env d).1 ∧ (s.rotateDir env c).2 = (t.rotateDir env d).2 := by
  obtain ⟨h1, h2, -, -⟩ := bareConn_parts hc
  unfold Saver.rotateDir
  rw [h2, h1]
  split
  · exact ⟨h.readClock x env, by simp only; rw [(h.readClock x env).clock]⟩
  · exact ⟨h, rfl⟩

theorem rotate_sim {s t : Saver} (h : Sim x s t) {c d : Conn} (hc : bareConn c = bareConn d) :
    Sim x (s.rotate env c).1 (t.rotate env d).1 ∧ bareConn (s.rotate env c).2.1 = bareConn (t.rotate env d).2.1
      ∧ (s.rotate env c).2.2 = (t.rotate env d).2.2 := by
  obtain ⟨hr, hd⟩ := rotateDir_sim x env h hc
  obtain ⟨h1, h2, h3, -⟩ := bareConn_parts hc
  unfold Saver.rotate
  simp only
  rw [hr.tick, hd]
  split
  · refine ⟨⟨hr.conns, hr.closingStats, hr.closingTotals, hr.current, hr.previous, hr.cycles, hr.stats, rfl, hr.clock, hr.nextWriter, hr.trace⟩, ?_, rfl⟩
    have := bareConn_update hc none c.expiration c.sequence
    rw [h2, h3] at this
    simpa [← h2, ← h3] using this
  · refine ⟨?_, ?_, rfl⟩
    · refine Sim.emit x (s := { (s.rotateDir env c).1 with tick := (t.rotateDir env d).1.tick + 1, nextWriter := (s.rotateDir env c).1.nextWriter + 1 })
        (t := { (t.rotateDir env d).1 with tick := (t.rotateDir env d).1.tick + 1, nextWriter := (t.rotateDir env d).1.nextWriter + 1 })
        ⟨hr.conns, hr.closingStats, hr.closingTotals, hr.current, hr.previous, hr.cycles, hr.stats, rfl, hr.clock, congrArg (· + 1) hr.nextWriter, hr.trace⟩ ?_
      rw [headerRecord_sim env hc, bareConn_cookie hc, h2, hr.nextWriter]
    · have := bareConn_update hc (some (t.rotateDir env d).1.nextWriter) (d.expiration + tenMinutes) (d.sequence + 1)
      rw [hr.nextWriter, h2, h3]
      exact this

theorem getConn_sim {s t : Saver} (h : Sim x s t) (k : UInt64) (i j : InetDiagMsg) (ts : Int)
    (hi : i.inode = j.inode) (hu : i.uid = j.uid) (hid : bareID i.id.getSockID = bareID j.id.getSockID) :
    Sim x (s.getConn env k i ts).1 (t.getConn env k j ts).1 ∧ bareConn (s.getConn env k i ts).2 = bareConn (t.getConn env k j ts).2 := by
  have hg := mapv_rel bareConn h.conns k
  unfold Saver.getConn
  cases hs : s.conns.get k with
  | some c =>
    cases ht : t.conns.get k with
    | none => rw [hs, ht] at hg; simp at hg
    | some d =>
      rw [hs, ht] at hg
      exact ⟨h, by simpa using hg⟩
  | none =>
    cases ht : t.conns.get k with
    | some d => rw [hs, ht] at hg; simp at hg
    | none =>
      have hc := h.readClock x env
      have hn : bareConn (newConnection i ts (s.readClock env).clock) = bareConn (newConnection j ts (t.readClock env).clock) := by
        unfold newConnection bareConn
        simp only
        rw [hi, hu, hid, hc.clock]
      refine ⟨?_, hn⟩
      have he := hc.emit x (a := .flowCreated ts (env.uuid k) i.id.getSockID) (b := .flowCreated ts (env.uuid k) j.id.getSockID)
        (by simp only [bareAct, hid])
      exact ⟨mapv_rel_set bareConn he.conns k hn, he.closingStats, he.closingTotals, he.current, he.previous, he.cycles, he.stats, he.tick, he.clock,
        he.nextWriter, he.trace⟩

theorem closeExpired_sim {s t : Saver} (h : Sim x s t) (k : UInt64) {c d : Conn} (hc : bareConn c = bareConn d) :
    Sim x (s.closeExpired env k c).1 (t.closeExpired env k d).1 ∧ bareConn (s.closeExpired env k c).2 = bareConn (t.closeExpired env k d).2 := by
  obtain ⟨h1, h2, h3, h4⟩ := bareConn_parts hc
  have hr := h.readClock x env
  unfold Saver.closeExpired
  simp only
  rw [h3, h4, hr.clock]
  split
  · refine ⟨hr.emit x rfl, ?_⟩
    have := bareConn_update hc none d.expiration d.sequence
    rw [← h3, ← h2] at this
    simpa [h2, h3] using this
  · exact ⟨hr, hc⟩

theorem queue_sim {s t : Saver} (h : Sim x s t) {a b : ArchivalRecord} (hab : bare x a = bare x b) :
    SimO (fun p q : Saver × Option GoErr => Sim x p.1 q.1 ∧ p.2 = q.2) (s.queue env a) (t.queue env b) := by
  obtain ⟨hsame, -⟩ := bare_eq x hab
  unfold Saver.queue
  rcases parse_sim hsame.header with ⟨i, j, hi, hj, hck, -, hin, hu, hid⟩ | ⟨hi, hj⟩
  · rw [show a.raw = a.rawIDM.getD [] from rfl, show b.raw = b.rawIDM.getD [] from rfl, hi, hj]
    simp only
    rw [hck]
    split
    · exact ⟨h, rfl⟩
    split
    · exact ⟨h, rfl⟩
    obtain ⟨g1, g2⟩ := getConn_sim x env h (cookieOf j) i j a.timestamp hin hu hid
    rw [← hsame.timestamp]
    obtain ⟨c1, c2⟩ := closeExpired_sim x env g1 (cookieOf j) g2
    generalize (s.getConn env (cookieOf j) i a.timestamp).1.closeExpired env (cookieOf j) (s.getConn env (cookieOf j) i a.timestamp).2 = P at c1 c2 ⊢
    generalize (t.getConn env (cookieOf j) j a.timestamp).1.closeExpired env (cookieOf j) (t.getConn env (cookieOf j) j a.timestamp).2 = Q at c1 c2 ⊢
    have hw := (bareConn_parts c2).2.2.2
    obtain ⟨r1, r2, r3⟩ := rotate_sim x env c1 c2
    have key : Sim x (if P.2.writer = none then P.1.rotate env P.2 else (P.1, P.2, none)).1 (if Q.2.writer = none then Q.1.rotate env Q.2 else (Q.1, Q.2, none)).1
        ∧ bareConn (if P.2.writer = none then P.1.rotate env P.2 else (P.1, P.2, none)).2.1
          = bareConn (if Q.2.writer = none then Q.1.rotate env Q.2 else (Q.1, Q.2, none)).2.1
        ∧ (if P.2.writer = none then P.1.rotate env P.2 else (P.1, P.2, none)).2.2 = (if Q.2.writer = none then Q.1.rotate env Q.2 else (Q.1, Q.2, none)).2.2 := by
      rw [hw]
      split
      · exact ⟨r1, r2, r3⟩
      · exact ⟨c1, c2, rfl⟩
    generalize (if P.2.writer = none then P.1.rotate env P.2 else (P.1, P.2, none)) = P' at key ⊢
    generalize (if Q.2.writer = none then Q.1.rotate env Q.2 else (Q.1, Q.2, none)) = Q' at key ⊢
    obtain ⟨k1, k2, k3⟩ := key
    have hset : Sim x { P'.1 with conns := P'.1.conns.set (cookieOf j) P'.2.1 } { Q'.1 with conns := Q'.1.conns.set (cookieOf j) Q'.2.1 } :=
      ⟨mapv_rel_set bareConn k1.conns _ k2, k1.closingStats, k1.closingTotals, k1.current, k1.previous, k1.cycles, k1.stats, k1.tick, k1.clock, k1.nextWriter,
        k1.trace⟩
    rw [k3]
    cases Q'.2.2 with
    | some e => exact ⟨hset, rfl⟩
    | none =>
      refine ⟨hset.emit x ?_, rfl⟩
      simp only [bareAct, Option.map_some, hab, (bareConn_parts k2).2.2.2]
  · rw [show a.raw = a.rawIDM.getD [] from rfl, show b.raw = b.rawIDM.getD [] from rfl, hi, hj]
    trivial

theorem endConn_sim {s t : Saver} (h : Sim x s t) (k : UInt64) : SimO (Sim x) (s.endConn env k) (t.endConn env k) := by
  have hr := h.readClock x env
  have he := hr.emit x (a := .flowDeleted (env.wall (s.readClock env).clock) (env.uuid k)) (b := .flowDeleted (env.wall (t.readClock env).clock) (env.uuid k))
    (by rw [hr.clock])
  unfold Saver.endConn
  simp only
  split
  · trivial
  · have hg := mapv_rel bareConn he.conns k
    generalize (s.readClock env).emit (.flowDeleted (env.wall (s.readClock env).clock) (env.uuid k)) = P at he hg ⊢
    generalize (t.readClock env).emit (.flowDeleted (env.wall (t.readClock env).clock) (env.uuid k)) = Q at he hg ⊢
    cases hs : P.conns.get k with
    | none =>
      cases ht : Q.conns.get k with
      | none => exact he
      | some d => rw [hs, ht] at hg; simp at hg
    | some c =>
      cases ht : Q.conns.get k with
      | none => rw [hs, ht] at hg; simp at hg
      | some d =>
        have hcd : bareConn c = bareConn d := by rw [hs, ht] at hg; simpa using hg
        have hw := (bareConn_parts hcd).2.2.2
        simp only
        rw [hw]
        split
        · have h2 := he.emit x (a := .send (queueOf env k) ⟨none, d.writer⟩) (b := .send (queueOf env k) ⟨none, d.writer⟩) rfl
          exact ⟨mapv_rel_del bareConn he.conns k, h2.closingStats, h2.closingTotals, h2.current, h2.previous, h2.cycles, h2.stats, h2.tick, h2.clock,
            h2.nextWriter, h2.trace⟩
        · exact he

theorem recordClosing_sim {s t : Saver} (h : Sim x s t) (k : UInt64) {a b o p : ArchivalRecord} (hab : SameButAddresses a b) (hop : SameButAddresses o p) :
    Sim x (s.recordClosing k a o) (t.recordClosing k b p) := by
  unfold Saver.recordClosing
  rw [hasDiagInfo_view hab, hasDiagInfo_view hop, getStats_view hop, h.closingStats, h.closingTotals]
  split
  · exact ⟨h.conns, rfl, rfl, h.current, h.previous, h.cycles, h.stats, h.tick, h.clock, h.nextWriter, h.trace⟩
  · exact h

theorem swap_sim (hview : ∀ n r, env.view n r = r) {s t : Saver} (h : Sim x s t) (hcs : CacheOK s) {a b : ArchivalRecord}
    (hab : bare x a = bare x b) (ha : InfoOK a) : SimO (Sim x) (s.swapAndQueue env a) (t.swapAndQueue env b) := by
  obtain ⟨hsame, -⟩ := bare_eq x hab
  unfold Saver.swapAndQueue
  simp only [hview]
  rcases parse_sim hsame.header with ⟨i, j, hi, hj, hck, -, hin, hu, hid⟩ | ⟨hi, hj⟩
  · have ea : ∀ c : Cache, c.update a = ({ c with current := c.current.set (cookieOf i) a
                                                  previous := match c.previous.get (cookieOf i) with
                                                    | some _ => c.previous.del (cookieOf i)
                                                    | none => c.previous }, .ok (c.previous.get (cookieOf i))) := by
      intro c; unfold Cache.update; rw [show a.raw = a.rawIDM.getD [] from rfl, hi]; rfl
    have eb : ∀ c : Cache, c.update b = ({ c with current := c.current.set (cookieOf i) b
                                                  previous := match c.previous.get (cookieOf i) with
                                                    | some _ => c.previous.del (cookieOf i)
                                                    | none => c.previous }, .ok (c.previous.get (cookieOf i))) := by
      intro c; unfold Cache.update; rw [show b.raw = b.rawIDM.getD [] from rfl, hj, hck]; rfl
    rw [ea, eb]
    have hg := mapv_rel (bare x) h.previous (cookieOf i)
    have hst : ({ s.stats with total := s.stats.total + 1 } : Counters) = { t.stats with total := t.stats.total + 1 } := by rw [h.stats]
    cases hs : s.cache.previous.get (cookieOf i) with
    | none =>
      cases ht : t.cache.previous.get (cookieOf i) with
      | some p => rw [hs, ht] at hg; simp at hg
      | none =>
        simp only
        have hq := queue_sim x env (s := { s with cache := { s.cache with current := s.cache.current.set (cookieOf i) a, previous := s.cache.previous },
                                                  stats := { s.stats with total := s.stats.total + 1, new := s.stats.new + 1 } })
          (t := { t with cache := { t.cache with current := t.cache.current.set (cookieOf i) b, previous := t.cache.previous },
                         stats := { t.stats with total := t.stats.total + 1, new := t.stats.new + 1 } })
          ⟨h.conns, h.closingStats, h.closingTotals, mapv_rel_set (bare x) h.current _ hab, h.previous, h.cycles, by simp only [h.stats], h.tick, h.clock,
            h.nextWriter, h.trace⟩ hab
        revert hq
        generalize Saver.queue env _ a = A
        generalize Saver.queue env _ b = B
        intro hq
        cases A <;> cases B <;> first | exact hq.1 | exact hq
    | some o =>
      cases ht : t.cache.previous.get (cookieOf i) with
      | none => rw [hs, ht] at hg; simp at hg
      | some p =>
        have hop : bare x o = bare x p := by rw [hs, ht] at hg; simpa using hg
        obtain ⟨hsop, -⟩ := bare_eq x hop
        simp only
        rw [show a.raw = a.rawIDM.getD [] from rfl, show b.raw = b.rawIDM.getD [] from rfl, hi, hj]
        simp only
        rw [← hck, compare_sim hsame hsop ha (hcs.2 _ _ hs)]
        have hrc := recordClosing_sim x
          (s := { s with cache := { s.cache with current := s.cache.current.set (cookieOf i) a, previous := s.cache.previous.del (cookieOf i) },
                         stats := { s.stats with total := s.stats.total + 1 }, tick := s.tick + 1 })
          (t := { t with cache := { t.cache with current := t.cache.current.set (cookieOf i) b, previous := t.cache.previous.del (cookieOf i) },
                         stats := { t.stats with total := t.stats.total + 1 }, tick := t.tick + 1 })
          ⟨h.conns, h.closingStats, h.closingTotals, mapv_rel_set (bare x) h.current _ hab, mapv_rel_del (bare x) h.previous _, h.cycles, hst,
            congrArg (· + 1) h.tick, h.clock, h.nextWriter, h.trace⟩ (cookieOf i) hsame hsop
        revert hrc
        generalize Saver.recordClosing _ (cookieOf i) a o = A
        generalize Saver.recordClosing _ (cookieOf i) b p = B
        intro hrc
        cases compareRecords b (some p) with
        | panic => trivial
        | err e => exact hrc
        | ok ch =>
          simp only
          split
          · have hq := queue_sim x env (s := { A with stats := { A.stats with diff := A.stats.diff + 1 } })
              (t := { B with stats := { B.stats with diff := B.stats.diff + 1 } })
              ⟨hrc.conns, hrc.closingStats, hrc.closingTotals, hrc.current, hrc.previous, hrc.cycles, by simp only [hrc.stats], hrc.tick, hrc.clock,
                hrc.nextWriter, hrc.trace⟩ hab
            revert hq
            generalize Saver.queue env _ a = A'
            generalize Saver.queue env _ b = B'
            intro hq
            cases A' <;> cases B' <;> first | exact hq.1 | exact hq
          · exact hrc
  · have ea : ∀ c : Cache, c.update a = (c, .err .parseFailed) := by
      intro c; unfold Cache.update; rw [show a.raw = a.rawIDM.getD [] from rfl, hi]
    have eb : ∀ c : Cache, c.update b = (c, .err .parseFailed) := by
      intro c; unfold Cache.update; rw [show b.raw = b.rawIDM.getD [] from rfl, hj]
    rw [ea, eb]
    exact ⟨h.conns, h.closingStats, h.closingTotals, h.current, h.previous, h.cycles, by simp only [h.stats], h.tick, h.clock, h.nextWriter, h.trace⟩

/-- What becomes of a message: `none`: the process crashes; `some none`: nothing. -/
def outcome (ex : Option ExcludeConfig) (t : Int) (m : Option NetlinkMessage) : Option (Option (Bare X)) :=
  match m with
  | none => some none
  | some m => match makeArchivalRecord m ex with
    | .panic => none
    | .err _ => some none
    | .ok o => some (o.map (fun r => bare x { r with timestamp := t }))

theorem handleType_sim (hview : ∀ n r, env.view n r = r) (tm : Int) (ms : List (Option NetlinkMessage)) : ∀ (ms' : List (Option NetlinkMessage)) (s t : Saver)
    (a b : UInt64), ms.map (outcome x env.exclude tm) = ms'.map (outcome x env.exclude tm) → (∀ r ∈ ms.filterMap (reportOf env.exclude tm), InfoOK r) →
    Sim x s t → CacheOK s →
    SimO (fun p q : Saver × UInt64 × UInt64 => Sim x p.1 q.1 ∧ CacheOK p.1 ∧ p.2 = q.2) (s.handleType env tm ms a b) (t.handleType env tm ms' a b) := by
  have skip : ∀ (ms : List (Option NetlinkMessage)) (m : Option NetlinkMessage) (s : Saver) (a b : UInt64), outcome x env.exclude tm m = some none →
      s.handleType env tm (m :: ms) a b = s.handleType env tm ms a b ∧ reportOf env.exclude tm m = none := by
    intro ms m s a b ho
    cases m with
    | none => exact ⟨rfl, rfl⟩
    | some m =>
      unfold outcome at ho
      simp only at ho
      cases hm : makeArchivalRecord m env.exclude with
      | panic => rw [hm] at ho; simp at ho
      | err e => exact ⟨by simp only [Saver.handleType, hm], by simp only [reportOf, hm]⟩
      | ok o =>
        rw [hm] at ho
        cases o with
        | none => exact ⟨by simp only [Saver.handleType, hm], by simp only [reportOf, hm]⟩
        | some r => simp at ho
  have crash : ∀ (ms : List (Option NetlinkMessage)) (m : Option NetlinkMessage) (s : Saver) (a b : UInt64), outcome x env.exclude tm m = none →
      s.handleType env tm (m :: ms) a b = none := by
    intro ms m s a b ho
    cases m with
    | none => simp [outcome] at ho
    | some m =>
      unfold outcome at ho
      simp only at ho
      cases hm : makeArchivalRecord m env.exclude with
      | panic => simp only [Saver.handleType, hm]
      | err e => rw [hm] at ho; simp at ho
      | ok o => rw [hm] at ho; simp at ho
  have take : ∀ (m : Option NetlinkMessage) (z : Bare X), outcome x env.exclude tm m = some (some z) →
      ∃ n r, m = some n ∧ makeArchivalRecord n env.exclude = .ok (some r) ∧ bare x { r with timestamp := tm } = z := by
    intro m z ho
    cases m with
    | none => simp [outcome] at ho
    | some m =>
      unfold outcome at ho
      simp only at ho
      cases hm : makeArchivalRecord m env.exclude with
      | panic => rw [hm] at ho; simp at ho
      | err e => rw [hm] at ho; simp at ho
      | ok o =>
        rw [hm] at ho
        cases o with
        | none => simp at ho
        | some r => exact ⟨m, r, rfl, hm, by simpa using ho⟩
  induction ms with
  | nil =>
    intro ms' s t a b hm _ hs hc
    cases ms' with
    | nil => exact ⟨hs, hc, rfl⟩
    | cons _ _ => simp at hm
  | cons m ms ih =>
    intro ms' s t a b hm hI hs hc
    cases ms' with
    | nil => simp at hm
    | cons m' ms' =>
      simp only [List.map_cons, List.cons.injEq] at hm
      obtain ⟨hm1, hm2⟩ := hm
      cases ho : outcome x env.exclude tm m with
      | none =>
        rw [crash ms m s a b ho, crash ms' m' t a b (hm1 ▸ ho)]
        trivial
      | some o =>
        cases o with
        | none =>
          obtain ⟨e1, e2⟩ := skip ms m s a b ho
          rw [e1, (skip ms' m' t a b (hm1 ▸ ho)).1]
          exact ih ms' s t a b hm2 (fun r hr => hI r (by rw [List.filterMap_cons, e2]; exact hr)) hs hc
        | some z =>
          obtain ⟨n, r, rfl, hn, hz⟩ := take m z ho
          obtain ⟨n', r', rfl, hn', hz'⟩ := take m' z (hm1 ▸ ho)
          have hrr := hz.trans hz'.symm
          have hrep : reportOf env.exclude tm (some n) = some { r with timestamp := tm } := by simp only [reportOf, hn]
          have hIr : InfoOK { r with timestamp := tm } := hI _ (by rw [List.filterMap_cons, hrep]; simp)
          simp only [Saver.handleType, hn, hn']
          have hsw := swap_sim x env hview hs hc hrr hIr
          have hcs := cacheOK_swap env s { r with timestamp := tm } hIr hc
          rw [getStats_view (bare_eq x hrr).1]
          revert hsw hcs
          cases s.swapAndQueue env { r with timestamp := tm } <;> cases t.swapAndQueue env { r' with timestamp := tm }
          · exact fun _ _ => trivial
          · exact fun h => h.elim
          · exact fun h => h.elim
          · intro hsw hcs
            exact ih ms' _ _ _ _ hm2 (fun r hr => hI r (by rw [List.filterMap_cons, hrep]; simp [hr])) hsw (hcs _ rfl)

/-- The same for the local variables of the loop. -/
structure SimL (l m : LoopState) : Prop where
  svr : Sim x l.svr m.svr
  reported : l.reported = m.reported
  closed : l.closed = m.closed
  last : l.lastReportTime = m.lastReportTime

theorem finalStats_sim {s t : Saver} (h : Sim x s t) (k : UInt64) {a b : ArchivalRecord} (hab : SameButAddresses a b) :
    Sim x (s.finalStats k a).1 (t.finalStats k b).1 ∧ (s.finalStats k a).2 = (t.finalStats k b).2 := by
  unfold Saver.finalStats
  rw [hasDiagInfo_view hab, getStats_view hab, h.closingStats, h.closingTotals]
  split
  · split
    · exact ⟨⟨h.conns, rfl, rfl, h.current, h.previous, h.cycles, h.stats, h.tick, h.clock, h.nextWriter, h.trace⟩, rfl⟩
    · exact ⟨h, rfl⟩
  · exact ⟨h, rfl⟩

theorem expire_sim (hview : ∀ n r, env.view n r = r) {res res' : GoMap ArchivalRecord}
    (hres : res.map (fun p => (p.1, bare x p.2)) = res'.map (fun p => (p.1, bare x p.2))) {l m : LoopState} (h : SimL x l m) (k : UInt64) :
    SimO (SimL x) (l.expire env res k) (m.expire env res' k) := by
  have hg := mapv_rel (bare x) hres k
  unfold LoopState.expire
  cases h1 : res.get k with
  | none =>
    cases h2 : res'.get k with
    | none => exact h
    | some b => rw [h1, h2] at hg; simp at hg
  | some a =>
    cases h2 : res'.get k with
    | none => rw [h1, h2] at hg; simp at hg
    | some b =>
      have hab : bare x a = bare x b := by rw [h1, h2] at hg; simpa using hg
      simp only [hview]
      have hs := h.svr
      obtain ⟨f1, f2⟩ := finalStats_sim x (s := { l.svr with tick := l.svr.tick + 1 }) (t := { m.svr with tick := m.svr.tick + 1 })
        ⟨hs.conns, hs.closingStats, hs.closingTotals, hs.current, hs.previous, hs.cycles, hs.stats, congrArg (· + 1) hs.tick, hs.clock, hs.nextWriter, hs.trace⟩
        k (bare_eq x hab).1
      have he := endConn_sim x env f1 k
      rw [f2]
      revert he
      generalize Saver.endConn env ({ l.svr with tick := l.svr.tick + 1 }.finalStats k a).1 k = A
      generalize Saver.endConn env ({ m.svr with tick := m.svr.tick + 1 }.finalStats k b).1 k = B
      cases A <;> cases B
      · exact fun _ => trivial
      · exact fun h => h.elim
      · exact fun h => h.elim
      · intro he
        exact ⟨⟨he.conns, he.closingStats, he.closingTotals, he.current, he.previous, he.cycles, by simp only [he.stats], he.tick, he.clock, he.nextWriter,
          he.trace⟩, h.reported, by simp only [h.closed], h.last⟩

theorem expireAll_sim (hview : ∀ n r, env.view n r = r) {res res' : GoMap ArchivalRecord}
    (hres : res.map (fun p => (p.1, bare x p.2)) = res'.map (fun p => (p.1, bare x p.2))) (ks : List UInt64) : ∀ {l m : LoopState}, SimL x l m →
    SimO (SimL x) (LoopState.expireAll env res ks l) (LoopState.expireAll env res' ks m) := by
  induction ks with
  | nil => exact fun h => h
  | cons k ks ih =>
    intro l m h
    have he := expire_sim x env hview hres h k
    simp only [LoopState.expireAll]
    revert he
    cases l.expire env res k <;> cases m.expire env res' k
    · exact fun _ => trivial
    · exact fun h => h.elim
    · exact fun h => h.elim
    · exact fun he => ih he

theorem SimL.report {l m : LoopState} (h : SimL x l m) (tm : Int) (s4 s6 r4 r6 : UInt64) : SimL x (l.report tm s4 s6 r4 r6) (m.report tm s4 s6 r4 r6) := by
  obtain ⟨ls, lr, lc, ll⟩ := l
  obtain ⟨ms, mr, mc, ml⟩ := m
  obtain ⟨h1, h2, h3, h4⟩ := h
  simp only at h1 h2 h3 h4
  subst h2 h3 h4
  unfold LoopState.report
  simp only
  rw [h1.closingTotals]
  by_cases hu : unixSeconds tm > ll
  · rw [if_pos hu, if_pos hu]
    by_cases hS : skipReport (lc.sent + ms.closingTotals.sent + s4 + s6) lr.sent = true
    · simp only [if_pos hS]
      by_cases hR : skipReport (lc.received + ms.closingTotals.received + r4 + r6) lr.received = true
      · simp only [if_pos hR]; exact ⟨h1, rfl, rfl, rfl⟩
      · simp only [if_neg hR]; exact ⟨h1.emit x rfl, rfl, rfl, rfl⟩
    · simp only [if_neg hS]
      by_cases hR : skipReport (lc.received + ms.closingTotals.received + r4 + r6) lr.received = true
      · simp only [if_pos hR]; exact ⟨h1.emit x rfl, rfl, rfl, rfl⟩
      · simp only [if_neg hR]; exact ⟨(h1.emit x rfl).emit x rfl, rfl, rfl, rfl⟩
  · rw [if_neg hu, if_neg hu]; exact ⟨h1, rfl, rfl, rfl⟩

/-- Blocks with the same times, whose messages have the same outcomes. -/
def SimB (ex : Option ExcludeConfig) (b c : MessageBlock) : Prop :=
  b.v4Time = c.v4Time ∧ b.v6Time = c.v6Time ∧ b.v4Messages.map (outcome x ex b.v4Time) = c.v4Messages.map (outcome x ex b.v4Time)
    ∧ b.v6Messages.map (outcome x ex b.v6Time) = c.v6Messages.map (outcome x ex b.v6Time)

theorem block_sim (hview : ∀ n r, env.view n r = r) {l m : LoopState} (h : SimL x l m) (hc : CacheOK l.svr) {b c : MessageBlock} (hb : SimB x env.exclude b c)
    (hI : AllInfoOK env.exclude b) : SimO (fun l m => SimL x l m ∧ CacheOK l.svr) (l.block env b) (m.block env c) := by
  obtain ⟨t4, t6, m4, m6⟩ := hb
  have hv : ViewOK env := fun n r => by rw [hview]; exact ⟨rfl, rfl, ⟨rfl, rfl, rfl⟩, rfl⟩
  have hcb := (block_view env hv l b hI hc).2
  suffices hsuff : SimO (SimL x) (l.block env b) (m.block env c) by
    revert hsuff hcb
    cases l.block env b <;> cases m.block env c
    · exact fun _ _ => trivial
    · exact fun _ h => h.elim
    · exact fun _ h => h.elim
    · exact fun hcb h => ⟨h, hcb _ rfl⟩
  unfold LoopState.block
  rw [← t4, ← t6]
  have h4 := handleType_sim x env hview b.v4Time b.v4Messages c.v4Messages l.svr m.svr 0 0 m4 (fun r hr => hI r (List.mem_append_left _ hr)) h.svr hc
  revert h4
  cases l.svr.handleType env b.v4Time b.v4Messages 0 0 <;> cases m.svr.handleType env b.v4Time c.v4Messages 0 0
  · exact fun _ => trivial
  · exact fun h => h.elim
  · exact fun h => h.elim
  rename_i p q
  obtain ⟨p, ps, pr⟩ := p
  obtain ⟨q, qs, qr⟩ := q
  rintro ⟨h1, h2, h3⟩
  simp only [Prod.mk.injEq] at h3
  obtain ⟨rfl, rfl⟩ := h3
  simp only
  have h6 := handleType_sim x env hview b.v6Time b.v6Messages c.v6Messages p q 0 0 m6 (fun r hr => hI r (List.mem_append_right _ hr)) h1 h2
  revert h6
  cases p.handleType env b.v6Time b.v6Messages 0 0 <;> cases q.handleType env b.v6Time c.v6Messages 0 0
  · exact fun _ => trivial
  · exact fun h => h.elim
  · exact fun h => h.elim
  rename_i u v
  obtain ⟨u, us, ur⟩ := u
  obtain ⟨v, vs, vr⟩ := v
  rintro ⟨g1, g2, g3⟩
  simp only [Prod.mk.injEq] at g3
  obtain ⟨rfl, rfl⟩ := g3
  simp only [Cache.endCycle]
  rw [mapv_rel_keys (bare x) g1.previous, g1.tick]
  have hx := expireAll_sim x env hview g1.previous (env.order v.tick v.cache.previous.keys)
    (l := { l with svr := { u with cache := { current := [], previous := u.cache.current, cycles := u.cache.cycles + 1 }, tick := v.tick + 1 } })
    (m := { m with svr := { v with cache := { current := [], previous := v.cache.current, cycles := v.cache.cycles + 1 }, tick := v.tick + 1 } })
    ⟨⟨g1.conns, g1.closingStats, g1.closingTotals, rfl, g1.current, congrArg (· + 1) g1.cycles, g1.stats, rfl, g1.clock, g1.nextWriter, g1.trace⟩,
      h.reported, h.closed, h.last⟩
  revert hx
  generalize LoopState.expireAll env u.cache.previous _ _ = A
  generalize LoopState.expireAll env v.cache.previous _ _ = B
  cases A <;> cases B
  · exact fun _ => trivial
  · exact fun h => h.elim
  · exact fun h => h.elim
  · exact fun hx => hx.report x _ _ _ _ _

theorem blocks_sim (hview : ∀ n r, env.view n r = r) (bs : List MessageBlock) : ∀ (cs : List MessageBlock) {l m : LoopState}, SimL x l m → CacheOK l.svr →
    bs.length = cs.length → (∀ p ∈ bs.zip cs, SimB x env.exclude p.1 p.2) → (∀ b ∈ bs, AllInfoOK env.exclude b) →
    SimO (SimL x) (LoopState.blocks env bs l) (LoopState.blocks env cs m) := by
  induction bs with
  | nil =>
    intro cs l m h _ hl _ _
    cases cs with
    | nil => exact h
    | cons _ _ => simp at hl
  | cons b bs ih =>
    intro cs l m h hc hl hz hI
    cases cs with
    | nil => simp at hl
    | cons c cs =>
      have hb := block_sim x env hview h hc (hz (b, c) (by simp)) (hI b (by simp))
      simp only [LoopState.blocks]
      revert hb
      cases l.block env b <;> cases m.block env c
      · exact fun _ => trivial
      · exact fun h => h.elim
      · exact fun h => h.elim
      · exact fun hb => ih cs hb.1 hb.2 (by simpa using hl) (fun p hp => hz p (by simp [hp])) (fun b hb => hI b (by simp [hb]))

theorem endAll_sim (ks : List UInt64) : ∀ {s t : Saver}, Sim x s t → SimO (Sim x) (Saver.endAll env ks s) (Saver.endAll env ks t) := by
  induction ks with
  | nil => exact fun h => h
  | cons k ks ih =>
    intro s t h
    have he := endConn_sim x env h k
    simp only [Saver.endAll]
    revert he
    cases s.endConn env k <;> cases t.endConn env k
    · exact fun _ => trivial
    · exact fun h => h.elim
    · exact fun h => h.elim
    · exact fun he => ih he

theorem close_sim {s t : Saver} (h : Sim x s t) : SimO (Sim x) (s.close env) (t.close env) := by
  unfold Saver.close
  rw [mapv_rel_keys bareConn h.conns, h.tick]
  have he := endAll_sim x env (env.order t.tick t.conns.keys) (s := { s with tick := t.tick + 1 }) (t := { t with tick := t.tick + 1 })
    ⟨h.conns, h.closingStats, h.closingTotals, h.current, h.previous, h.cycles, h.stats, rfl, h.clock, h.nextWriter, h.trace⟩
  revert he
  generalize Saver.endAll env _ { s with tick := t.tick + 1 } = A
  generalize Saver.endAll env _ { t with tick := t.tick + 1 } = B
  cases A <;> cases B
  · exact fun _ => trivial
  · exact fun h => h.elim
  · exact fun h => h.elim
  · exact fun he => he.emit x rfl

/-- Two complete runs on inputs that differ in addresses only. -/
theorem runSaver_sim (hv : ViewOK env) (bs cs : List MessageBlock) (hl : bs.length = cs.length) (hz : ∀ p ∈ bs.zip cs, SimB x env.exclude p.1 p.2)
    (hI : ∀ b ∈ bs, AllInfoOK env.exclude b) (hI' : ∀ b ∈ cs, AllInfoOK env.exclude b) : SimO (Sim x) (runSaver env bs) (runSaver env cs) := by
  rw [runSaver_view env hv bs hI, runSaver_view env hv cs hI']
  have h0 : SimL x newLoop newLoop := ⟨⟨rfl, rfl, rfl, rfl, rfl, rfl, rfl, rfl, rfl, rfl, rfl⟩, rfl, rfl, rfl⟩
  have hb := blocks_sim x env.still (fun _ _ => rfl) bs cs h0
    ⟨fun k r h => by simp [newLoop, newSaver, newCache, GoMap.get] at h, fun k r h => by simp [newLoop, newSaver, newCache, GoMap.get] at h⟩ hl hz hI
  unfold runSaver runBlocks
  revert hb
  cases LoopState.blocks env.still bs newLoop <;> cases LoopState.blocks env.still cs newLoop
  · exact fun _ => trivial
  · exact fun h => h.elim
  · exact fun h => h.elim
  · exact fun hb => close_sim x env.still hb.svr

end

end TcpInfo
