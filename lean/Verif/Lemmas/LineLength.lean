import Verif.Lemmas.Ranges
import Verif.Props.EndToEnd
import Verif.Props.Subscriber
/-!
# How long the lines of an output file are
-/

namespace TcpInfo
open Spec

theorem b64Enc_len (b : Bytes) : (b64Enc b).length = 4 * ((b.length + 2) / 3) := by
  fun_induction b64Enc b <;> simp_all <;> omega

/-- Bytes in the attributes. -/
def attrBytes (l : List (Option GoSlice)) : Nat := (l.map (fun a => (a.map (fun s => s.val.length)).getD 0)).sum

theorem attrBytes_cons (a : Option GoSlice) (l : List (Option GoSlice)) : attrBytes (a :: l) = (a.map (fun s => s.val.length)).getD 0 + attrBytes l := by
  simp [attrBytes]

theorem encElems_length (l : List (Option GoSlice)) :
    3 * (J.encElems (l.map (fun a => bytesToJ (a.map (·.val))))).length ≤ 4 * attrBytes l + 17 * l.length := by
  induction l with
  | nil => simp [J.encElems]
  | cons a l ih =>
    have he : (J.encElems ((a :: l).map (fun a => bytesToJ (a.map (·.val))))).length
        ≤ (bytesToJ (a.map (·.val))).enc.length + 1 + (J.encElems (l.map (fun a => bytesToJ (a.map (·.val))))).length := by
      cases l with
      | nil => simp [J.encElems]
      | cons b l => simp only [List.map_cons, J.encElems, List.length_append, List.length_cons]; omega
    have ha : 3 * (bytesToJ (a.map (·.val))).enc.length ≤ 4 * (a.map (fun s => s.val.length)).getD 0 + 14 := by
      cases a with
      | none => simp [bytesToJ, J.enc, show (asc "null").length = 4 by decide +kernel]
      | some s => simp only [Option.map_some, bytesToJ, J.enc, List.length_cons, List.length_append, List.length_nil, b64Enc_len, Option.getD_some]; omega
    rw [attrBytes_cons, List.length_cons]
    omega

theorem timeToJ_length {zone : Int → Int} {t : Int} {j : J} (h : timeToJ zone t = some j) : j.enc.length ≤ 42 := by
  obtain ⟨tb, htb, rfl⟩ := Option.map_eq_some_iff.mp h
  have := fmtTime_length htb
  simp only [J.enc, List.length_cons, List.length_append, List.length_nil]
  omega

theorem encMembers_len (k : Bytes) (j : J) (l : List (Bytes × J)) : (J.encMembers ((k, j) :: l)).length ≤ k.length + j.enc.length + 4 + (J.encMembers l).length := by
  cases l with
  | nil => simp [J.encMembers]; omega
  | cons p l => simp [J.encMembers]; omega

theorem encMembers_app (l l' : List (Bytes × J)) : (J.encMembers (l ++ l')).length ≤ (J.encMembers l).length + 1 + (J.encMembers l').length := by
  induction l with
  | nil => simp [J.encMembers]
  | cons p l ih =>
    obtain ⟨k, j⟩ := p
    cases l with
    | nil =>
      cases l' with
      | nil => simp [J.encMembers]
      | cons q l' => simp [J.encMembers]; omega
    | cons q l =>
      simp only [List.cons_append, J.encMembers, List.length_cons, List.length_append] at ih ⊢
      omega

/-- The length of the line of a record, in terms of what it holds. -/
theorem marshalRecord_length {zone : Int → Int} {r : ArchivalRecord} {b : Bytes} (h : marshalRecord zone r = some b)
    (hs : ∀ m, r.metadata = some m → minInt64 ≤ m.sequence ∧ m.sequence ≤ maxInt64) :
    3 * b.length ≤ 4 * (r.raw.length + attrBytes r.attrs) + 17 * r.attrs.length + 900 + 18 * ((r.metadata.map (fun m => m.uuid.length)).getD 0) := by
  unfold marshalRecord at h
  obtain ⟨j, hj, rfl⟩ := Option.map_eq_some_iff.mp h
  unfold recordToJ at hj
  obtain ⟨ts, hts, hj⟩ := Option.bind_eq_some_iff.mp hj
  have h1 := timeToJ_length hts
  have k1 : (key "Timestamp").length = 9 := by decide +kernel
  have k2 : (key "RawIDM").length = 6 := by decide +kernel
  have k3 : (key "Attributes").length = 10 := by decide +kernel
  have k4 : (key "Metadata").length = 8 := by decide +kernel
  have k5 : (key "UUID").length = 4 := by decide +kernel
  have k6 : (key "Sequence").length = 8 := by decide +kernel
  have k7 : (key "StartTime").length = 9 := by decide +kernel
  have hR : 3 * (J.encMembers (if r.raw = [] then [] else [(key "RawIDM", bytesToJ r.rawIDM)])).length ≤ 4 * r.raw.length + 50 := by
    split
    · simp [J.encMembers]
    · have := encMembers_len (key "RawIDM") (bytesToJ r.rawIDM) []
      have hb : 3 * (bytesToJ r.rawIDM).enc.length ≤ 4 * r.raw.length + 14 := by
        cases hr : r.rawIDM with
        | none => simp [bytesToJ, J.enc, show (asc "null").length = 4 by decide +kernel]
        | some s =>
          simp only [bytesToJ, J.enc, List.length_cons, List.length_append, List.length_nil, b64Enc_len, ArchivalRecord.raw, hr, Option.getD_some]; omega
      simp only [show J.encMembers [] = [] from by simp [J.encMembers], List.length_nil] at this
      omega
  have hA : 3 * (J.encMembers (if r.attrs = [] then [] else [(key "Attributes", J.arr (r.attrs.map (fun a => bytesToJ (a.map (·.val)))))])).length
      ≤ 4 * attrBytes r.attrs + 17 * r.attrs.length + 50 := by
    split
    · simp [J.encMembers]
    · have := encMembers_len (key "Attributes") (J.arr (r.attrs.map (fun a => bytesToJ (a.map (·.val))))) []
      have he := encElems_length r.attrs
      simp only [show J.encMembers [] = [] from by simp [J.encMembers], List.length_nil, J.enc, List.length_cons, List.length_append] at this
      omega
  generalize (if r.raw = [] then [] else [(key "RawIDM", bytesToJ r.rawIDM)]) = raw at hj hR
  generalize (if r.attrs = [] then [] else [(key "Attributes", J.arr (r.attrs.map (fun a => bytesToJ (a.map (·.val)))))]) = at' at hj hA
  simp only at hj
  cases hm : r.metadata with
  | none =>
    rw [hm] at hj
    obtain rfl := Option.some.inj hj
    have e1 := encMembers_len (key "Timestamp") ts (raw ++ at')
    have e2 := encMembers_app raw at'
    simp only [J.enc, List.length_cons, List.length_append, List.length_nil, Option.map_none, Option.getD_none] at e1 e2 ⊢
    omega
  | some m =>
    rw [hm] at hj
    obtain ⟨mj, hmj, rfl⟩ := Option.map_eq_some_iff.mp hj
    unfold metadataToJ at hmj
    obtain ⟨st, hst, rfl⟩ := Option.map_eq_some_iff.mp hmj
    have h2 := timeToJ_length hst
    have h3 := intLit_length (hs m hm).1 (hs m hm).2
    have h4 := quote_length m.uuid.toList
    rw [String.length_toList] at h4
    have e1 := encMembers_len (key "Timestamp") ts (raw ++ (at' ++ [(key "Metadata",
      J.obj [(key "UUID", .str (quote m.uuid.toList)), (key "Sequence", .num (intLit m.sequence)), (key "StartTime", st)])]))
    have e2 := encMembers_app raw (at' ++ [(key "Metadata",
      J.obj [(key "UUID", .str (quote m.uuid.toList)), (key "Sequence", .num (intLit m.sequence)), (key "StartTime", st)])])
    have e3 := encMembers_app at' [(key "Metadata",
      J.obj [(key "UUID", .str (quote m.uuid.toList)), (key "Sequence", .num (intLit m.sequence)), (key "StartTime", st)])]
    have e4 : (J.encMembers [(key "Metadata",
      J.obj [(key "UUID", .str (quote m.uuid.toList)), (key "Sequence", .num (intLit m.sequence)), (key "StartTime", st)])]).length ≤ 120 + 6 * m.uuid.length := by
      simp only [J.encMembers, J.enc, List.length_cons, List.length_append, List.length_nil, k4, k5, k6, k7]
      omega
    generalize (J.encMembers [(key "Metadata", J.obj [(key "UUID", .str (quote m.uuid.toList)), (key "Sequence", .num (intLit m.sequence)), (key "StartTime", st)])]).length = x at e3 e4
    rw [J.enc]
    simp only [List.length_cons, List.length_append, List.length_nil, Option.map_some, Option.getD_some] at e1 e2 e3 e4 ⊢
    omega

/-! ## Records made from messages -/

theorem attrBytes_set (l : List (Option GoSlice)) (n : Nat) (v : GoSlice) : attrBytes (l.set n (some v)) ≤ attrBytes l + v.val.length := by
  induction l generalizing n with
  | nil => simp [attrBytes]
  | cons a l ih =>
    cases n with
    | zero => simp only [List.set_cons_zero, attrBytes_cons, Option.map_some, Option.getD_some]; omega
    | succ n => have := ih n; simp only [List.set_cons_succ, attrBytes_cons]; omega

/-- Bytes in the values of a list of attributes. -/
def raBytes (l : List RouteAttr) : Nat := (l.map (fun a => a.value.val.length)).sum

theorem fillAttrs_bytes (l : List RouteAttr) (m : Nat) (tbl : List (Option GoSlice)) : attrBytes (fillAttrs l m tbl) ≤ attrBytes tbl + raBytes l := by
  induction l generalizing tbl with
  | nil => simp [fillAttrs]
  | cons a l ih =>
    have hb : raBytes (a :: l) = a.value.val.length + raBytes l := by simp [raBytes]
    unfold fillAttrs
    split
    · have := ih tbl; omega
    · have h1 := ih (tbl.set a.type.toNat (some a.value))
      have h2 := attrBytes_set tbl a.type.toNat a.value
      omega

theorem attrBytes_none (n : Nat) : attrBytes (List.replicate n none) = 0 := by
  induction n with
  | zero => rfl
  | succ n ih => rw [List.replicate_succ, attrBytes_cons, ih]; rfl

theorem parseLoop_bytes (fuel : Nat) (b tail : Bytes) (acc l : List RouteAttr) (h : parseRouteAttrLoop fuel b tail acc = some (.ok l)) :
    raBytes l ≤ raBytes acc + b.length := by
  induction fuel generalizing b acc with
  | zero => simp [parseRouteAttrLoop] at h
  | succ fuel ih =>
    unfold parseRouteAttrLoop at h
    split at h
    · injection h with h; injection h with h; subst h; omega
    · rename_i hlen
      unfold netlinkRouteAttrAndValue at h
      simp only at h
      split at h
      · simp at h
      · simp at h
      · rename_i len typ vbuf alen heq
        split at heq
        · simp at heq
        · rename_i hal
          injection heq with heq
          simp only [Prod.mk.injEq] at heq
          obtain ⟨e1, e2, e3, e4⟩ := heq
          split at h
          · simp at h
          · have := ih _ _ h
            have hra : raBytes (acc ++ [(⟨typ, ⟨vbuf.take (len - 4), vbuf.drop (len - 4) ++ tail⟩⟩ : RouteAttr)]) = raBytes acc + min (len - 4) vbuf.length := by
              simp [raBytes]
            rw [hra] at this
            have hle : len ≤ alen := by rw [← e4, ← e1]; unfold rtaAlignOf; omega
            rw [List.length_drop] at this
            omega

theorem makeArchivalRecord_size {msg : NetlinkMessage} {ex : Option ExcludeConfig} {r : ArchivalRecord} (h : makeArchivalRecord msg ex = .ok (some r)) :
    r.raw.length + attrBytes r.attrs ≤ msg.data.length ∧ r.attrs.length ≤ 39 ∧ r.metadata = none := by
  obtain ⟨-, hl, hr⟩ := makeArchivalRecord_some h
  unfold makeRecord at hr
  split at hr
  · simp at hr
  · simp at hr
  · simp at hr
  · rename_i attrs hp
    injection hr with hr
    injection hr with hr
    subst hr
    have h1 := parseLoop_bytes _ _ _ _ _ hp
    have h2 := fillAttrs_bytes attrs (if maxAttrTypeLoop attrs 0 > 2 * INET_DIAG_MAX then 2 * INET_DIAG_MAX else maxAttrTypeLoop attrs 0)
      (List.replicate ((if maxAttrTypeLoop attrs 0 > 2 * INET_DIAG_MAX then 2 * INET_DIAG_MAX else maxAttrTypeLoop attrs 0) + 1) none)
    rw [attrBytes_none] at h2
    simp only [raBytes, List.map_nil, List.sum_nil, List.length_drop] at h1
    refine ⟨?_, ?_, rfl⟩
    · simp only [ArchivalRecord.raw, ArchivalRecord.attrs, Option.getD_some, List.length_take]
      simp only [raBytes] at h2
      omega
    · simp only [ArchivalRecord.attrs, Option.getD_some, fillAttrs_length, List.length_replicate]
      have : INET_DIAG_MAX = 19 := rfl
      split <;> omega

theorem reportOf_size {ex : Option ExcludeConfig} {t : Int} {m : NetlinkMessage} {r : ArchivalRecord} (h : reportOf ex t (some m) = some r) :
    r.timestamp = t ∧ r.raw.length + attrBytes r.attrs ≤ m.data.length ∧ r.attrs.length ≤ 39 ∧ r.metadata = none := by
  unfold reportOf at h
  simp only at h
  split at h
  · rename_i r0 hm
    injection h with h; subst h
    have := makeArchivalRecord_size hm
    exact ⟨rfl, this⟩
  · simp at h

theorem anonymized_size {anon : Anonymizer} {r r' : ArchivalRecord} (h : anonymized anon.f r = some r') :
    r'.timestamp = r.timestamp ∧ r'.raw.length = r.raw.length ∧ r'.attrs = r.attrs ∧ r'.metadata = r.metadata := by
  unfold anonymized at h
  simp only at h
  split at h
  · simp at h
  · rename_i hl
    obtain ⟨w, hw, rfl⟩ := Option.map_eq_some_iff.1 h
    refine ⟨rfl, ?_, rfl, rfl⟩
    have hw' : w = 4 ∨ w = 16 := by
      split at hw
      · left; exact (Option.some.inj hw).symm
      · split at hw
        · right; exact (Option.some.inj hw).symm
        · simp at hw
    simp only [ArchivalRecord.raw, Option.getD_some, List.length_append, anon.len, List.length_take, List.length_drop]
    omega

/-! ## Headers -/

/-- Start times come from announcements, sequence numbers are below the number of files. -/
structure HInv (s : Saver) : Prop where
  conns : ∀ k c, s.conns.get k = some c → (∃ x ∈ s.trace, ∃ u id, x.act = .flowCreated c.startTime u id) ∧ 0 ≤ c.sequence ∧ c.sequence ≤ s.nextWriter
  files : ∀ x ∈ s.trace, ∀ w n hd, x.act = .openFile w n hd → ∃ m, hd.metadata = some m ∧ (∃ y ∈ s.trace, ∃ u id, y.act = .flowCreated m.startTime u id)
    ∧ 0 ≤ m.sequence ∧ m.sequence < s.nextWriter

theorem HInv.emit {s : Saver} (h : HInv s) (a : Action) (ha : ∀ w n hd, a ≠ .openFile w n hd) : HInv (s.emit a) := by
  constructor
  · intro k c hk
    obtain ⟨⟨x, hx, u, id, e⟩, h2⟩ := h.conns k c hk
    exact ⟨⟨x, List.mem_append_left _ hx, u, id, e⟩, h2⟩
  · intro x hx w n hd e
    rcases List.mem_append.1 hx with hx | hx
    · obtain ⟨m, h1, ⟨y, hy, u, id, e2⟩, h3⟩ := h.files x hx w n hd e
      exact ⟨m, h1, ⟨y, List.mem_append_left _ hy, u, id, e2⟩, h3⟩
    · have : x = ⟨s.clock, a⟩ := by simpa using hx
      subst this
      exact absurd e (ha w n hd)

theorem HInv.update {s : Saver} (h : HInv s) (conns : GoMap Conn) (hc : ∀ k c, conns.get k = some c → (∃ x ∈ s.trace, ∃ u id, x.act = .flowCreated c.startTime u id)
    ∧ 0 ≤ c.sequence ∧ c.sequence ≤ s.nextWriter) : HInv { s with conns := conns } := ⟨hc, h.files⟩

theorem HInv.set {s : Saver} (h : HInv s) (k : UInt64) (c : Conn) (hc : (∃ x ∈ s.trace, ∃ u id, x.act = .flowCreated c.startTime u id)
    ∧ 0 ≤ c.sequence ∧ c.sequence ≤ s.nextWriter) : HInv { s with conns := s.conns.set k c } := by
  refine h.update _ (fun k' c' hk => ?_)
  by_cases e : k' = k
  · subst e; rw [GoMap.get_set_self] at hk; injection hk with hk; subst hk; exact hc
  · rw [GoMap.get_set_ne _ _ e] at hk; exact h.conns k' c' hk

theorem hinv_step {env : Env} (s s' : Saver) (hs : Step env s s') (h : HInv s) : HInv s' := by
  cases hs with
  | other h1 h2 h3 _ _ => exact ⟨by rw [h1, h2, h3]; exact h.conns, by rw [h2, h3]; exact h.files⟩
  | clock => exact ⟨h.conns, h.files⟩
  | observe a ha => exact h.emit a (by rintro w n hd rfl; simp at ha)
  | create k idm ts hn _ _ =>
    refine (h.emit (.flowCreated ts (env.uuid k) idm.id.getSockID) (by simp)).set k _ ⟨⟨⟨s.clock, _⟩, List.mem_append_right _ (List.mem_singleton.2 rfl), _, _, rfl⟩, ?_⟩
    simp [newConnection]
  | closeExpired k c w hk _ _ =>
    refine (h.emit (.send (queueOf env k) ⟨none, some w⟩) (by simp)).set k _ ?_
    obtain ⟨⟨x, hx, u, id, e⟩, h2⟩ := h.conns k c hk
    exact ⟨⟨x, List.mem_append_left _ hx, u, id, e⟩, h2⟩
  | touch k c hk => exact h.set k c (h.conns k c hk)
  | rotate k c dir hk _ _ _ =>
    obtain ⟨⟨x, hx, u, id, e⟩, h2, h3⟩ := h.conns k c hk
    constructor
    · intro k' c' hk'
      by_cases e' : k' = k
      · subst e'
        simp only [GoMap.get_set_self] at hk'
        injection hk' with hk'; subst hk'
        exact ⟨⟨x, List.mem_append_left _ hx, u, id, e⟩, by simp only; omega, by simp only; omega⟩
      · simp only [GoMap.get_set_ne _ _ e'] at hk'
        obtain ⟨⟨x, hx, u, id, e⟩, h2, h3⟩ := h.conns k' c' hk'
        exact ⟨⟨x, List.mem_append_left _ hx, u, id, e⟩, h2, by simp only; omega⟩
    · intro y hy w n hd ey
      rcases List.mem_append.1 hy with hy | hy
      · obtain ⟨m, g1, ⟨z, hz, u, id, e2⟩, g3, g4⟩ := h.files y hy w n hd ey
        exact ⟨m, g1, ⟨z, List.mem_append_left _ hz, u, id, e2⟩, g3, by simp only; omega⟩
      · have : y = ⟨s.clock, .openFile s.nextWriter ⟨dir, env.uuid c.id.cookieUint64, c.sequence⟩ (headerRecord env c)⟩ := by simpa using hy
        subst this
        injection ey with _ _ ey; subst ey
        exact ⟨_, rfl, ⟨x, List.mem_append_left _ hx, u, id, e⟩, by simp, by simp only; omega⟩
  | write k c w msg idm _ _ _ _ _ => exact h.emit _ (by simp)
  | endClose k c w hk _ =>
    refine ((h.emit (.flowDeleted (env.wall s.clock) (env.uuid k)) (by simp)).emit (.send (queueOf env k) ⟨none, some w⟩) (by simp)).update _ (fun k' c' hk' => ?_)
    by_cases e' : k' = k
    · subst e'; rw [GoMap.get_del_self] at hk'; simp at hk'
    · rw [GoMap.get_del_ne _ e'] at hk'
      obtain ⟨⟨x, hx, u, id, e⟩, h2⟩ := h.conns k' c' hk'
      exact ⟨⟨x, List.mem_append_left _ (List.mem_append_left _ hx), u, id, e⟩, h2⟩
  | endGone k _ => exact h.emit _ (by simp)

/-! ## The number of files -/

theorem queue_writers {env : Env} {s s' : Saver} {r : ArchivalRecord} {e : Option GoErr} (h : s.queue env r = some (s', e)) : s'.nextWriter ≤ s.nextWriter + 1 := by
  unfold Saver.queue at h
  split at h
  · simp at h
  · simp at h
  · rename_i idm hp
    simp only at h
    split at h
    · injection h with h; injection h with h1 h2; subst h1; omega
    · split at h
      · injection h with h; injection h with h1 h2; subst h1; omega
      · have g1 : (s.getConn env (cookieOf idm) idm r.timestamp).1.nextWriter = s.nextWriter := by unfold Saver.getConn; split <;> rfl
        generalize s.getConn env (cookieOf idm) idm r.timestamp = sc at h g1
        have g2 : (sc.1.closeExpired env (cookieOf idm) sc.2).1.nextWriter = sc.1.nextWriter := by unfold Saver.closeExpired; simp only; split <;> rfl
        generalize sc.1.closeExpired env (cookieOf idm) sc.2 = sc2 at h g2
        have g3 : (if sc2.2.writer = none then sc2.1.rotate env sc2.2 else (sc2.1, sc2.2, none)).1.nextWriter ≤ sc2.1.nextWriter + 1 := by
          split
          · have hd : (sc2.1.rotateDir env sc2.2).1.nextWriter = sc2.1.nextWriter := by unfold Saver.rotateDir; split <;> rfl
            unfold Saver.rotate
            simp only
            split
            · simp only [hd]; omega
            · simp only [Saver.emit, hd]; omega
          · simp only; omega
        generalize (if sc2.2.writer = none then sc2.1.rotate env sc2.2 else (sc2.1, sc2.2, none)) = sce at h g3
        split at h
        · injection h with h; injection h with h1 h2; subst h1; simp only; omega
        · injection h with h; injection h with h1 h2; subst h1; simp only [Saver.emit]; omega

theorem recordClosing_writers (s : Saver) (k : UInt64) (pm old : ArchivalRecord) : (s.recordClosing k pm old).nextWriter = s.nextWriter := by
  unfold Saver.recordClosing; split <;> rfl

theorem swap_writers {env : Env} {s s' : Saver} {r : ArchivalRecord} (h : s.swapAndQueue env r = some s') : s'.nextWriter ≤ s.nextWriter + 1 := by
  have hq : ∀ s0 : Saver, s0.nextWriter = s.nextWriter → (s0.queue env r).map (·.1) = some s' → s'.nextWriter ≤ s.nextWriter + 1 := by
    intro s0 h0 h1
    obtain ⟨⟨s1, e⟩, h2, h3⟩ := Option.map_eq_some_iff.1 h1
    subst h3
    have := queue_writers h2
    simp only; omega
  unfold Saver.swapAndQueue at h
  simp only at h
  generalize s.cache.update r = cu at h
  obtain ⟨c, o⟩ := cu
  cases o with
  | panic => simp at h
  | err e => simp only [Option.some.injEq] at h; subst h; simp only; omega
  | ok o =>
    cases o with
    | none => simp only at h; refine hq _ ?_ h; rfl
    | some cached =>
      simp only at h
      split at h
      · simp at h
      · injection h with h; subst h; simp only; omega
      · split at h
        · simp at h
        · injection h with h; subst h; simp only [recordClosing_writers]; omega
        · split at h
          · refine hq _ ?_ h
            simp only [recordClosing_writers]
          · injection h with h; subst h; simp only [recordClosing_writers]; omega

theorem endConn_writers {env : Env} {s s' : Saver} {k : UInt64} (h : s.endConn env k = some s') : s'.nextWriter = s.nextWriter := by
  unfold Saver.endConn at h
  simp only at h
  split at h
  · simp at h
  · split at h
    · split at h
      · injection h with h; subst h; rfl
      · injection h with h; subst h; rfl
    · injection h with h; subst h; rfl

theorem endAll_writers {env : Env} {ks : List UInt64} {s s' : Saver} (h : Saver.endAll env ks s = some s') : s'.nextWriter = s.nextWriter := by
  induction ks generalizing s with
  | nil => simp only [Saver.endAll] at h; injection h with h; subst h; rfl
  | cons k ks ih =>
    simp only [Saver.endAll] at h
    obtain ⟨s1, h1, h2⟩ := Option.bind_eq_some_iff.1 h
    rw [ih h2, endConn_writers h1]

theorem expireAll_writers {env : Env} {res : GoMap ArchivalRecord} {ks : List UInt64} {l l' : LoopState} (h : LoopState.expireAll env res ks l = some l') :
    l'.svr.nextWriter = l.svr.nextWriter := by
  induction ks generalizing l with
  | nil => simp only [LoopState.expireAll] at h; injection h with h; subst h; rfl
  | cons k ks ih =>
    simp only [LoopState.expireAll] at h
    obtain ⟨l1, h1, h2⟩ := Option.bind_eq_some_iff.1 h
    rw [ih h2]
    unfold LoopState.expire at h1
    split at h1
    · injection h1 with h1; subst h1; rfl
    · simp only at h1
      split at h1
      · simp at h1
      · rename_i s1 hs
        injection h1 with h1; subst h1
        simp only
        rw [endConn_writers hs]
        unfold Saver.finalStats
        split
        · split <;> rfl
        · rfl

theorem report_writers (l : LoopState) (t : Int) (s4 s6 r4 r6 : UInt64) : (l.report t s4 s6 r4 r6).svr.nextWriter = l.svr.nextWriter := by
  unfold LoopState.report
  split
  · simp only
    split <;> split <;> rfl
  · rfl

/-- Updates of a history. -/
def updatesOf (h : List Call) : List ArchivalRecord := h.filterMap (fun c => match c with | .update r => some r | .endCycle => none)

/-- At most one file is opened per report. -/
theorem run_writers {env : Env} {bs : List MessageBlock} {s : Saver} (h : runSaver env bs = some s) :
    s.nextWriter ≤ (bs.flatMap (reports env.exclude)).length := by
  obtain ⟨l, h1, h2⟩ := runSaver_split h
  have hl : l.svr.nextWriter ≤ (updatesOf (history env.exclude bs)).length := by
    refine run_induct env (fun h l => l.svr.nextWriter ≤ (updatesOf h).length) (fun _ => True) (by simp [newLoop, newSaver]) ?_ ?_ bs (fun _ _ _ _ => trivial) l h1
    · intro h l r s' _ _ hp hs
      have := swap_writers hs
      have e : (updatesOf (h ++ [.update r])).length = (updatesOf h).length + 1 := by simp [updatesOf, List.filterMap_append]
      simp only at *
      omega
    · intro h l l1 t s4 s6 r4 r6 hp hfin _ _
      have e : (updatesOf (h ++ [.endCycle])).length = (updatesOf h).length := by simp [updatesOf, List.filterMap_append]
      rw [report_writers, e]
      unfold LoopState.finish at hfin
      rw [expireAll_writers hfin]
      exact hp
  have he : ∀ bs, updatesOf (history env.exclude bs) = bs.flatMap (reports env.exclude) := by
    intro bs
    induction bs with
    | nil => rfl
    | cons b bs ih =>
      unfold history updatesOf at ih ⊢
      simp only [List.flatMap_cons, List.filterMap_append, ih]
      congr 1
      have : ∀ rs : List ArchivalRecord, List.filterMap (fun c => match c with | .update r => some r | .endCycle => none) (rs.map Call.update) = rs := by
        intro rs; induction rs with
        | nil => rfl
        | cons a rs ih => simp only [List.map_cons, List.filterMap_cons, ih]
      rw [this]; simp
  rw [he] at hl
  unfold Saver.close at h2
  obtain ⟨s1, h3, rfl⟩ := Option.map_eq_some_iff.1 h2
  have := endAll_writers h3
  simp only [Saver.emit] at this ⊢
  omega

theorem reports_length (ex : Option ExcludeConfig) (b : MessageBlock) : (reports ex b).length ≤ b.v4Messages.length + b.v6Messages.length := by
  unfold reports
  rw [List.length_append]
  have h1 := List.length_filterMap_le (reportOf ex b.v4Time) b.v4Messages
  have h2 := List.length_filterMap_le (reportOf ex b.v6Time) b.v6Messages
  omega

/-! ## All lines of all files are short -/

theorem fileEvents_opened {w : Nat} {tr : List Stamped} {n : FileName} {hd : ArchivalRecord} (h : .opened n hd ∈ fileEvents w tr) :
    ∃ x ∈ tr, x.act = .openFile w n hd := by
  unfold fileEvents at h
  obtain ⟨x, hx, he⟩ := List.mem_filterMap.1 h
  refine ⟨x, hx, ?_⟩
  unfold fileEvent at he
  split at he <;> simp_all

theorem modern_shift {zone : Int → Int} (hz : ∀ t, (zone t).natAbs < 24 * 60) {t : Int} (ht : ModernTime t) :
    year0 ≤ t + zone t * 60 * 1000000000 ∧ t + zone t * 60 * 1000000000 < year10000 := by
  have := hz t
  unfold ModernTime at ht
  omega

theorem short_count {env : Env} {bs : List MessageBlock} (h : ShortInput env bs) : (bs.flatMap (reports env.exclude)).length < 2 ^ 63 := by
  refine Nat.lt_of_le_of_lt ?_ h.count
  have : ∀ bs : List MessageBlock, (bs.flatMap (reports env.exclude)).length ≤ (bs.map (fun b => b.v4Messages.length + b.v6Messages.length)).sum := by
    intro bs
    induction bs with
    | nil => simp
    | cons b bs ih =>
      have := reports_length env.exclude b
      simp only [List.flatMap_cons, List.length_append, List.map_cons, List.sum_cons]; omega
  exact this bs

theorem short_report {env : Env} {bs : List MessageBlock} (h : ShortInput env bs) {r : ArchivalRecord} (hr : r ∈ bs.flatMap (reports env.exclude)) :
    ModernTime r.timestamp ∧ r.raw.length + attrBytes r.attrs ≤ 48000 ∧ r.attrs.length ≤ 39 ∧ r.metadata = none := by
  obtain ⟨b, hb, hr⟩ := List.mem_flatMap.1 hr
  have key : ∀ t ms, (∀ m, some m ∈ ms → m.data.length ≤ 48000) → ModernTime t → r ∈ List.filterMap (reportOf env.exclude t) ms →
      ModernTime r.timestamp ∧ r.raw.length + attrBytes r.attrs ≤ 48000 ∧ r.attrs.length ≤ 39 ∧ r.metadata = none := by
    intro t ms hms ht hm
    obtain ⟨m, hm1, hm2⟩ := List.mem_filterMap.1 hm
    cases m with
    | none => simp [reportOf] at hm2
    | some m =>
      obtain ⟨h1, h2, h3, h4⟩ := reportOf_size hm2
      have := hms m hm1
      exact ⟨by rw [h1]; exact ht, by omega, h3, h4⟩
  unfold reports at hr
  rcases List.mem_append.1 hr with hr | hr
  · exact key _ _ (fun m hm => h.sizes b hb m (List.mem_append_left _ hm)) (h.times b hb).1 hr
  · exact key _ _ (fun m hm => h.sizes b hb m (List.mem_append_right _ hm)) (h.times b hb).2 hr

/-- Every line of every file is written, and short. -/
theorem short_lines {zone : Int → Int} (hz : ∀ t, (zone t).natAbs < 24 * 60) (anon : Anonymizer) {env : Env} {bs : List MessageBlock} (hi : ShortInput env bs)
    {s : Saver} (h : runSaver env bs = some s) {w : Nat} {n : FileName} {hd : ArchivalRecord} {ws : List ArchivalRecord} {q : Nat}
    (he : fileEvents w s.trace = .opened n hd :: ws.map (.wrote q) ++ [.closed q]) :
    ∀ r ∈ hd :: ws.filterMap (anonymized anon.f), (∃ b, marshalRecord zone r = some b ∧ b.length < 65536)
      ∧ ∀ m, r.metadata = some m → -2 ^ 63 ≤ m.sequence ∧ m.sequence < 2 ^ 63 := by
  intro r hr
  rcases List.mem_cons.1 hr with rfl | hr
  · obtain ⟨k, n', hd', st, ws', q', he', hu, hh, -⟩ := C37_contents env bs s h w (by rw [he]; simp)
    rw [he] at he'
    simp only [List.cons_append, List.cons.injEq, FileEvent.opened.injEq] at he'
    obtain ⟨⟨rfl, rfl⟩, -⟩ := he'
    obtain ⟨x, hx, hxa⟩ := fileEvents_opened (w := w) (tr := s.trace) (n := n) (hd := r) (by rw [he]; simp)
    have hH : HInv s := by
      obtain ⟨s1, rfl, hst, -⟩ := runSaver_closed h
      exact (hst.inv hinv_step ⟨by simp [newSaver, GoMap.get], by simp [newSaver]⟩).emit _ (by simp)
    obtain ⟨m, hm, ⟨y, hy, u, id, hya⟩, h0, h1⟩ := hH.files x hx w n r hxa
    have hT := (opens_run env ModernTime bs hi.times s h y hy _ _ _ hya).1
    have hN := run_writers h
    have hC := short_count hi
    have hseq : 0 ≤ m.sequence ∧ m.sequence < 2 ^ 63 := ⟨h0, by omega⟩
    have hmeta : m = ⟨env.uuid k, n.sequence, st⟩ := by rw [hh] at hm; exact (Option.some.inj hm).symm
    obtain ⟨b, hb⟩ := C22_marshals zone r (by
      intro t ht
      rw [hm] at ht
      simp only [Option.map_some, Option.toList_some, List.mem_cons, List.not_mem_nil, or_false] at ht
      rcases ht with rfl | rfl
      · rw [hh]
        have := hz zeroTime
        simp only [year0, year10000, zeroTime] at this ⊢
        omega
      · exact modern_shift hz hT)
    refine ⟨⟨b, hb, ?_⟩, ?_⟩
    · have hlen := marshalRecord_length hb (by
        intro m' hm'; rw [hm] at hm'; injection hm' with hm'; subst hm'
        simp only [minInt64, maxInt64]; omega)
      rw [hm] at hlen
      have e1 : r.raw = [] := by rw [hh]; rfl
      have e2 : r.attrs = [] := by rw [hh]; rfl
      rw [e1, e2] at hlen
      have e3 := hi.uuids k
      have e4 : m.uuid = env.uuid k := by rw [hmeta]
      simp only [List.length_nil, attrBytes, List.map_nil, List.sum_nil, Option.map_some, Option.getD_some, e4] at hlen
      omega
    · intro m' hm'
      rw [hm] at hm'; injection hm' with hm'; subst hm'
      omega
  · obtain ⟨r0, hr0, ha⟩ := List.mem_filterMap.1 hr
    have hrep : r0 ∈ bs.flatMap (reports env.exclude) := by
      refine (C37_order env bs s h w).subset ?_
      unfold fileRecords
      rw [he]
      simp only [List.cons_append, List.mem_filterMap]
      exact ⟨.wrote q r0, by simp [hr0], rfl⟩
    obtain ⟨h1, h2, h3, h4⟩ := short_report hi hrep
    obtain ⟨a1, a2, a3, a4⟩ := anonymized_size ha
    obtain ⟨b, hb⟩ := C22_marshals zone r (by
      intro t ht
      rw [a4, h4] at ht
      simp only [Option.map_none, Option.toList_none, List.mem_cons, List.not_mem_nil, or_false] at ht
      subst ht
      rw [a1]
      exact modern_shift hz h1)
    refine ⟨⟨b, hb, ?_⟩, fun m hm => by rw [a4, h4] at hm; simp at hm⟩
    have hlen := marshalRecord_length hb (fun m hm => by rw [a4, h4] at hm; simp at hm)
    rw [a2, a3, a4, h4] at hlen
    simp only [Option.map_none, Option.getD_none] at hlen
    omega

end TcpInfo
