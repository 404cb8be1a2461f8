import Verif.Model.Snapshot
import Verif.Spec.Snapshot
import Verif.Lemmas.Bytes
/-!
# The decoding loop
-/

namespace TcpInfo
open Spec

/-- What the loop makes of one field: `π` depends on attribute `k` only. -/
theorem decodeLoop_field {α : Type} (π : Snapshot → α) (k : Nat) (g : Bytes → α)
    (hk : ∀ raw s s1 ok, decodeSwitch k raw s = some (s1, ok) → π s1 = g raw)
    (hne : ∀ t raw s s1 ok, t ≠ k → decodeSwitch t raw s = some (s1, ok) → π s1 = π s)
    (hbits : ∀ s o n, π { s with observed := o, notFullyParsed := n } = π s)
    (as : List (Option GoSlice)) : ∀ (t : Nat) (s s' : Snapshot), decodeLoop t as s = some s' →
      π s' = if t ≤ k then (match (as[k - t]?).join with | some raw => g raw.val | none => π s) else π s := by
  induction as with
  | nil => intro t s s' h; injection h with h; subst h; simp
  | cons a as ih =>
    intro t s s' h
    cases a with
    | none =>
      rw [decodeLoop] at h
      rw [ih _ _ _ h]
      by_cases h1 : t + 1 ≤ k
      · rw [if_pos h1, if_pos (by omega)]
        rw [show k - t = (k - (t + 1)) + 1 by omega, List.getElem?_cons_succ]
      · rw [if_neg h1]
        by_cases h2 : t ≤ k
        · rw [if_pos h2, show k - t = 0 by omega]; simp
        · rw [if_neg h2]
    | some raw =>
      rw [decodeLoop] at h
      cases hs : decodeSwitch t raw.val s with
      | none => rw [hs] at h; simp at h
      | some r =>
        obtain ⟨s1, ok⟩ := r
        rw [hs] at h
        simp only at h
        rw [ih _ _ _ h, hbits]
        by_cases h1 : t + 1 ≤ k
        · rw [if_pos h1, if_pos (by omega)]
          rw [show k - t = (k - (t + 1)) + 1 by omega, List.getElem?_cons_succ]
          rw [hne t raw.val s s1 ok (by omega) hs]
        · rw [if_neg h1]
          by_cases h2 : t ≤ k
          · have : t = k := by omega
            subst this
            rw [if_pos h2, show t - t = 0 by omega]
            simp only [List.getElem?_cons_zero, Option.join_some]
            exact hk raw.val s s1 ok hs
          · rw [if_neg h2]; exact hne t raw.val s s1 ok (by omega) hs

/-- Whether the converter for type `t` says it understood all of `raw`. -/
def okOf (t : Nat) (raw : Bytes) : Bool := ((decodeSwitch t raw { timestamp := 0 }).map (·.2)).getD false

theorem decodeSwitch_ok (t : Nat) (raw : Bytes) (s s1 : Snapshot) (ok : Bool) (h : decodeSwitch t raw s = some (s1, ok)) :
    ok = okOf t raw ∧ s1.observed = s.observed ∧ s1.notFullyParsed = s.notFullyParsed ∧ s1.timestamp = s.timestamp
      ∧ s1.inetDiagMsg = s.inetDiagMsg := by
  unfold okOf
  unfold decodeSwitch at h ⊢
  split at h
  all_goals first
    | (injection h with h; injection h with h1 h2; subst h1; subst h2; simp [putStruct])
    | (cases hc : congestionAlgorithm raw with
       | none => rw [hc] at h; simp at h
       | some r => rw [hc] at h; simp at h; obtain ⟨h1, h2⟩ := h; subst h1; subst h2; simp)
    | skip

/-- Each case of the switch touches its own field only. -/
theorem decodeSwitch_frame (t : Nat) (raw : Bytes) (s s1 : Snapshot) (ok : Bool) (h : decodeSwitch t raw s = some (s1, ok)) :
    (t ≠ 1 → s1.memInfo = s.memInfo)
    ∧ (t ≠ 2 → s1.tcpInfo = s.tcpInfo)
    ∧ (t ≠ 3 → s1.vegasInfo = s.vegasInfo)
    ∧ (t ≠ 4 → s1.congestionAlgorithm = s.congestionAlgorithm)
    ∧ (t ≠ 5 → s1.tos = s.tos)
    ∧ (t ≠ 6 → s1.tclass = s.tclass)
    ∧ (t ≠ 7 → s1.socketMem = s.socketMem)
    ∧ (t ≠ 8 → s1.shutdown = s.shutdown)
    ∧ (t ≠ 9 → s1.dctcpInfo = s.dctcpInfo)
    ∧ (t ≠ 10 → s1.protocol = s.protocol)
    ∧ (t ≠ 15 → s1.mark = s.mark)
    ∧ (t ≠ 16 → s1.bbrInfo = s.bbrInfo)
    ∧ (t ≠ 17 → s1.classID = s.classID) := by
  unfold decodeSwitch at h
  split at h
  all_goals first
    | (injection h with h; injection h with h1 h2; subst h1; simp [putStruct])
    | (cases hc : congestionAlgorithm raw with
       | none => rw [hc] at h; simp at h
       | some r => rw [hc] at h; simp at h; obtain ⟨h1, h2⟩ := h; subst h1; simp)
    | skip

/-- The loop panics exactly on an empty congestion algorithm attribute. -/
theorem decodeSwitch_none (t : Nat) (raw : Bytes) (s : Snapshot) : decodeSwitch t raw s = none ↔ t = 4 ∧ raw = [] := by
  unfold decodeSwitch
  split
  all_goals first
    | (simp [congestionAlgorithm]; done)
    | (rename_i h; simp; done)
    | skip
  rename_i h1 h2 h3 h4 h5 h6 h7 h8 h9 h10 h11 h12 h13
  simp only [reduceCtorEq, false_iff, not_and]
  intro h; subst h; simp at h4

theorem decodeLoop_none (as : List (Option GoSlice)) : ∀ (t : Nat) (s : Snapshot),
    decodeLoop t as s = none ↔ t ≤ 4 ∧ ((as[4 - t]?).join.map (·.val)) = some [] := by
  induction as with
  | nil => intro t s; simp [decodeLoop]
  | cons a as ih =>
    intro t s
    have hidx : ∀ (h : t + 1 ≤ 4), (a :: as)[4 - t]? = as[4 - (t + 1)]? := by
      intro h; rw [show 4 - t = (4 - (t + 1)) + 1 by omega, List.getElem?_cons_succ]
    cases a with
    | none =>
      rw [decodeLoop, ih]
      by_cases h1 : t + 1 ≤ 4
      · rw [hidx h1]; simp [h1, show t ≤ 4 by omega]
      · simp only [h1, false_and, false_iff, not_and]
        intro h2
        rw [show 4 - t = 0 by omega]; simp
    | some raw =>
      rw [decodeLoop]
      cases hs : decodeSwitch t raw.val s with
      | none =>
        obtain ⟨h1, h2⟩ := (decodeSwitch_none t raw.val s).1 hs
        subst h1
        simp [h2]
      | some r =>
        simp only
        rw [ih]
        by_cases h1 : t + 1 ≤ 4
        · rw [hidx h1]; simp [h1, show t ≤ 4 by omega]
        · simp only [h1, false_and, false_iff, not_and]
          intro h2 h3
          have : t = 4 := by omega
          subst this
          rw [show 4 - 4 = 0 by omega] at h3
          simp at h3
          have := (decodeSwitch_none 4 raw.val s).2 ⟨rfl, h3⟩
          rw [this] at hs; simp at hs

/-! ## Bits -/

theorem testBit_attrBit (t i : Nat) : (attrBit t).toNat.testBit i = decide ((t + 255) % 256 = i ∧ i < 32) := by
  unfold attrBit
  simp only
  split
  · rename_i h
    have e : (UInt32.ofNat (2 ^ ((t + 255) % 256))).toNat = 2 ^ ((t + 255) % 256) := by
      rw [UInt32.toNat_ofNat', Nat.mod_eq_of_lt (Nat.pow_lt_pow_right (by omega) h)]
    rw [e, Nat.testBit_two_pow]
    by_cases h1 : (t + 255) % 256 = i
    · subst h1; simp [h]
    · simp [h1]
  · rename_i h
    simp
    intro h1; omega

/-- Attribute present at an index whose bit is `i`. -/
def hasBit (P : Nat → Bytes → Bool) (i : Nat) : (t : Nat) → List (Option GoSlice) → Bool
  | _, [] => false
  | t, none :: as => hasBit P i (t + 1) as
  | t, some raw :: as => (P t raw.val && decide ((t + 255) % 256 = i ∧ i < 32)) || hasBit P i (t + 1) as

theorem decodeLoop_bits (i : Nat) (as : List (Option GoSlice)) : ∀ (t : Nat) (s s' : Snapshot), decodeLoop t as s = some s' →
    s'.observed.toNat.testBit i = (s.observed.toNat.testBit i || hasBit (fun _ _ => true) i t as)
    ∧ s'.notFullyParsed.toNat.testBit i = (s.notFullyParsed.toNat.testBit i || hasBit (fun t a => !okOf t a) i t as) := by
  induction as with
  | nil => intro t s s' h; injection h with h; subst h; simp [hasBit]
  | cons a as ih =>
    intro t s s' h
    cases a with
    | none => rw [decodeLoop] at h; exact ih _ _ _ h
    | some raw =>
      rw [decodeLoop] at h
      cases hs : decodeSwitch t raw.val s with
      | none => rw [hs] at h; simp at h
      | some r =>
        obtain ⟨s1, ok⟩ := r
        rw [hs] at h
        simp only at h
        obtain ⟨h1, h2⟩ := ih _ _ _ h
        obtain ⟨e1, e2, e3, -⟩ := decodeSwitch_ok t raw.val s s1 ok hs
        subst e1
        constructor
        · rw [h1, e2]
          simp only [UInt32.toNat_or, Nat.testBit_or, testBit_attrBit, hasBit, Bool.true_and, Bool.or_assoc]
        · rw [h2, e3]
          cases hok : okOf t raw.val with
          | true => simp [hasBit, hok]
          | false => simp only [Bool.false_eq_true, if_false, UInt32.toNat_or, Nat.testBit_or, testBit_attrBit, hasBit, Bool.not_false,
              Bool.true_and, Bool.or_assoc, hok]

theorem hasBit_iff (P : Nat → Bytes → Bool) (i : Nat) (as : List (Option GoSlice)) : ∀ t, (hasBit P i t as = true ↔
    ∃ j raw, as[j]? = some (some raw) ∧ P (t + j) raw.val = true ∧ (t + j + 255) % 256 = i ∧ i < 32) := by
  induction as with
  | nil => intro t; simp [hasBit]
  | cons a as ih =>
    intro t
    have hstep : ∀ (P' : Prop), (∃ j raw, (a :: as)[j]? = some (some raw) ∧ P (t + j) raw.val = true ∧ (t + j + 255) % 256 = i ∧ i < 32)
        ↔ (∃ raw, a = some raw ∧ P t raw.val = true ∧ (t + 255) % 256 = i ∧ i < 32)
          ∨ (∃ j raw, as[j]? = some (some raw) ∧ P (t + 1 + j) raw.val = true ∧ (t + 1 + j + 255) % 256 = i ∧ i < 32) := by
      intro _
      constructor
      · rintro ⟨j, raw, h1, h2, h3, h4⟩
        cases j with
        | zero => left; exact ⟨raw, by simpa using h1, h2, h3, h4⟩
        | succ j =>
          right
          refine ⟨j, raw, by simpa using h1, ?_, ?_, h4⟩
          · rw [show t + 1 + j = t + (j + 1) by omega]; exact h2
          · rw [show t + 1 + j = t + (j + 1) by omega]; exact h3
      · rintro (⟨raw, h1, h2, h3, h4⟩ | ⟨j, raw, h1, h2, h3, h4⟩)
        · exact ⟨0, raw, by simp [h1], h2, h3, h4⟩
        · refine ⟨j + 1, raw, by simpa using h1, ?_, ?_, h4⟩
          · rw [show t + (j + 1) = t + 1 + j by omega]; exact h2
          · rw [show t + (j + 1) = t + 1 + j by omega]; exact h3
    rw [hstep True, ← ih (t + 1)]
    cases a with
    | none => simp [hasBit]
    | some raw => simp [hasBit]

/-! ## The decoder as a whole -/

theorem decode_ok {ar : ArchivalRecord} {md : Option Metadata} {s : Snapshot} (h : decode ar = .ok (md, s)) :
    md = ar.metadata ∧ ∃ idm, decodeLoop 0 ar.attrs { timestamp := ar.timestamp, inetDiagMsg := idm } = some s
      ∧ (match ar.rawIDM with | none => idm = none | some raw => ∃ m, parseIDM raw = .ok m ∧ idm = some m) := by
  unfold decode at h
  split at h
  · simp at h
  · simp only at h
    cases hr : ar.rawIDM with
    | none =>
      rw [hr] at h
      simp only at h
      split at h
      · simp at h
      · rename_i s1 hs1
        injection h with h; injection h with h1 h2; subst h1; subst h2
        exact ⟨rfl, none, hs1, rfl⟩
    | some raw =>
      rw [hr] at h
      simp only at h
      cases hp : parseIDM raw with
      | err e => rw [hp] at h; simp at h
      | panic => rw [hp] at h; simp at h
      | ok m =>
        rw [hp] at h
        simp only at h
        split at h
        · simp at h
        · rename_i s1 hs1
          injection h with h; injection h with h1 h2; subst h1; subst h2
          exact ⟨rfl, some m, hs1, m, hp, rfl⟩

/-! ## Structs -/

theorem leNat_append_zeros (b : Bytes) (n : Nat) : leNat (b ++ List.replicate n 0) = leNat b := by
  induction b with
  | nil => induction n with
    | zero => rfl
    | succ n ih => rw [List.replicate_succ]; simp only [List.nil_append] at ih ⊢; simp [leNat] at ih ⊢; rw [ih]
  | cons x b ih => simp only [List.cons_append, leNat, ih]

theorem leNat_zero (n : Nat) : leNat (List.replicate n (0 : UInt8)) = 0 := by
  have := leNat_append_zeros [] n; simpa [leNat] using this

/-- Reading a field inside the struct gives the same from the attribute and from the decoded memory. -/
theorem maybeCopy_sub (src : Bytes) (size off n : Nat) (h : off + n ≤ size) : leNat (sub off n (maybeCopy src size).1) = leNat (sub off n src) := by
  unfold maybeCopy sub
  split
  · simp only
    rw [List.drop_append, List.take_append, List.drop_replicate, List.take_replicate, leNat_append_zeros]
  · rename_i hl
    simp only
    rw [List.drop_take, List.take_take, Nat.min_eq_left (by omega)]

/-- Offsets of the fields of a C struct. -/
def cOffsets : CStruct → Nat → List (String × Nat × Nat)
  | [], _ => []
  | (n, sz) :: fs, off => (n, off, sz) :: cOffsets fs (off + sz)

theorem fieldOf_offsets (s : CStruct) (name : String) (b : Bytes) : ∀ off,
    fieldOf s name (b.drop off) = ((cOffsets s off).find? (fun f => f.1 == name)).map (fun f => leNat (sub f.2.1 f.2.2 b)) := by
  induction s with
  | nil => intro off; rfl
  | cons f s ih =>
    intro off
    obtain ⟨n, sz⟩ := f
    simp only [fieldOf, cOffsets, List.find?_cons]
    by_cases h : n = name
    · subst h; simp [sub]
    · rw [if_neg h, show (n == name) = false by simpa using h]
      simp only
      rw [List.drop_drop]
      exact ih _

/-- Field by field agreement of a Go struct with a kernel struct, checked by evaluation. -/
def SameLayout (g : GoStruct) (c : CStruct) (names : List (String × String)) : Bool :=
  decide (g.map (·.1) = names.map (·.1)) && decide (c.map (·.1) = names.map (·.2))
  && names.all (fun n => decide (goOffsetof g n.1 = ((cOffsets c 0).find? (fun f => f.1 == n.2)).map (·.2))
    && (match goOffsetof g n.1 with | none => false | some (off, sz) => decide (off + sz ≤ goSizeof g)))

theorem goField_fieldOf {g : GoStruct} {c : CStruct} {names : List (String × String)} (h : SameLayout g c names = true) (src : Bytes)
    (n : String × String) (hn : n ∈ names) : goField g n.1 (maybeCopy src (goSizeof g)).1 = fieldOf c n.2 src ∧ goField g n.1 src ≠ none := by
  unfold SameLayout at h
  rw [Bool.and_eq_true, List.all_eq_true] at h
  have h1 := h.2 n hn
  rw [Bool.and_eq_true, decide_eq_true_eq] at h1
  have h2 := fieldOf_offsets c n.2 src 0
  rw [List.drop_zero] at h2
  rw [h2]
  unfold goField
  cases hg : goOffsetof g n.1 with
  | none => rw [hg] at h1; simp at h1
  | some os =>
    obtain ⟨off, sz⟩ := os
    rw [hg] at h1
    have h3 : off + sz ≤ goSizeof g := by simpa using h1.2
    have h4 := h1.1
    cases hf : (cOffsets c 0).find? (fun f => f.1 == n.2) with
    | none => rw [hf] at h4; simp at h4
    | some f =>
      rw [hf] at h4
      obtain ⟨fn, fo, fs⟩ := f
      simp at h4
      obtain ⟨e1, e2⟩ := h4
      subst e1; subst e2
      simp [maybeCopy_sub src _ _ _ h3]

theorem maybeCopy_length (src : Bytes) (size : Nat) : (maybeCopy src size).1.length = size := by
  unfold maybeCopy
  split <;> simp <;> omega

end TcpInfo
