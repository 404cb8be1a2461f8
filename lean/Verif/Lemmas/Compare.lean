import Verif.Spec.Compare
import Verif.Lemmas.Record
/-! Lemmas about `compareRecords`. -/

namespace TcpInfo
open Spec

/-- Total size of a C struct. -/
def csize (s : CStruct) : Nat := (s.map (·.2)).sum

theorem fieldOf_append_right (s t : CStruct) (name : String) (h : ∀ f ∈ s, f.1 ≠ name) (b : Bytes) :
    fieldOf (s ++ t) name b = fieldOf t name (b.drop (csize s)) := by
  induction s generalizing b with
  | nil => simp [csize]
  | cons f s ih =>
    obtain ⟨n, sz⟩ := f
    have hn : n ≠ name := h (n, sz) (by simp)
    simp only [List.cons_append, fieldOf, if_neg hn]
    rw [ih (fun f hf => h f (by simp [hf])), List.drop_drop]
    simp [csize]

theorem fieldOf_append_left (s t : CStruct) (f : String × Nat) (h : f ∈ s) (b : Bytes) :
    fieldOf (s ++ t) f.1 b = fieldOf s f.1 b := by
  induction s generalizing b with
  | nil => simp at h
  | cons g s ih =>
    obtain ⟨n, sz⟩ := g
    simp only [List.cons_append, fieldOf]
    split
    · rfl
    · rename_i hn
      rcases List.mem_cons.1 h with rfl | h
      · exact absurd rfl hn
      · exact ih h _

theorem fields_eq_iff (s : CStruct) (hn : (s.map (·.1)).Nodup) (a b : Bytes) (ha : csize s ≤ a.length) (hb : csize s ≤ b.length) :
    (∀ f ∈ s, fieldOf s f.1 a = fieldOf s f.1 b) ↔ a.take (csize s) = b.take (csize s) := by
  induction s generalizing a b with
  | nil => simp [csize]
  | cons g s ih =>
    obtain ⟨n, sz⟩ := g
    have hc : csize ((n, sz) :: s) = sz + csize s := by simp [csize]
    rw [hc] at ha hb ⊢
    rw [List.take_add, List.take_add]
    simp only [List.map_cons, List.nodup_cons] at hn
    have hl : (a.take sz).length = (b.take sz).length := by simp; omega
    have happ : a.take sz ++ (a.drop sz).take (csize s) = b.take sz ++ (b.drop sz).take (csize s) ↔
        a.take sz = b.take sz ∧ (a.drop sz).take (csize s) = (b.drop sz).take (csize s) :=
      ⟨fun h => List.append_inj h hl, fun h => by rw [h.1, h.2]⟩
    rw [happ, ← ih hn.2 _ _ (by simp; omega) (by simp; omega)]
    constructor
    · intro h
      refine ⟨?_, ?_⟩
      · have := h (n, sz) (by simp)
        simp only [fieldOf, if_true, Option.some.injEq] at this
        exact leNat_inj hl this
      · intro f hf
        have := h f (by simp [hf])
        have hne : n ≠ f.1 := by
          rintro rfl
          exact hn.1 (List.mem_map.2 ⟨f, hf, rfl⟩)
        simpa only [fieldOf, if_neg hne] using this
    · rintro ⟨h1, h2⟩ f hf
      rcases List.mem_cons.1 hf with rfl | hf'
      · simp only [fieldOf, if_true, h1]
      · have hne : n ≠ f.1 := by
          rintro rfl
          exact hn.1 (List.mem_map.2 ⟨f, hf', rfl⟩)
        simpa only [fieldOf, if_neg hne] using h2 f hf'

theorem tcp_info_split : tcp_info = earlyFields ++ (lastFields ++ (middleFields ++ lateFields)) := by decide +kernel
theorem csize_early : csize earlyFields = 44 := by decide +kernel
theorem csize_last : csize lastFields = 16 := by decide +kernel
theorem csize_middle : csize middleFields = 108 := by decide +kernel
theorem nodup_tcp_info : (tcp_info.map (·.1)).Nodup := by decide +kernel

theorem sameInfo_iff (a b : Bytes) (ha : 168 ≤ a.length) (hb : 168 ≤ b.length) :
    SameInfo a b ↔ a.take 44 = b.take 44 ∧ (a.drop 60).take 108 = (b.drop 60).take 108 := by
  have hnd := nodup_tcp_info
  have hnE : (earlyFields.map (·.1)).Nodup := by decide +kernel
  have hnM : (middleFields.map (·.1)).Nodup := by decide +kernel
  have hdisj : ∀ f ∈ middleFields, (∀ g ∈ earlyFields, g.1 ≠ f.1) ∧ (∀ g ∈ lastFields, g.1 ≠ f.1) := by decide +kernel
  have hE : ∀ x : Bytes, ∀ f ∈ earlyFields, fieldOf tcp_info f.1 x = fieldOf earlyFields f.1 x := by
    intro x f hf
    rw [tcp_info_split, fieldOf_append_left _ _ _ hf]
  have hM : ∀ x : Bytes, ∀ f ∈ middleFields, fieldOf tcp_info f.1 x = fieldOf middleFields f.1 (x.drop 60) := by
    intro x f hf
    rw [tcp_info_split, fieldOf_append_right _ _ _ (hdisj f hf).1, fieldOf_append_right _ _ _ (hdisj f hf).2,
      fieldOf_append_left _ _ _ hf, List.drop_drop, csize_early, csize_last]
  have e1 := fields_eq_iff earlyFields hnE a b (by rw [csize_early]; omega) (by rw [csize_early]; omega)
  have e2 := fields_eq_iff middleFields hnM (a.drop 60) (b.drop 60) (by rw [csize_middle]; simp; omega)
    (by rw [csize_middle]; simp; omega)
  rw [csize_early] at e1
  rw [csize_middle] at e2
  rw [← e1, ← e2]
  constructor
  · intro h
    refine ⟨fun f hf => ?_, fun f hf => ?_⟩
    · rw [← hE a f hf, ← hE b f hf]; exact h f (Or.inl hf)
    · rw [← hM a f hf, ← hM b f hf]; exact h f (Or.inr hf)
  · rintro ⟨h1, h2⟩ f (hf | hf)
    · rw [hE a f hf, hE b f hf]; exact h1 f hf
    · rw [hM a f hf, hM b f hf]; exact h2 f hf

theorem slice_hi (s : GoSlice) (lo hi : Nat) (h : lo ≤ hi) (hl : hi ≤ s.val.length) :
    s.slice? lo hi = some ((s.val.drop lo).take (hi - lo)) := by
  rw [GoSlice.slice?, if_pos ⟨h, by omega⟩, List.take_append_of_le_length hl, List.drop_take]

theorem attrVal_eq (r : ArchivalRecord) (t : Nat) : attrVal r t = (r.attrs.getD t none).map (·.val) := rfl

/-- The attribute loop finds no change exactly when all entries but number 2 agree. -/
theorem compareAttrsLoop_nochange (tp : Nat) (p c : List (Option GoSlice)) (hl : p.length = c.length) :
    compareAttrsLoop tp p c = .noMajorChange ↔
      ∀ i, i < p.length → tp + i ≠ 2 → (p.getD i none).map (·.val) = (c.getD i none).map (·.val) := by
  induction p generalizing tp c with
  | nil => simp [compareAttrsLoop]
  | cons a p ih =>
    cases c with
    | nil => simp at hl
    | cons b c =>
      have hl' : p.length = c.length := by simpa using hl
      have shift : (∀ i, i < (a :: p).length → tp + i ≠ 2 →
            ((a :: p).getD i none).map (·.val) = ((b :: c).getD i none).map (·.val)) ↔
          ((tp ≠ 2 → a.map (·.val) = b.map (·.val)) ∧
            ∀ i, i < p.length → tp + 1 + i ≠ 2 → (p.getD i none).map (·.val) = (c.getD i none).map (·.val)) := by
        constructor
        · intro h
          refine ⟨fun h2 => by simpa using h 0 (by simp) (by omega), fun i hi h2 => ?_⟩
          simpa using h (i + 1) (by simp; omega) (by omega)
        · rintro ⟨h0, h1⟩ i hi h2
          cases i with
          | zero => simpa using h0 (by omega)
          | succ i => simpa using h1 i (by simpa using hi) (by omega)
      rw [shift, ← ih (tp + 1) c hl']
      simp only [compareAttrsLoop]
      by_cases h2 : tp = INET_DIAG_INFO
      · rw [if_pos h2]
        constructor
        · intro h; exact ⟨fun hn => absurd h2 hn, h⟩
        · exact fun h => h.2
      · rw [if_neg h2]
        have h2' : tp ≠ 2 := h2
        cases a <;> cases b
        · simp
        · simp [h2']
        · simp [h2']
        · rename_i x y
          simp only [Option.map_some, Option.some.injEq]
          by_cases h3 : x.val.length = y.val.length
          · by_cases h4 : x.val = y.val
            · simp [h4]
            · simp [h3, h4, h2']
          · have : x.val ≠ y.val := fun h => h3 (by rw [h])
            simp [h3, this, h2']

theorem compareAttrsLoop_dual (tp : Nat) (p c : List (Option GoSlice)) (hl : p.length = c.length) :
    compareAttrsLoop tp c p = dual (compareAttrsLoop tp p c) := by
  induction p generalizing tp c with
  | nil => cases c with
    | nil => rfl
    | cons => simp at hl
  | cons a p ih =>
    cases c with
    | nil => simp at hl
    | cons b c =>
      have hl' : p.length = c.length := by simpa using hl
      simp only [compareAttrsLoop]
      by_cases h2 : tp = INET_DIAG_INFO
      · rw [if_pos h2, if_pos h2, ih _ _ hl']
      · rw [if_neg h2, if_neg h2]
        cases a <;> cases b
        · exact ih _ _ hl'
        · rfl
        · rfl
        · rename_i x y
          by_cases h3 : x.val.length = y.val.length
          · by_cases h4 : x.val = y.val
            · simp [h4, ih _ _ hl']
            · have h4' : ¬ y.val = x.val := fun h => h4 h.symm
              simp [h3, h4, h4', dual]
          · have h3' : ¬ y.val.length = x.val.length := fun h => h3 h.symm
            simp [h3, h3', dual]

/-- Map over a result value. -/
def Res.map {ε α β : Type} (f : α → β) : Res ε α → Res ε β
  | .ok a => .ok (f a)
  | .err e => .err e
  | .panic => .panic

theorem attrChange_none {a b : Option Bytes} : attrChange a b = none ↔ a = b := by
  cases a <;> cases b <;> simp [attrChange]
  rename_i x y
  by_cases h : x.length = y.length
  · by_cases h2 : x = y
    · simp [h2]
    · simp [h, h2]
  · have : x ≠ y := fun e => h (by rw [e])
    simp [h, this]

/-- The attribute loop returns the first change. -/
theorem compareAttrsLoop_first (tp : Nat) (p c : List (Option GoSlice)) (hl : p.length = c.length) (t : Nat) (ch : ChangeType) (ht : t < p.length) (h2 : tp + t ≠ 2)
    (hb : ∀ i, i < t → tp + i ≠ 2 → (p.getD i none).map (·.val) = (c.getD i none).map (·.val))
    (hc : attrChange ((p.getD t none).map (·.val)) ((c.getD t none).map (·.val)) = some ch) : compareAttrsLoop tp p c = ch := by
  induction p generalizing tp c t with
  | nil => simp at ht
  | cons a p ih =>
    cases c with
    | nil => simp at hl
    | cons b c =>
      have hl' : p.length = c.length := by simpa using hl
      cases t with
      | zero =>
        simp only [compareAttrsLoop, if_neg (show ¬ tp = INET_DIAG_INFO from h2)]
        simp only [List.getD_cons_zero] at hc
        cases a <;> cases b
        · simp [attrChange] at hc
        · simpa [attrChange] using hc
        · simpa [attrChange] using hc
        · rename_i x y
          simp only [Option.map_some, attrChange] at hc
          simp only
          split at hc
          · rename_i h; rw [if_pos h]; injection hc
          · rename_i h
            rw [if_neg h]
            split at hc
            · rename_i h'; rw [if_pos h']; injection hc
            · simp at hc
      | succ t =>
        have hrec := ih (tp + 1) c hl' t (by simpa using ht) (by omega) (fun i hi h => by simpa using hb (i + 1) (by omega) (by omega)) (by simpa using hc)
        simp only [compareAttrsLoop]
        by_cases h0 : tp = INET_DIAG_INFO
        · rw [if_pos h0]; exact hrec
        · rw [if_neg h0]
          have e := hb 0 (by omega) (by exact h0)
          simp only [List.getD_cons_zero] at e
          cases a <;> cases b
          · exact hrec
          · simp at e
          · simp at e
          · rename_i x y
            simp only [Option.map_some, Option.some.injEq] at e
            simp [e, hrec]

theorem first_such (P : Nat → Prop) : ∀ n, P n → ∃ t, P t ∧ ∀ i, i < t → ¬ P i := by
  intro n
  induction n using Nat.strongRecOn with
  | ind n ih =>
    intro h
    by_cases hn : ∃ t, t < n ∧ P t
    · obtain ⟨t, ht, hp⟩ := hn; exact ih t ht hp
    · exact ⟨n, h, fun i hi hp => hn ⟨i, hi, hp⟩⟩

/-- There is always a kind. -/
theorem changeKind_total (pm prev : ArchivalRecord) : ∃ c, ChangeKind pm prev c := by
  by_cases hs : stateByte pm = stateByte prev
  case neg => exact ⟨_, ChangeKind.state hs⟩
  cases ha : attrVal pm 2 with
  | none => exact ⟨_, ChangeKind.noInfo hs (Or.inl ha)⟩
  | some a =>
  cases hb : attrVal prev 2 with
  | none => exact ⟨_, ChangeKind.noInfo hs (Or.inr hb)⟩
  | some b =>
  by_cases hS : SameInfo a b
  case neg => exact ⟨_, ChangeKind.counter a b hs ha hb hS⟩
  rcases Nat.lt_trichotomy (prev.attributes.getD []).length (pm.attributes.getD []).length with hl | hl | hl
  · exact ⟨_, ChangeKind.more a b hs ha hb hS hl⟩
  · by_cases hall : ∀ t, t ≠ 2 → attrVal pm t = attrVal prev t
    · have hu : Unchanged pm prev := by
        refine ⟨hs, ?_, hl.symm, hall⟩
        intro x y hx hy
        have e1 : a = x := Option.some.inj (ha.symm.trans hx)
        have e2 : b = y := Option.some.inj (hb.symm.trans hy)
        rw [← e1, ← e2]; exact hS
      have h1 : attrVal pm 2 ≠ none := by intro e; rw [e] at ha; simp at ha
      have h2 : attrVal prev 2 ≠ none := by intro e; rw [e] at hb; simp at hb
      exact ⟨_, ChangeKind.same h1 h2 hu⟩
    · obtain ⟨t, ht⟩ := Classical.not_forall.mp hall
      obtain ⟨t2, tne⟩ := Classical.not_imp.mp ht
      obtain ⟨t0, ⟨h1, h2⟩, h3⟩ := first_such (fun t => t ≠ 2 ∧ attrVal pm t ≠ attrVal prev t) t ⟨t2, tne⟩
      cases hc : attrChange (attrVal prev t0) (attrVal pm t0) with
      | none => exact absurd (attrChange_none.mp hc).symm h2
      | some c =>
        refine ⟨c, ChangeKind.attr a b t0 c hs ha hb hS hl.symm h1 ?_ hc⟩
        intro i hi hi2
        apply Classical.byContradiction
        intro hne
        exact h3 i hi ⟨hi2, fun e => hne e.symm⟩
  · exact ⟨_, ChangeKind.fewer a b hs ha hb hS hl⟩

end TcpInfo
