import Verif.Model.Path
import Verif.Spec.Path
import Verif.Lemmas.Text
import Verif.Lemmas.SaverFiles
import Verif.Props.Strings
/-!
# File names: lemmas
-/

namespace TcpInfo

/-- Splitting at the last occurrence of a character. -/
theorem split_last {α : Type} {c : α} : ∀ {a a' b b' : List α}, c ∉ b → c ∉ b' → a ++ c :: b = a' ++ c :: b' → a = a' ∧ b = b'
  | [], [], _, _, _, _, h => ⟨rfl, by simpa using h⟩
  | [], x :: a', b, b', hb, _, h => by
    simp only [List.nil_append, List.cons_append, List.cons.injEq] at h
    exact absurd (by rw [h.2]; simp) hb
  | x :: a, [], b, b', _, hb', h => by
    simp only [List.nil_append, List.cons_append, List.cons.injEq] at h
    exact absurd (by rw [← h.2]; simp) hb'
  | x :: a, y :: a', b, b', hb, hb', h => by
    simp only [List.cons_append, List.cons.injEq] at h
    obtain ⟨h1, h2⟩ := split_last hb hb' h.2
    exact ⟨by rw [h.1, h1], h2⟩

theorem fmtPad_digit {w n : Nat} {c : Char} (h : c ∈ fmtPad w n) : c.isDigit = true := by
  unfold fmtPad at h
  rcases List.mem_append.1 h with h | h
  · rw [List.eq_of_mem_replicate h]; decide
  · exact fmtNat_digit h

theorem read_zeros (k : Nat) (s : List Char) : Spec.readNat 10 (List.replicate k '0' ++ s) = Spec.readNat 10 s := by
  induction k with
  | zero => simp
  | succ k ih =>
    rw [List.replicate_succ, List.cons_append]
    rw [← ih]
    simp [Spec.readNat, Spec.digit]

theorem read_fmtPad (w n : Nat) : Spec.readNat 10 (fmtPad w n) = n := by rw [fmtPad, read_zeros, read_fmtNat]

/-- Exactly `w` digits if they are enough, and no leading zeros otherwise. -/
theorem fmtPad_length (w n : Nat) (hw : 0 < w) : w ≤ (fmtPad w n).length ∧ (n < 10 ^ w → (fmtPad w n).length = w) ∧ (10 ^ w ≤ n → (fmtPad w n) = fmtNat n) := by
  have hl := Nat.length_toDigits_le_iff (b := 10) (n := n) (k := w) (by decide) hw
  unfold fmtPad fmtNat
  refine ⟨?_, ?_, ?_⟩
  · rw [List.length_append, List.length_replicate]; omega
  · intro h
    have := hl.2 h
    rw [List.length_append, List.length_replicate]; omega
  · intro h
    have : ¬ (Nat.toDigits 10 n).length ≤ w := fun h' => by have := hl.1 h'; omega
    rw [show w - (Nat.toDigits 10 n).length = 0 by omega]
    rfl

theorem path_injective {n n' : FileName} (h : '/' ∉ n.uuid.toList) (h' : '/' ∉ n'.uuid.toList) (e : n.path = n'.path) : n = n' := by
  have hd : ∀ w k, '/' ∉ fmtPad w k := fun w k hm => absurd (fmtPad_digit hm) (by decide)
  have hp : ∀ w k, '.' ∉ fmtPad w k := fun w k hm => absurd (fmtPad_digit hm) (by decide)
  have hz : '/' ∉ ".jsonl.zst".toList := by decide
  unfold FileName.path at e
  obtain ⟨e1, e2⟩ := split_last (by simp [h, hd]) (by simp [h', hd]) e
  rw [← List.cons_append, ← List.cons_append, ← List.append_assoc, ← List.append_assoc] at e2
  have e3 := List.append_cancel_right e2
  obtain ⟨e4, e5⟩ := split_last (hp _ _) (hp _ _) e3
  have e6 : n.sequence = n'.sequence := by rw [← read_fmtPad 5 n.sequence, e5, read_fmtPad]
  cases n; cases n'
  simp only [FileName.mk.injEq]
  exact ⟨String.toList_inj.1 e1, String.toList_inj.1 e4, e6⟩

/-! ## Calendar -/

/-- Days before 1 March of year `y`, up to a constant. -/
def marchDays (y : Int) : Int := 365 * y + y / 4 - y / 100 + y / 400

theorem daysOf_march (y : Int) (m d : Nat) (hd : 1 ≤ d) :
    daysOf y m d = marchDays (if m ≤ 2 then y - 1 else y) + (((153 * (if m > 2 then m - 3 else m + 9) + 2) / 5 + d - 1 : Nat) : Int) - 719468 := by
  unfold daysOf marchDays
  simp only
  generalize (if m ≤ 2 then y - 1 else y) = y'
  generalize (153 * (if m > 2 then m - 3 else m + 9) + 2) / 5 = k
  omega

theorem marchDays_mono (y z : Int) (h : y < z) : marchDays y + 365 ≤ marchDays z := by
  unfold marchDays; omega

/-- Day of the year that starts in March. -/
def marchDay (m d : Nat) : Nat := (153 * (if m > 2 then m - 3 else m + 9) + 2) / 5 + d - 1

theorem marchDay_inj {m d m' d' : Nat} {y y' : Int} (hm : 1 ≤ m ∧ m ≤ 12) (hd : 1 ≤ d ∧ d ≤ daysIn y m) (hm' : 1 ≤ m' ∧ m' ≤ 12)
    (hd' : 1 ≤ d' ∧ d' ≤ daysIn y' m')
    (e : marchDay m d = marchDay m' d') : m = m' ∧ d = d' := by
  have hl : ∀ y m, daysIn y m ≤ (if m = 2 then 29 else if m = 4 ∨ m = 6 ∨ m = 9 ∨ m = 11 then 30 else 31) := by
    intro y m; unfold daysIn; split
    · split <;> omega
    · omega
  have h1 := hl y m
  have h2 := hl y' m'
  unfold marchDay at e
  obtain ⟨hm1, hm2⟩ := hm
  obtain ⟨hm1', hm2'⟩ := hm'
  have hc : m = 1 ∨ m = 2 ∨ m = 3 ∨ m = 4 ∨ m = 5 ∨ m = 6 ∨ m = 7 ∨ m = 8 ∨ m = 9 ∨ m = 10 ∨ m = 11 ∨ m = 12 := by omega
  have hc' : m' = 1 ∨ m' = 2 ∨ m' = 3 ∨ m' = 4 ∨ m' = 5 ∨ m' = 6 ∨ m' = 7 ∨ m' = 8 ∨ m' = 9 ∨ m' = 10 ∨ m' = 11 ∨ m' = 12 := by omega
  rcases hc with rfl | rfl | rfl | rfl | rfl | rfl | rfl | rfl | rfl | rfl | rfl | rfl <;>
  rcases hc' with rfl | rfl | rfl | rfl | rfl | rfl | rfl | rfl | rfl | rfl | rfl | rfl <;>
  simp at h1 h2 e ⊢ <;> omega

/-- A date. -/
def ValidDate (y : Int) (m d : Nat) : Prop := (1 ≤ m ∧ m ≤ 12) ∧ 1 ≤ d ∧ d ≤ daysIn y m

/-- The year that started on the last 1 March. -/
def marchYear (y : Int) (m : Nat) : Int := if m ≤ 2 then y - 1 else y

theorem marchDay_bound {y : Int} {m d : Nat} (h : ValidDate y m d) :
    marchDays (marchYear y m) + (marchDay m d : Int) < marchDays (marchYear y m + 1) := by
  obtain ⟨⟨hm1, hm2⟩, hd1, hd2⟩ := h
  have hc : m = 1 ∨ m = 2 ∨ m = 3 ∨ m = 4 ∨ m = 5 ∨ m = 6 ∨ m = 7 ∨ m = 8 ∨ m = 9 ∨ m = 10 ∨ m = 11 ∨ m = 12 := by omega
  rcases hc with rfl | rfl | rfl | rfl | rfl | rfl | rfl | rfl | rfl | rfl | rfl | rfl <;>
  simp [daysIn, isLeap] at hd2 <;> simp [marchYear, marchDay, marchDays] <;> (try split at hd2) <;> omega

theorem daysOf_eq {y : Int} {m d : Nat} (hd : 1 ≤ d) : daysOf y m d = marchDays (marchYear y m) + (marchDay m d : Int) - 719468 := daysOf_march y m d hd

theorem daysOf_inj {y y' : Int} {m d m' d' : Nat} (h : ValidDate y m d) (h' : ValidDate y' m' d') (e : daysOf y m d = daysOf y' m' d') :
    y = y' ∧ m = m' ∧ d = d' := by
  rw [daysOf_eq h.2.1, daysOf_eq h'.2.1] at e
  have b := marchDay_bound h
  have b' := marchDay_bound h'
  have hy : marchYear y m = marchYear y' m' := by
    apply Classical.byContradiction
    intro hne
    rcases Int.lt_or_gt_of_ne hne with hlt | hlt
    · have : marchDays (marchYear y m + 1) ≤ marchDays (marchYear y' m') := by
        rcases Int.lt_or_eq_of_le (show marchYear y m + 1 ≤ marchYear y' m' by omega) with h1 | h1
        · have := marchDays_mono _ _ h1; omega
        · rw [h1]; exact Int.le_refl _
      omega
    · have : marchDays (marchYear y' m' + 1) ≤ marchDays (marchYear y m) := by
        rcases Int.lt_or_eq_of_le (show marchYear y' m' + 1 ≤ marchYear y m by omega) with h1 | h1
        · have := marchDays_mono _ _ h1; omega
        · rw [h1]; exact Int.le_refl _
      omega
  rw [hy] at e
  obtain ⟨hm, hd⟩ := marchDay_inj h.1 h.2 h'.1 h'.2 (by omega)
  refine ⟨?_, hm, hd⟩
  unfold marchYear at hy
  subst hm
  split at hy <;> omega

/-- The day after a date, for any year. -/
def nextDay (y : Int) (m d : Nat) : Int × Nat × Nat :=
  if d < daysIn y m then (y, m, d + 1) else if m < 12 then (y, m + 1, 1) else (y + 1, 1, 1)

theorem nextDay_valid {y : Int} {m d : Nat} (h : ValidDate y m d) : ValidDate (nextDay y m d).1 (nextDay y m d).2.1 (nextDay y m d).2.2 := by
  have h28 : ∀ y m, 28 ≤ daysIn y m := by intro y m; unfold daysIn; split <;> split <;> omega
  obtain ⟨⟨h1, h2⟩, h3, h4⟩ := h
  unfold nextDay
  split
  · exact ⟨⟨h1, h2⟩, by simp, by simp; omega⟩
  · split
    · refine ⟨⟨by simp, by simp; omega⟩, by simp, ?_⟩
      have := h28 y (m + 1); simp; omega
    · refine ⟨⟨by simp, by simp⟩, by simp, ?_⟩
      have := h28 (y + 1) 1; simp; omega

theorem nextDay_days {y : Int} {m d : Nat} (h : ValidDate y m d) : daysOf (nextDay y m d).1 (nextDay y m d).2.1 (nextDay y m d).2.2 = daysOf y m d + 1 := by
  rw [daysOf_eq (nextDay_valid h).2.1, daysOf_eq h.2.1]
  obtain ⟨⟨h1, h2⟩, h3, h4⟩ := h
  unfold nextDay
  split
  · simp only [marchDay]; omega
  · rename_i hn
    have he : d = daysIn y m := by omega
    have hc : m = 1 ∨ m = 2 ∨ m = 3 ∨ m = 4 ∨ m = 5 ∨ m = 6 ∨ m = 7 ∨ m = 8 ∨ m = 9 ∨ m = 10 ∨ m = 11 ∨ m = 12 := by omega
    rw [he]
    rcases hc with rfl | rfl | rfl | rfl | rfl | rfl | rfl | rfl | rfl | rfl | rfl | rfl <;>
    simp [daysIn, isLeap, marchYear, marchDay, marchDays] <;> (try split) <;> omega

theorem civil_valid (n : Int) : ValidDate (civil n).1 (civil n).2.1 (civil n).2.2 := ⟨civil_month n, civil_day n⟩

theorem civil_succ (n : Int) : civil (n + 1) = nextDay (civil n).1 (civil n).2.1 (civil n).2.2 := by
  obtain ⟨h1, h2, h3⟩ := daysOf_inj (civil_valid (n + 1)) (nextDay_valid (civil_valid n)) (by
    rw [nextDay_days (civil_valid n), daysOf_civil, daysOf_civil])
  exact Prod.ext h1 (Prod.ext h2 h3)

theorem daysIn_month (y m : Nat) : daysIn (y : Int) m = Spec.monthLength y m := by
  unfold daysIn Spec.monthLength isLeap Spec.leapYear
  split
  · have : ((decide ((y : Int) % 4 = 0 ∧ ((y : Int) % 100 ≠ 0 ∨ (y : Int) % 400 = 0))) = (y % 4 == 0 && (y % 100 != 0 || y % 400 == 0))) := by
      rw [Bool.eq_iff_iff]
      simp only [decide_eq_true_eq, Bool.and_eq_true, Bool.or_eq_true, beq_iff_eq, bne_iff_ne, ne_eq]
      omega
    rw [this]
  · rfl

/-- The computed dates are those of the calendar. -/
theorem civil_dateAfter (n : Nat) : civil (n : Int) = (((Spec.dateAfter n).1 : Int), (Spec.dateAfter n).2.1, (Spec.dateAfter n).2.2) := by
  induction n with
  | zero => decide
  | succ n ih =>
    rw [show ((n + 1 : Nat) : Int) = (n : Int) + 1 by omega, civil_succ, ih]
    rw [show Spec.dateAfter (n + 1) = Spec.tomorrow (Spec.dateAfter n) from rfl]
    obtain ⟨y, m, d⟩ := Spec.dateAfter n
    simp only [nextDay, daysIn_month, Spec.tomorrow]
    split
    · rfl
    · split <;> simp

/-- Where and when files are created. -/
def DirInv (env : Env) (s : Saver) : Prop :=
  ∀ x ∈ s.trace, ∀ w n hd, x.act = .openFile w n hd →
    ∃ st, hd.metadata = some ⟨n.uuid, n.sequence, st⟩ ∧ n.dir = env.date (if n.sequence = 0 then st else env.wall x.time)

theorem dirInv_step (env : Env) (s t : Saver) (h : Step env s t) (hi : DirInv env s) : DirInv env t := by
  have snoc : ∀ (u : Saver) (a : Stamped), u.trace = s.trace ++ [a] → (∀ w n hd, a.act ≠ .openFile w n hd) → DirInv env u := by
    intro u a hu ha x hx w n hd e
    rw [hu] at hx
    rcases List.mem_append.1 hx with hx | hx
    · exact hi x hx w n hd e
    · have : x = a := by simpa using hx
      subst this; exact absurd e (ha w n hd)
  cases h with
  | other h1 h2 h3 h4 h5 => intro x hx; rw [h3] at hx; exact hi x hx
  | clock => exact hi
  | observe a ha => exact snoc _ _ rfl (by rcases ha with ⟨n, rfl⟩ | ⟨n, rfl⟩ <;> simp)
  | create k idm ts => exact snoc _ _ rfl (by simp)
  | closeExpired k c w => exact snoc _ _ rfl (by simp)
  | touch k c => exact hi
  | rotate k c dir hk hw hd0 hd1 =>
    intro x hx w n hd e
    rcases List.mem_append.1 (show x ∈ s.trace ++ [_] from hx) with hx | hx
    · exact hi x hx w n hd e
    · have : x = ⟨s.clock, .openFile s.nextWriter ⟨dir, env.uuid c.id.cookieUint64, c.sequence⟩ (headerRecord env c)⟩ := by simpa using hx
      subst this
      simp only [Action.openFile.injEq] at e
      obtain ⟨-, rfl, rfl⟩ := e
      refine ⟨c.startTime, rfl, ?_⟩
      by_cases h0 : c.sequence = 0
      · simp only [h0, if_true]; exact hd0 h0
      · simp only [h0, if_false]; exact hd1 h0
  | write k c w msg idm => exact snoc _ _ rfl (by simp)
  | endClose k c w =>
    intro x hx w' n hd e
    have hx' : x ∈ (s.trace ++ [⟨s.clock, .flowDeleted (env.wall s.clock) (env.uuid k)⟩]) ++ [⟨s.clock, .send (queueOf env k) ⟨none, some w⟩⟩] := hx
    simp only [List.mem_append, List.mem_singleton] at hx'
    rcases hx' with (hx' | hx') | hx'
    · exact hi x hx' w' n hd e
    · subst hx'; simp at e
    · subst hx'; simp at e
  | endGone k => exact snoc _ _ rfl (by simp)

theorem dirInv_run {env : Env} {s : Saver} (h : Steps env newSaver s) : DirInv env s :=
  h.inv (dirInv_step env) (by intro x hx; simp [newSaver] at hx)

end TcpInfo
