import Verif.Model.Duration
import Verif.Props.Histogram
/-!
# Helper lemmas: rounding is monotone
-/

namespace TcpInfo
open Histogram

theorem div_lt_pow (a : Nat) : a / 2 ^ (Nat.log2 a - 52) < 2 ^ 53 := by
  rw [Nat.div_lt_iff_lt_mul (Nat.two_pow_pos _), ← Nat.pow_add]
  by_cases h : a = 0
  · subst h; exact Nat.two_pow_pos _
  · rw [← Nat.log2_lt h]; omega

theorem pow_le_div (a : Nat) (he : 0 < Nat.log2 a - 52) : 2 ^ 52 ≤ a / 2 ^ (Nat.log2 a - 52) := by
  have h : a ≠ 0 := by intro h; subst h; simp at he
  rw [Nat.le_div_iff_mul_le (Nat.two_pow_pos _), ← Nat.pow_add, ← Nat.le_log2 h]
  omega

theorem log2_mono (a b : Nat) (h : a ≤ b) : Nat.log2 a ≤ Nat.log2 b := by
  by_cases ha : a = 0
  · subst ha; simp
  · rw [Nat.le_log2 (by omega)]
    exact Nat.le_trans ((Nat.le_log2 ha).1 (Nat.le_refl _)) h

theorem rn_lower (q n : Nat) : n / (q * 2 ^ (Nat.log2 (n / q) - 52)) * 2 ^ (Nat.log2 (n / q) - 52) ≤ rn q n := by
  unfold rn
  simp only
  split
  · exact Nat.le_refl _
  · exact Nat.mul_le_mul_right _ (by omega)

theorem rn_upper (q n : Nat) : rn q n ≤ (n / (q * 2 ^ (Nat.log2 (n / q) - 52)) + 1) * 2 ^ (Nat.log2 (n / q) - 52) := by
  unfold rn
  simp only
  split
  · exact Nat.mul_le_mul_right _ (by omega)
  · exact Nat.le_refl _

theorem rn_mono (q : Nat) (hq : 0 < q) (n m : Nat) (h : n ≤ m) : rn q n ≤ rn q m := by
  have hd : n / q ≤ m / q := Nat.div_le_div_right h
  have hl := log2_mono _ _ hd
  rcases Nat.lt_or_eq_of_le (show Nat.log2 (n / q) - 52 ≤ Nat.log2 (m / q) - 52 by omega) with he | he
  · refine Nat.le_trans (rn_upper q n) (Nat.le_trans ?_ (rn_lower q m))
    have h1 := div_lt_pow (n / q)
    have h2 := pow_le_div (m / q) (by omega)
    rw [Nat.div_div_eq_div_mul] at h1 h2
    calc _ ≤ 2 ^ 53 * 2 ^ (Nat.log2 (n / q) - 52) := Nat.mul_le_mul_right _ h1
      _ = 2 ^ 52 * 2 ^ (Nat.log2 (n / q) - 52 + 1) := by rw [← Nat.pow_add, ← Nat.pow_add]; congr 1; omega
      _ ≤ 2 ^ 52 * 2 ^ (Nat.log2 (m / q) - 52) := Nat.mul_le_mul_left _ (Nat.pow_le_pow_right (by omega) he)
      _ ≤ _ := Nat.mul_le_mul_right _ h2
  · unfold rn
    simp only
    rw [← he]
    generalize Nat.log2 (n / q) - 52 = e
    have hp : 0 < 2 ^ e := Nat.two_pow_pos e
    have ht : 0 < q * 2 ^ e := Nat.mul_pos hq hp
    have hk : n / (q * 2 ^ e) ≤ m / (q * 2 ^ e) := Nat.div_le_div_right h
    have en := Nat.div_add_mod n (q * 2 ^ e)
    have em := Nat.div_add_mod m (q * 2 ^ e)
    generalize q * 2 ^ e = t at *
    rcases Nat.lt_or_eq_of_le hk with hk | hk
    · have a : (n / t + 1) * 2 ^ e ≤ m / t * 2 ^ e := Nat.mul_le_mul_right _ hk
      have b : n / t * 2 ^ e ≤ (n / t + 1) * 2 ^ e := Nat.mul_le_mul_right _ (by omega)
      have c : m / t * 2 ^ e ≤ (m / t + 1) * 2 ^ e := Nat.mul_le_mul_right _ (by omega)
      split <;> split <;> omega
    · rw [← hk] at em ⊢
      have b : n / t * 2 ^ e ≤ (n / t + 1) * 2 ^ e := Nat.mul_le_mul_right _ (by omega)
      split <;> split <;> first | omega | skip

theorem rn_le (q : Nat) (hq : 0 < q) (n c : Nat) (hc : n ≤ q * c) (hx : rn q (q * c) = c) : rn q n ≤ c := by
  have := rn_mono q hq n (q * c) hc
  omega

/-- `Duration.Seconds` keeps the order of durations. -/
theorem seconds_mono (a b : Nat) (h : a ≤ b) : seconds a ≤ seconds b := by
  unfold seconds
  refine rn_mono 1 (by omega) _ _ ?_
  have hu : rn 1000000000 (1000000000 * unitsPerSecond) = unitsPerSecond := by decide +kernel
  rcases Nat.lt_or_eq_of_le (Nat.div_le_div_right (c := 1000000000) h) with hs | hs
  · have h1 : rn 1000000000 (a % 1000000000 * unitsPerSecond) ≤ unitsPerSecond :=
      rn_le _ (by omega) _ _ (Nat.mul_le_mul_right _ (by omega)) hu
    have h2 : (a / 1000000000 + 1) * unitsPerSecond ≤ b / 1000000000 * unitsPerSecond := Nat.mul_le_mul_right _ hs
    rw [Nat.add_mul, Nat.one_mul] at h2
    omega
  · rw [hs]
    refine Nat.add_le_add_left (rn_mono _ (by omega) _ _ (Nat.mul_le_mul_right _ ?_)) _
    omega

/-- A bound that lies between the seconds of `b` and those of `b + 1` nanoseconds. -/
theorem seconds_le_iff (b f : Nat) (h1 : seconds b ≤ f) (h2 : f < seconds (b + 1)) (d : Nat) : seconds d ≤ f ↔ d ≤ b := by
  constructor
  · intro h
    rcases Nat.lt_or_ge b d with hd | hd
    · have := seconds_mono (b + 1) d hd; omega
    · exact hd
  · intro h
    exact Nat.le_trans (seconds_mono d b h) h1

theorem f64_rn (n : Nat) : f64 n = rn 1 n := by simp [f64, rn]

/-- Rounding changes a number by at most one part in 2^53. -/
theorem rn_error (q n : Nat) (hq : 0 < q) (h : q = 1 ∨ 2 ^ 53 ≤ n / q) :
    2 ^ 53 * (q * rn q n) ≤ 2 ^ 53 * n + n ∧ 2 ^ 53 * n ≤ 2 ^ 53 * (q * rn q n) + n := by
  have hr : ∀ e, e = Nat.log2 (n / q) - 52 → (q * 2 ^ e * 2 ^ 52 ≤ n ∨ n % (q * 2 ^ e) = 0) := by
    intro e he
    by_cases h0 : 0 < Nat.log2 (n / q) - 52
    · have := pow_le_div (n / q) h0
      rw [Nat.div_div_eq_div_mul, ← he, Nat.le_div_iff_mul_le (Nat.mul_pos hq (Nat.two_pow_pos _)), Nat.mul_comm] at this
      exact Or.inl this
    · rcases h with rfl | h
      · have : e = 0 := by omega
        subst this
        exact Or.inr (by simp [Nat.mod_one])
      · have hne : n / q ≠ 0 := by intro h'; rw [h'] at h; omega
        have := (Nat.le_log2 hne).2 h
        omega
  have hr := hr _ rfl
  unfold rn
  simp only
  revert hr
  generalize Nat.log2 (n / q) - 52 = e
  intro hr
  have ht : 0 < q * 2 ^ e := Nat.mul_pos hq (Nat.two_pow_pos e)
  have en := Nat.div_add_mod n (q * 2 ^ e)
  have hm := Nat.mod_lt n ht
  have e1 : q * (n / (q * 2 ^ e) * 2 ^ e) = q * 2 ^ e * (n / (q * 2 ^ e)) := by
    rw [Nat.mul_comm (n / (q * 2 ^ e)), ← Nat.mul_assoc]
  have e2 : q * ((n / (q * 2 ^ e) + 1) * 2 ^ e) = q * 2 ^ e * (n / (q * 2 ^ e)) + q * 2 ^ e := by
    rw [Nat.mul_comm (n / (q * 2 ^ e) + 1), ← Nat.mul_assoc, Nat.mul_add, Nat.mul_one]
  split
  · rw [e1]
    generalize q * 2 ^ e = t at *
    generalize t * (n / t) = x at *
    omega
  · rw [e2]
    generalize q * 2 ^ e = t at *
    generalize t * (n / t) = x at *
    omega

/-- `Duration.Seconds` is within three parts in 2^53. -/
theorem seconds_error (d : Nat) : 2 ^ 53 * (1000000000 * seconds d) ≤ 2 ^ 53 * (d * unitsPerSecond) + 3 * (d * unitsPerSecond)
    ∧ 2 ^ 53 * (d * unitsPerSecond) ≤ 2 ^ 53 * (1000000000 * seconds d) + 3 * (d * unitsPerSecond) := by
  have hf : 2 ^ 53 * (1000000000 * rn 1000000000 (d % 1000000000 * unitsPerSecond)) ≤ 2 ^ 53 * (d % 1000000000 * unitsPerSecond) + d % 1000000000 * unitsPerSecond
      ∧ 2 ^ 53 * (d % 1000000000 * unitsPerSecond) ≤ 2 ^ 53 * (1000000000 * rn 1000000000 (d % 1000000000 * unitsPerSecond)) + d % 1000000000 * unitsPerSecond := by
    by_cases h0 : d % 1000000000 = 0
    · rw [h0]; decide +kernel
    · refine rn_error _ _ (by omega) (Or.inr ?_)
      rw [Nat.le_div_iff_mul_le (by omega)]
      exact Nat.le_trans (by decide : 2 ^ 53 * 1000000000 ≤ 1 * unitsPerSecond) (Nat.mul_le_mul_right _ (by omega))
  have hs := rn_error 1 (d / 1000000000 * unitsPerSecond + rn 1000000000 (d % 1000000000 * unitsPerSecond)) (by omega) (Or.inl rfl)
  have hd : d * unitsPerSecond = 1000000000 * (d / 1000000000 * unitsPerSecond) + d % 1000000000 * unitsPerSecond := by
    rw [← Nat.mul_assoc, ← Nat.add_mul, Nat.div_add_mod]
  rw [hd]
  unfold seconds
  generalize d / 1000000000 * unitsPerSecond = a at *
  generalize d % 1000000000 * unitsPerSecond = b at *
  generalize rn 1000000000 b = f at *
  generalize rn 1 (a + f) = s at *
  omega

/-- Adding up to 2^50 numbers: each addition rounds. -/
theorem observeAll_sum_error (vs : List Nat) : ∀ (h : Hist) (k v : Nat), k + vs.length ≤ 2 ^ 50 →
    2 ^ 53 * h.sum ≤ 2 ^ 53 * v + k * (2 * v) → 2 ^ 53 * v ≤ 2 ^ 53 * h.sum + k * (2 * v) →
    2 ^ 53 * (h.observeAll vs).sum ≤ 2 ^ 53 * (v + vs.sum) + (k + vs.length) * (2 * (v + vs.sum))
    ∧ 2 ^ 53 * (v + vs.sum) ≤ 2 ^ 53 * (h.observeAll vs).sum + (k + vs.length) * (2 * (v + vs.sum)) := by
  induction vs with
  | nil => intro h k v _ h1 h2; simpa [Hist.observeAll] using ⟨h1, h2⟩
  | cons x vs ih =>
    intro h k v hk h1 h2
    simp only [List.length_cons] at hk
    have he := rn_error 1 (h.sum + x) (by omega) (Or.inl rfl)
    rw [← f64_rn] at he
    have hv : k * (2 * v) ≤ 2 ^ 50 * (2 * v) := Nat.mul_le_mul_right _ (by omega)
    have hvx : (k + 1) * (2 * (v + x)) = k * (2 * v) + k * (2 * x) + 2 * (v + x) := by
      rw [Nat.add_mul, ← Nat.mul_add, ← Nat.mul_add]; simp
    have := ih (h.observe x) (k + 1) (v + x) (by omega)
      (by simp only [Hist.observe]; rw [hvx]; omega) (by simp only [Hist.observe]; rw [hvx]; omega)
    simp only [List.length_cons, List.sum_cons]
    rw [show k + (vs.length + 1) = k + 1 + vs.length by omega, ← Nat.add_assoc]
    exact this

theorem seconds_sum_error (ds : List Nat) : 2 ^ 53 * (1000000000 * (ds.map seconds).sum) ≤ 2 ^ 53 * (ds.sum * unitsPerSecond) + 3 * (ds.sum * unitsPerSecond)
    ∧ 2 ^ 53 * (ds.sum * unitsPerSecond) ≤ 2 ^ 53 * (1000000000 * (ds.map seconds).sum) + 3 * (ds.sum * unitsPerSecond) := by
  induction ds with
  | nil => simp
  | cons d ds ih =>
    simp only [List.map_cons, List.sum_cons]
    have := seconds_error d
    rw [Nat.add_mul]
    omega

end TcpInfo
