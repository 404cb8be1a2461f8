import Verif.Model.Text
/-!
# Lemmas about UTF-8, base64 and RFC 3339 times
-/

namespace TcpInfo

theorem byte_toNat {n : Nat} (h : n < 256) : (byte n).toNat = n := by
  show n % 256 = n; omega

theorem byte_eq_of_toNat {b : UInt8} {n : Nat} (h : b.toNat = n) : b = byte n := by
  apply UInt8.toNat_inj.mp
  have := b.toNat_lt
  rw [byte_toNat (by omega), h]

/-! ## UTF-8 -/

theorem char_range (c : Char) : c.toNat < 0xD800 ∨ (0xE000 ≤ c.toNat ∧ c.toNat < 0x110000) := by
  have := c.valid
  simp only [UInt32.isValidChar, Nat.isValidChar] at this
  show c.val.toNat < _ ∨ _ ≤ c.val.toNat ∧ c.val.toNat < _
  omega

theorem isCont_byte {k : Nat} (h : k < 64) : isCont (byte (0x80 + k)) = true := by
  unfold isCont
  rw [byte_toNat (by omega)]
  simp only [Bool.and_eq_true, decide_eq_true_eq]; omega

/-- Decoding an encoded code point gives it back, whatever follows. -/
theorem decodeRune_utf8Enc (c : Char) (r : Bytes) :
    ∃ b t, utf8Enc c.toNat ++ r = b :: t ∧ decodeRune b t = (c, r) := by
  have hc := char_range c
  have hof : Char.ofNat c.toNat = c := Char.ofNat_toNat c
  generalize hn : c.toNat = n at *
  unfold utf8Enc
  split
  · refine ⟨byte n, r, rfl, ?_⟩
    unfold decodeRune
    rw [byte_toNat (by omega), if_pos (by omega), hof]
  · split
    · refine ⟨byte (0xC0 + n / 64), byte (0x80 + n % 64) :: r, rfl, ?_⟩
      unfold decodeRune
      rw [byte_toNat (n := 0xC0 + n / 64) (by omega), if_neg (by omega), if_pos (by omega)]
      simp only [isCont_byte (show n % 64 < 64 by omega)]
      rw [byte_toNat (by omega)]
      have e : (0xC0 + n / 64 - 0xC0) * 64 + (0x80 + n % 64 - 0x80) = n := by omega
      rw [e, hof, if_pos]
      exact ⟨by omega, trivial⟩
    · split
      · refine ⟨byte (0xE0 + n / 4096), byte (0x80 + n / 64 % 64) :: byte (0x80 + n % 64) :: r, rfl, ?_⟩
        unfold decodeRune
        rw [byte_toNat (n := 0xE0 + n / 4096) (by omega), if_neg (by omega), if_neg (by omega), if_pos (by omega)]
        simp only [isCont_byte (show n % 64 < 64 by omega), isCont_byte (show n / 64 % 64 < 64 by omega)]
        rw [byte_toNat (n := 0x80 + n / 64 % 64) (by omega), byte_toNat (n := 0x80 + n % 64) (by omega)]
        have e : (0xE0 + n / 4096 - 0xE0) * 4096 + (0x80 + n / 64 % 64 - 0x80) * 64 + (0x80 + n % 64 - 0x80) = n := by omega
        rw [e, hof, if_pos]
        exact ⟨trivial, trivial, by omega, by omega⟩
      · refine ⟨byte (0xF0 + n / 262144), byte (0x80 + n / 4096 % 64) :: byte (0x80 + n / 64 % 64) :: byte (0x80 + n % 64) :: r, rfl, ?_⟩
        unfold decodeRune
        rw [byte_toNat (n := 0xF0 + n / 262144) (by omega), if_neg (by omega), if_neg (by omega), if_neg (by omega)]
        simp only [isCont_byte (show n % 64 < 64 by omega), isCont_byte (show n / 64 % 64 < 64 by omega), isCont_byte (show n / 4096 % 64 < 64 by omega)]
        rw [byte_toNat (n := 0x80 + n / 4096 % 64) (by omega), byte_toNat (n := 0x80 + n / 64 % 64) (by omega), byte_toNat (n := 0x80 + n % 64) (by omega)]
        have e : (0xF0 + n / 262144 - 0xF0) * 262144 + (0x80 + n / 4096 % 64 - 0x80) * 4096 + (0x80 + n / 64 % 64 - 0x80) * 64 + (0x80 + n % 64 - 0x80) = n := by omega
        rw [e, hof, if_pos]
        exact ⟨trivial, trivial, trivial, by omega, by omega⟩

/-- The bytes of an encoded code point above 127 are above 127. -/
theorem utf8Enc_high {n : Nat} (h1 : 0x80 ≤ n) (h2 : n < 0x110000) : ∀ b ∈ utf8Enc n, 0x80 ≤ b.toNat := by
  unfold utf8Enc
  rw [if_neg (by omega)]
  split
  · intro b hb
    simp only [List.mem_cons, List.not_mem_nil, or_false] at hb
    rcases hb with rfl | rfl <;> rw [byte_toNat (by omega)] <;> omega
  · split
    · intro b hb
      simp only [List.mem_cons, List.not_mem_nil, or_false] at hb
      rcases hb with rfl | rfl | rfl <;> rw [byte_toNat (by omega)] <;> omega
    · intro b hb
      simp only [List.mem_cons, List.not_mem_nil, or_false] at hb
      rcases hb with rfl | rfl | rfl | rfl <;> rw [byte_toNat (by omega)] <;> omega

/-! ## Base64 -/

theorem b64Val_b64Char {n : Nat} (h : n < 64) : b64Val (b64Char n) = some n := by
  unfold b64Char
  split
  · unfold b64Val; simp only; rw [byte_toNat (by omega), if_pos (by omega)]; congr 1; omega
  · split
    · unfold b64Val; simp only; rw [byte_toNat (by omega), if_neg (by omega), if_pos (by omega)]; congr 1; omega
    · split
      · unfold b64Val; simp only; rw [byte_toNat (by omega), if_neg (by omega), if_neg (by omega), if_pos (by omega)]; congr 1; omega
      · split
        · subst_vars; rfl
        · have : n = 63 := by omega
          subst this; rfl

/-- Characters of the alphabet. -/
def b64Safe (b : UInt8) : Prop := (b64Val b).isSome ∨ b = 61

theorem b64Safe_char {n : Nat} (h : n < 64) : b64Safe (b64Char n) := by
  left; rw [b64Val_b64Char h]; rfl

theorem b64Char_ne_eq {n : Nat} (h : n < 64) : b64Char n ≠ 61 := by
  intro e
  have := b64Val_b64Char h
  rw [e] at this
  exact absurd this (by simp [b64Val])

theorem b64Safe_range {b : UInt8} (h : b64Safe b) : b.toNat = 43 ∨ (47 ≤ b.toNat ∧ b.toNat < 58) ∨ b.toNat = 61 ∨ (65 ≤ b.toNat ∧ b.toNat < 91) ∨
    (97 ≤ b.toNat ∧ b.toNat < 123) := by
  rcases h with h | h
  · unfold b64Val at h
    simp only at h
    by_cases h1 : 65 ≤ b.toNat ∧ b.toNat < 91
    · omega
    · rw [if_neg h1] at h
      by_cases h2 : 97 ≤ b.toNat ∧ b.toNat < 123
      · omega
      · rw [if_neg h2] at h
        by_cases h3 : 48 ≤ b.toNat ∧ b.toNat < 58
        · omega
        · rw [if_neg h3] at h
          by_cases h4 : b.toNat = 43
          · omega
          · rw [if_neg h4] at h
            by_cases h5 : b.toNat = 47
            · omega
            · rw [if_neg h5] at h; exact absurd h (by simp)
  · subst h; right; right; left; rfl

theorem b64Enc_safe (b : Bytes) : ∀ x ∈ b64Enc b, b64Safe x := by
  fun_induction b64Enc b with
  | case1 => simp
  | case2 a =>
    have := a.toNat_lt
    intro x hx
    simp only [List.mem_cons, List.not_mem_nil, or_false] at hx
    rcases hx with rfl | rfl | rfl | rfl
    · exact b64Safe_char (by omega)
    · exact b64Safe_char (by omega)
    · exact Or.inr rfl
    · exact Or.inr rfl
  | case3 a b =>
    have := a.toNat_lt
    have := b.toNat_lt
    intro x hx
    simp only [List.mem_cons, List.not_mem_nil, or_false] at hx
    rcases hx with rfl | rfl | rfl | rfl
    · exact b64Safe_char (by omega)
    · exact b64Safe_char (by omega)
    · exact b64Safe_char (by omega)
    · exact Or.inr rfl
  | case4 a b c r ih =>
    have := a.toNat_lt
    have := b.toNat_lt
    have := c.toNat_lt
    intro x hx
    simp only [List.mem_cons] at hx
    rcases hx with rfl | rfl | rfl | rfl | hx
    · exact b64Safe_char (by omega)
    · exact b64Safe_char (by omega)
    · exact b64Safe_char (by omega)
    · exact b64Safe_char (by omega)
    · exact ih x hx

theorem b64DecLoop_enc (b : Bytes) : b64DecLoop (b64Enc b) = some b := by
  fun_induction b64Enc b with
  | case1 => rfl
  | case2 a =>
    have := a.toNat_lt
    rw [b64DecLoop, b64Val_b64Char (by omega), b64Val_b64Char (by omega)]
    simp only [and_self, if_true]
    rw [show a.toNat / 4 * 4 + a.toNat % 4 * 16 / 16 = a.toNat by omega]
    rw [← byte_eq_of_toNat (b := a) rfl]
  | case3 a b =>
    have := a.toNat_lt
    have := b.toNat_lt
    rw [b64DecLoop, b64Val_b64Char (by omega), b64Val_b64Char (by omega)]
    simp only
    rw [if_neg (by intro h; exact b64Char_ne_eq (by omega) h.2), b64Val_b64Char (by omega)]
    simp only [if_true]
    rw [show a.toNat / 4 * 4 + (a.toNat % 4 * 16 + b.toNat / 16) / 16 = a.toNat by omega,
      show (a.toNat % 4 * 16 + b.toNat / 16) % 16 * 16 + b.toNat % 16 * 4 / 4 = b.toNat by omega]
    rw [← byte_eq_of_toNat (b := a) rfl, ← byte_eq_of_toNat (b := b) rfl]
  | case4 a b c r ih =>
    have := a.toNat_lt
    have := b.toNat_lt
    have := c.toNat_lt
    rw [b64DecLoop, b64Val_b64Char (by omega), b64Val_b64Char (by omega)]
    simp only
    rw [if_neg (by intro h; exact b64Char_ne_eq (by omega) h.2), b64Val_b64Char (by omega)]
    simp only
    rw [if_neg (b64Char_ne_eq (by omega)), b64Val_b64Char (by omega)]
    simp only
    rw [ih, Option.map_some,
      show a.toNat / 4 * 4 + (a.toNat % 4 * 16 + b.toNat / 16) / 16 = a.toNat by omega,
      show (a.toNat % 4 * 16 + b.toNat / 16) % 16 * 16 + (b.toNat % 16 * 4 + c.toNat / 64) / 4 = b.toNat by omega,
      show (b.toNat % 16 * 4 + c.toNat / 64) % 4 * 64 + c.toNat % 64 = c.toNat by omega]
    rw [← byte_eq_of_toNat (b := a) rfl, ← byte_eq_of_toNat (b := b) rfl, ← byte_eq_of_toNat (b := c) rfl]

/-- Base64 is inverted exactly. -/
theorem b64Dec_enc (b : Bytes) : b64Dec (b64Enc b) = some b := by
  unfold b64Dec
  rw [List.filter_eq_self.mpr, b64DecLoop_enc]
  intro x hx
  have := b64Safe_range (b64Enc_safe b x hx)
  simp only [decide_eq_true_eq]
  constructor <;> (intro e; subst e; revert this; decide)

/-! ## Calendar -/

theorem civil_cycles {doe : Nat} (h : doe < 146097) : ∃ doy c q a : Nat, c ≤ 3 ∧ q ≤ 24 ∧ a ≤ 3 ∧ doy ≤ 365 ∧ doe = 36524 * c + 1461 * q + 365 * a + doy ∧
    (doy = 365 → a = 3 ∧ (q = 24 → c = 3)) ∧
    100 * min 3 (doe / 36524) + 4 * ((doe - 36524 * min 3 (doe / 36524)) / 1461) +
      min 3 ((doe - 36524 * min 3 (doe / 36524) - 1461 * ((doe - 36524 * min 3 (doe / 36524)) / 1461)) / 365) = 100 * c + 4 * q + a ∧
    doe - 36524 * min 3 (doe / 36524) - 1461 * ((doe - 36524 * min 3 (doe / 36524)) / 1461) -
      365 * min 3 ((doe - 36524 * min 3 (doe / 36524) - 1461 * ((doe - 36524 * min 3 (doe / 36524)) / 1461)) / 365) = doy := by
  generalize hc : min 3 (doe / 36524) = c
  generalize hq : (doe - 36524 * c) / 1461 = q
  generalize hr : doe - 36524 * c - 1461 * q = r
  generalize ha : min 3 (r / 365) = a
  generalize hd : r - 365 * a = doy
  have h1 : c ≤ 3 := by omega
  have h2 : doe - 36524 * c ≤ 36524 := by omega
  have h3 : q ≤ 24 := by omega
  have h4 : r ≤ 1460 := by omega
  have h5 : a ≤ 3 := by omega
  refine ⟨doy, c, q, a, h1, h3, h5, by omega, by omega, ?_, rfl, rfl⟩
  intro h365
  refine ⟨by omega, ?_⟩
  intro hq24
  omega

/-- The calendar computation is inverted exactly. -/
theorem daysOf_civil (days : Int) : daysOf (civil days).1 (civil days).2.1 (civil days).2.2 = days := by
  unfold civil
  simp only
  generalize hz : days + 719468 = z
  generalize he : z / 146097 = era
  generalize hdoe : (z % 146097).toNat = doe
  obtain ⟨doy, c, q, a, hc, hq, ha, hdoy, hsum, hleap, e1, e2⟩ := civil_cycles (doe := doe) (by omega)
  rw [e1, e2]
  clear e1 e2
  have hzz : z = era * 146097 + doe := by omega
  generalize hm : (5 * doy + 2) / 153 = mp
  have hmp : mp ≤ 11 := by omega
  have hd1 : (153 * mp + 2) / 5 ≤ doy := by omega
  generalize hd : doy - (153 * mp + 2) / 5 + 1 = d
  have hdd : (153 * mp + 2) / 5 + d - 1 = doy := by omega
  generalize hyoe : 100 * c + 4 * q + a = yoe
  have hy4 : yoe / 4 = 25 * c + q := by omega
  have hy100 : yoe / 100 = c := by omega
  have hy400 : yoe < 400 := by omega
  unfold daysOf
  simp only
  by_cases h10 : mp < 10
  · rw [if_pos h10, if_neg (show ¬ mp + 3 ≤ 2 by omega), if_neg (show ¬ mp + 3 ≤ 2 by omega), if_pos (show mp + 3 > 2 by omega),
      show mp + 3 - 3 = mp by omega, hdd, show ((yoe : Int) + era * 400 + 0) / 400 = era by omega,
      show ((yoe : Int) + era * 400 + 0) % 400 = yoe by omega, Int.toNat_natCast, hy4, hy100]
    omega
  · rw [if_neg h10, if_pos (show mp - 9 ≤ 2 by omega), if_pos (show mp - 9 ≤ 2 by omega), if_neg (show ¬ mp - 9 > 2 by omega),
      show mp - 9 + 9 = mp by omega, hdd, show ((yoe : Int) + era * 400 + 1 - 1) / 400 = era by omega,
      show ((yoe : Int) + era * 400 + 1 - 1) % 400 = yoe by omega, Int.toNat_natCast, hy4, hy100]
    omega

theorem civil_month (days : Int) : 1 ≤ (civil days).2.1 ∧ (civil days).2.1 ≤ 12 := by
  unfold civil
  simp only
  generalize hz : days + 719468 = z
  generalize he : z / 146097 = era
  generalize hdoe : (z % 146097).toNat = doe
  obtain ⟨doy, c, q, a, hc, hq, ha, hdoy, hsum, hleap, e1, e2⟩ := civil_cycles (doe := doe) (by omega)
  rw [e2]
  clear e1 e2
  split <;> omega

theorem civil_day (days : Int) : 1 ≤ (civil days).2.2 ∧ (civil days).2.2 ≤ daysIn (civil days).1 (civil days).2.1 := by
  unfold civil
  simp only
  generalize hz : days + 719468 = z
  generalize he : z / 146097 = era
  generalize hdoe : (z % 146097).toNat = doe
  obtain ⟨doy, c, q, a, hc, hq, ha, hdoy, hsum, hleap, e1, e2⟩ := civil_cycles (doe := doe) (by omega)
  rw [e1, e2]
  clear e1 e2
  generalize hm : (5 * doy + 2) / 153 = mp
  have hmp : mp ≤ 11 := by omega
  refine ⟨by omega, ?_⟩
  unfold daysIn isLeap
  by_cases h11 : mp = 11
  · rw [if_neg (show ¬ mp < 10 by omega), if_pos (show mp - 9 = 2 by omega), if_pos (show mp - 9 ≤ 2 by omega)]
    by_cases h365 : doy = 365
    · obtain ⟨ha3, hqc⟩ := hleap h365
      have hl : ((((100 * c + 4 * q + a : Nat) : Int) + era * 400 + 1) % 4 = 0 ∧
          ((((100 * c + 4 * q + a : Nat) : Int) + era * 400 + 1) % 100 ≠ 0 ∨ (((100 * c + 4 * q + a : Nat) : Int) + era * 400 + 1) % 400 = 0)) := by
        refine ⟨by omega, ?_⟩
        by_cases hq24 : q = 24
        · have := hqc hq24
          right; omega
        · left; omega
      rw [if_pos (by simp only [decide_eq_true_eq]; exact hl)]
      omega
    · split <;> omega
  · rw [if_neg (by split <;> omega)]
    by_cases h30 : mp = 1 ∨ mp = 3 ∨ mp = 6 ∨ mp = 8
    · rw [if_pos (by rw [if_pos (by omega)]; omega)]
      omega
    · by_cases h10 : mp < 10
      · rw [if_pos h10]; split <;> omega
      · rw [if_neg h10]; split <;> omega

/-! ## Times -/

theorem digit_toNat (n : Nat) : (digit n).toNat = 48 + n % 10 := by
  unfold digit; rw [byte_toNat (by omega)]

theorem digitOf_digit (n : Nat) : digitOf (digit n) = some (n % 10) := by
  unfold digitOf
  rw [digit_toNat, if_pos (by omega)]
  congr 1; omega

theorem num2_pad2 {n : Nat} (h : n < 100) : num2 (digit (n / 10)) (digit n) = some n := by
  unfold num2
  rw [digitOf_digit, digitOf_digit]
  simp only [Option.bind_some, Option.map_some]
  congr 1; omega

theorem num4_pad4 {n : Nat} (h : n < 10000) : num4 (digit (n / 1000)) (digit (n / 100)) (digit (n / 10)) (digit n) = some n := by
  unfold num4 num2
  simp only [digitOf_digit, Option.bind_some, Option.map_some]
  congr 1; omega

theorem fracVal_append (l : Bytes) (k : Nat) : ∀ w, fracVal w (l ++ List.replicate k 48) = fracVal w l := by
  induction l with
  | nil =>
    induction k with
    | zero => intro w; rfl
    | succ k ih =>
      intro w
      rw [List.nil_append, List.replicate_succ, fracVal, fracVal]
      have := ih (w / 10)
      rw [List.nil_append, fracVal] at this
      rw [this]; simp [digitOf]
  | cons d ds ih => intro w; rw [List.cons_append, fracVal, fracVal, ih]

theorem stripZeros_append (b : Bytes) : ∃ k, b = stripZeros b ++ List.replicate k 48 := by
  unfold stripZeros
  refine ⟨(b.reverse.takeWhile (· = 48)).length, ?_⟩
  have h := List.takeWhile_append_dropWhile (p := fun x : UInt8 => decide (x = 48)) (l := b.reverse)
  have h2 : b.reverse.takeWhile (· = 48) = List.replicate (b.reverse.takeWhile (· = 48)).length 48 := by
    apply List.eq_replicate_of_mem
    intro x hx
    have := List.all_takeWhile (l := b.reverse) (p := fun x : UInt8 => decide (x = 48))
    simpa using List.all_eq_true.mp this x hx
  have h3 := congrArg List.reverse h
  rw [List.reverse_append, List.reverse_reverse, h2, List.reverse_replicate] at h3
  exact h3.symm

theorem fracVal_stripZeros (b : Bytes) (w : Nat) : fracVal w (stripZeros b) = fracVal w b := by
  obtain ⟨k, hk⟩ := stripZeros_append b
  conv => rhs; rw [hk]
  rw [fracVal_append]

theorem stripZeros_mem {b : Bytes} {x : UInt8} (h : x ∈ stripZeros b) : x ∈ b := by
  obtain ⟨k, hk⟩ := stripZeros_append b
  rw [hk]; exact List.mem_append_left _ h

theorem fracVal_pad9 {n : Nat} (h : n < 1000000000) : fracVal 100000000 (pad9 n) = n := by
  unfold pad9
  simp only [fracVal, digitOf_digit, Option.getD_some]
  omega

theorem pad9_digits (n : Nat) : ∀ x ∈ pad9 n, (digitOf x).isSome := by
  intro x hx
  simp only [pad9, List.mem_cons, List.not_mem_nil, or_false] at hx
  rcases hx with rfl | rfl | rfl | rfl | rfl | rfl | rfl | rfl | rfl <;> rw [digitOf_digit] <;> rfl

theorem takeWhile_all {p : UInt8 → Bool} {l r : Bytes} (hl : ∀ x ∈ l, p x = true) (hr : ∀ x, r.head? = some x → p x = false) :
    (l ++ r).takeWhile p = l ∧ (l ++ r).dropWhile p = r := by
  induction l with
  | nil =>
    cases r with
    | nil => exact ⟨rfl, rfl⟩
    | cons x r =>
      have := hr x rfl
      rw [List.nil_append, List.takeWhile_cons, List.dropWhile_cons, this]; exact ⟨rfl, rfl⟩
  | cons a l ih =>
    have ha := hl a (by simp)
    have := ih (fun x hx => hl x (by simp [hx]))
    rw [List.cons_append, List.takeWhile_cons, List.dropWhile_cons, ha]
    simp only [if_true]
    rw [this.1, this.2]; exact ⟨rfl, rfl⟩

/-- The zone is not a continuation of the fraction. -/
theorem fmtZone_head (off : Int) : ∃ b r, fmtZone off = b :: r ∧ digitOf b = none ∧ b ≠ 46 := by
  unfold fmtZone
  split
  · exact ⟨90, [], rfl, rfl, by decide⟩
  · split
    · exact ⟨45, _, rfl, rfl, by decide⟩
    · exact ⟨43, _, rfl, rfl, by decide⟩

theorem parseFrac_fmtFrac {ns : Nat} (h : ns < 1000000000) (off : Int) : parseFrac (fmtFrac ns ++ fmtZone off) = some (ns, fmtZone off) := by
  obtain ⟨b, r, hz, hd, h46⟩ := fmtZone_head off
  rw [hz]
  unfold fmtFrac
  split
  · subst_vars
    rw [List.nil_append]
    simp only [parseFrac]
    rw [if_neg h46]
  · next hne =>
    have hdig : ∀ x ∈ stripZeros (pad9 ns), (digitOf x).isSome = true := fun x hx => pad9_digits ns x (stripZeros_mem hx)
    have hs := takeWhile_all (p := fun x => (digitOf x).isSome) (l := stripZeros (pad9 ns)) (r := b :: r) hdig
      (by intro x hx; simp only [List.head?_cons, Option.some.injEq] at hx; subst hx; simp [hd])
    have hnil : stripZeros (pad9 ns) ≠ [] := by
      intro e
      have := fracVal_stripZeros (pad9 ns) 100000000
      rw [e, fracVal_pad9 h, fracVal] at this
      omega
    have hs1 : (spanDigits (stripZeros (pad9 ns) ++ b :: r)).1 = stripZeros (pad9 ns) := hs.1
    have hs2 : (spanDigits (stripZeros (pad9 ns) ++ b :: r)).2 = b :: r := hs.2
    simp only [List.cons_append, parseFrac, if_true, hs1, hs2]
    rw [if_neg hnil, fracVal_stripZeros, fracVal_pad9 h]

theorem parseZone_fmtZone {off : Int} (h : off.natAbs < 1440) : parseZone (fmtZone off) = some off := by
  unfold fmtZone
  split
  · subst_vars; rfl
  · unfold pad2
    rw [List.cons_append, List.cons_append, List.nil_append]
    simp only [parseZone]
    rw [num2_pad2 (by omega), num2_pad2 (by omega)]
    simp only
    rw [if_pos ⟨trivial, by omega, by omega⟩]
    by_cases hs : off < 0
    · rw [if_pos hs, if_neg (by decide), if_pos rfl]; congr 1; omega
    · rw [if_neg hs, if_pos rfl]; congr 1; omega

/-- A formatted time is read back exactly. -/
theorem parseTime_fmtTime {off t : Int} {b : Bytes} (hoff : off.natAbs < 1440) (h : fmtTime off t = some b) : parseTime b = some t := by
  unfold fmtTime at h
  simp only at h
  generalize hl : t + off * 60 * nsPerSec = l at h
  generalize hsecs : l / nsPerSec = secs at h
  have hm := civil_month (secs / 86400)
  have hd := civil_day (secs / 86400)
  have hdays := daysOf_civil (secs / 86400)
  have hd31 : daysIn (civil (secs / 86400)).1 (civil (secs / 86400)).2.1 ≤ 31 := by unfold daysIn; split <;> (try split) <;> omega
  generalize civil (secs / 86400) = c at h hm hd hdays hd31
  obtain ⟨y, m, d⟩ := c
  simp only at h hm hd hdays hd31
  generalize hsod : (secs % 86400).toNat = sod at h
  have hsod2 : sod < 86400 := by omega
  generalize hns : (l % nsPerSec).toNat = ns at h
  have hns2 : ns < 1000000000 := by simp only [nsPerSec] at hns; omega
  split at h
  · next hy =>
    injection h with h
    subst h
    simp only [pad4, pad2, List.cons_append, List.nil_append]
    simp only [parseTime]
    rw [num4_pad4 (by omega), num2_pad2 (by omega), num2_pad2 (by omega), num2_pad2 (by omega), num2_pad2 (by omega), num2_pad2 (by omega),
      parseFrac_fmtFrac hns2]
    have hyy : ((y.toNat : Nat) : Int) = y := by omega
    simp only
    rw [hyy, if_pos ⟨⟨trivial, trivial, trivial, trivial, trivial⟩, hm.1, hm.2, hd.1, hd.2, by omega, by omega, by omega⟩, parseZone_fmtZone hoff, Option.map_some, hdays]
    congr 1
    have : sod / 3600 * 3600 + sod / 60 % 60 * 60 + sod % 60 = sod := by omega
    rw [this]
    simp only [nsPerSec] at *
    omega
  · exact absurd h (by simp)

end TcpInfo
