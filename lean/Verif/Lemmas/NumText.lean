import Verif.Spec.NumText
import Verif.Model.Netlink
/-!
# `strconv.ParseInt` accepts exactly the texts of integers in range
-/

namespace TcpInfo
open Spec

theorem digitVal_iff {c : Char} {d : Nat} : "0123456789".toList[d]? = some c ↔ digitVal c = some d := by
  constructor
  · have k : ∀ d, d < 10 → "0123456789".toList[d]?.bind digitVal = some d := by decide
    intro h
    have := k d (List.getElem?_eq_some_iff.1 h).1
    rw [h] at this; exact this
  · intro h
    have k : ∀ d, d < 10 → "0123456789".toList[d]? = some (Char.ofNat (d + 48)) := by decide
    unfold digitVal at h
    split at h
    · rename_i hd
      injection h with h
      have h0 : '0'.toNat = 48 := rfl
      rw [h0] at h
      have hr : 48 ≤ c.toNat ∧ c.toNat ≤ 57 := by
        simp only [Char.isDigit, Bool.and_eq_true, decide_eq_true_eq] at hd
        exact ⟨UInt32.le_iff_toNat_le.1 hd.1, UInt32.le_iff_toNat_le.1 hd.2⟩
      have hc : c = Char.ofNat c.toNat := (Char.ofNat_toNat c).symm
      rw [k d (by omega), hc]; congr 2; omega
    · simp at h

theorem parseDigits_append (s t : List Char) : ∀ a, parseDigits (s ++ t) a = (parseDigits s a).bind (parseDigits t) := by
  induction s with
  | nil => intro a; rfl
  | cons c s ih =>
    intro a
    simp only [List.cons_append, parseDigits]
    cases digitVal c with
    | none => rfl
    | some d => simp only [Option.bind_some]; exact ih _

theorem parseDigits_decText {s : List Char} {n : Nat} (h : DecText s n) : s ≠ [] ∧ parseDigits s 0 = some n := by
  induction h with
  | one h => exact ⟨by simp, by simp [parseDigits, digitVal_iff.1 h]⟩
  | more _ h ih => exact ⟨by simp, by rw [parseDigits_append, ih.2]; simp [parseDigits, digitVal_iff.1 h, Nat.mul_comm]⟩

theorem parseDigits_inv (s : List Char) : ∀ (p : List Char) (a n : Nat), DecText p a → parseDigits s a = some n → DecText (p ++ s) n := by
  induction s with
  | nil => intro p a n hp h; simp only [parseDigits, Option.some.injEq] at h; subst h; simpa using hp
  | cons c s ih =>
    intro p a n hp h
    simp only [parseDigits, Option.bind_eq_some_iff] at h
    obtain ⟨d, hd, h⟩ := h
    have := DecText.more hp (digitVal_iff.2 hd)
    rw [Nat.mul_comm] at this
    have := ih _ _ _ this h
    simpa using this

theorem parseDigits_iff {s : List Char} {n : Nat} : (s ≠ [] ∧ parseDigits s 0 = some n) ↔ DecText s n := by
  constructor
  · rintro ⟨hs, h⟩
    cases s with
    | nil => exact absurd rfl hs
    | cons c s =>
      simp only [parseDigits, Option.bind_eq_some_iff] at h
      obtain ⟨d, hd, h⟩ := h
      rw [Nat.zero_mul, Nat.zero_add] at h
      exact parseDigits_inv s [c] d n (.one (digitVal_iff.2 hd)) h
  · exact parseDigits_decText

theorem decText_sign {s : List Char} {n : Nat} (h : DecText s n) : ∃ c t, s = c :: t ∧ c ≠ '+' ∧ c ≠ '-' := by
  induction h with
  | one h =>
    refine ⟨_, [], rfl, ?_⟩
    have := digitVal_iff.1 h
    constructor <;> (rintro rfl; exact absurd this (by simp [digitVal]))
  | more _ _ ih => obtain ⟨c, t, rfl, h⟩ := ih; exact ⟨c, _, rfl, h⟩

/-- The digits and the sign. -/
theorem parseInt16_sign (s : List Char) : (∃ t, s = '+' :: t) ∨ (∃ t, s = '-' :: t) ∨ (∀ t, s ≠ '+' :: t) ∧ ∀ t, s ≠ '-' :: t := by
  cases s with
  | nil => simp
  | cons c s =>
    by_cases h1 : c = '+'
    · left; exact ⟨s, by rw [h1]⟩
    · by_cases h2 : c = '-'
      · right; left; exact ⟨s, by rw [h2]⟩
      · right; right; simp [h1, h2]

theorem parseInt16_iff (s : List Char) (i : Int) : parseInt16 s = some i ↔ IntText s i ∧ -32768 ≤ i ∧ i ≤ 32767 := by
  have num : ∀ t : List Char, ∀ r : Nat → Option Int, (if t.isEmpty then none else (parseDigits t 0).bind r) = some i ↔
      ∃ n, DecText t n ∧ r n = some i := by
    intro t r
    cases t with
    | nil => simp only [List.isEmpty_nil, if_true]; constructor
             · simp
             · rintro ⟨n, h, -⟩; exact absurd rfl (parseDigits_decText h).1
    | cons c t =>
      simp only [List.isEmpty_cons, Bool.false_eq_true, if_false]
      constructor
      · intro h
        cases hn : parseDigits (c :: t) 0 with
        | none => rw [hn] at h; simp at h
        | some n => rw [hn] at h; exact ⟨n, parseDigits_iff.1 ⟨by simp, hn⟩, h⟩
      · rintro ⟨n, h, hr⟩
        rw [(parseDigits_decText h).2]; exact hr
  rcases parseInt16_sign s with ⟨t, rfl⟩ | ⟨t, rfl⟩ | ⟨h1, h2⟩
  · have e : parseInt16 ('+' :: t) = (if t.isEmpty then none else (parseDigits t 0).bind (fun n => (if n ≥ 32768 then none else some (n : Int)))) := by
      simp only [parseInt16]; cases parseDigits t 0 <;> simp
    rw [e, num]
    constructor
    · rintro ⟨n, h, hr⟩
      split at hr
      · simp at hr
      · injection hr with hr
        exact ⟨⟨n, Or.inl ⟨hr.symm, Or.inr ⟨t, rfl, h⟩⟩⟩, by omega, by omega⟩
    · rintro ⟨⟨n, ⟨rfl, h | ⟨t', e, h⟩⟩ | ⟨-, t', e, -⟩⟩, h1, h2⟩
      · obtain ⟨c, t', e, h3, -⟩ := decText_sign h
        injection e with e; exact absurd e.symm h3
      · injection e with _ e; subst e
        exact ⟨n, h, by rw [if_neg (by omega)]⟩
      · injection e with e; exact absurd e (by decide)
  · have e : parseInt16 ('-' :: t) = (if t.isEmpty then none else (parseDigits t 0).bind (fun n => (if n > 32768 then none else some (-(n : Int))))) := by
      simp only [parseInt16]; cases parseDigits t 0 <;> simp
    rw [e, num]
    constructor
    · rintro ⟨n, h, hr⟩
      split at hr
      · simp at hr
      · injection hr with hr
        exact ⟨⟨n, Or.inr ⟨hr.symm, t, rfl, h⟩⟩, by omega, by omega⟩
    · rintro ⟨⟨n, ⟨-, h | ⟨t', e, h⟩⟩ | ⟨rfl, t', e, h⟩⟩, h1, h2⟩
      · obtain ⟨c, t', e, -, h3⟩ := decText_sign h
        injection e with e; exact absurd e.symm h3
      · injection e with e; exact absurd e (by decide)
      · injection e with _ e; subst e
        exact ⟨n, h, by rw [if_neg (by omega)]⟩
  · have e : parseInt16 s = (if s.isEmpty then none else (parseDigits s 0).bind (fun n => (if n ≥ 32768 then none else some (n : Int)))) := by
      unfold parseInt16
      split
      rename_i neg ds heq
      split at heq
      · exact absurd rfl (h1 _)
      · exact absurd rfl (h2 _)
      · injection heq with e1 e2; subst e1; subst e2; cases parseDigits s 0 <;> simp
    rw [e, num]
    constructor
    · rintro ⟨n, h, hr⟩
      split at hr
      · simp at hr
      · injection hr with hr
        exact ⟨⟨n, Or.inl ⟨hr.symm, Or.inl h⟩⟩, by omega, by omega⟩
    · rintro ⟨⟨n, ⟨rfl, h | ⟨t', e, h⟩⟩ | ⟨-, t', e, -⟩⟩, h3, h4⟩
      · exact ⟨n, h, by rw [if_neg (by omega)]⟩
      · exact absurd e (h1 _)
      · exact absurd e (h2 _)

theorem intText_inj {s : List Char} {i j : Int} (h : IntText s i) (h' : IntText s j) : i = j := by
  obtain ⟨n, h⟩ := h
  obtain ⟨n', h'⟩ := h'
  have inj : ∀ {t : List Char} {a b : Nat}, DecText t a → DecText t b → a = b := by
    intro t a b ha hb
    have := (parseDigits_decText ha).2
    rw [(parseDigits_decText hb).2] at this
    exact (Option.some.inj this).symm
  have plus : ∀ {t : List Char} {a : Nat}, ¬ DecText ('+' :: t) a := by
    intro t a h; obtain ⟨c, t', e, h1, -⟩ := decText_sign h; injection e with e; exact h1 e.symm
  have minus : ∀ {t : List Char} {a : Nat}, ¬ DecText ('-' :: t) a := by
    intro t a h; obtain ⟨c, t', e, -, h1⟩ := decText_sign h; injection e with e; exact h1 e.symm
  rcases h with ⟨rfl, h | ⟨t, rfl, h⟩⟩ | ⟨rfl, t, rfl, h⟩ <;> rcases h' with ⟨rfl, h' | ⟨t', e, h'⟩⟩ | ⟨rfl, t', e, h'⟩
  · rw [inj h h']
  · subst e; exact absurd h plus
  · subst e; exact absurd h minus
  · exact absurd h' plus
  · injection e with _ e; subst e; rw [inj h h']
  · injection e with e; exact absurd e (by decide)
  · exact absurd h' minus
  · injection e with e; exact absurd e (by decide)
  · injection e with _ e; subst e; rw [inj h h']

end TcpInfo
