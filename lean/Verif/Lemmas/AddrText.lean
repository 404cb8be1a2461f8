import Verif.Spec.AddrText
import Verif.Lemmas.IPText
/-!
# `net.ParseIP` accepts exactly the texts of addresses
-/

namespace TcpInfo
open Spec

theorem dotted_eq (a b c d : UInt8) : dotted a b c d = fmtIPv4 [a, b, c, d] := by
  have e : ∀ n : Nat, (toString n).toList = Nat.toDigits 10 n := by
    intro n; show (Nat.repr n).toList = _; simp [Nat.repr]
  have d1 : ".".toList = ['.'] := rfl
  simp only [dotted, String.toList_append, e, d1, fmtIPv4, List.append_assoc, List.singleton_append]
  rfl

theorem hexDigit_iff {c : Char} {d : Nat} : HexDigit c d ↔ hexCharVal c = some d := by
  constructor
  · have lt : ∀ {s : List Char} {c : Char} {d : Nat}, s[d]? = some c → d < s.length := fun h => (List.getElem?_eq_some_iff.1 h).1
    have k1 : ∀ d, d < 16 → "0123456789abcdef".toList[d]?.bind hexCharVal = some d := by decide
    have k2 : ∀ d, d < 16 → "0123456789ABCDEF".toList[d]?.bind hexCharVal = some d := by decide
    rintro (h | h)
    · have := k1 d (lt h); rw [h] at this; exact this
    · have := k2 d (lt h); rw [h] at this; exact this
  · intro h
    have hc : c = Char.ofNat c.toNat := (Char.ofNat_toNat c).symm
    have k1 : ∀ d, d < 16 → "0123456789abcdef".toList[d]? = some (Char.ofNat (if d < 10 then d + 48 else d + 87)) := by decide
    have k2 : ∀ d, d < 16 → "0123456789ABCDEF".toList[d]? = some (Char.ofNat (if d < 10 then d + 48 else d + 55)) := by decide
    unfold hexCharVal at h
    split at h
    · injection h with h
      left; rw [k1 d (by omega), if_pos (by omega), hc]; congr 2; omega
    · split at h
      · injection h with h
        left; rw [k1 d (by omega), if_neg (by omega), hc]; congr 2; omega
      · split at h
        · injection h with h
          right; rw [k2 d (by omega), if_neg (by omega), hc]; congr 2; omega
        · simp at h

theorem hexText_scan {s : List Char} {v : Nat} (h : HexText s v) : v < 0xFFFFFF → ∀ r, scanNum hexCharVal 16 0 (s ++ r) = scanNum hexCharVal 16 v r := by
  obtain ⟨big, hbig⟩ : ∃ n, n = 0xFFFFFF := ⟨_, rfl⟩
  rw [← hbig]
  induction h with
  | one hd =>
    intro hv r
    rw [List.singleton_append, scanNum, hexDigit_iff.1 hd]
    simp only [Nat.zero_mul, Nat.zero_add]
    rw [← hbig, if_neg (by omega)]
  | more _ hd ih =>
    intro hv r
    rw [List.append_assoc, ih (by omega), List.singleton_append, scanNum, hexDigit_iff.1 hd]
    simp only
    rw [← hbig, if_neg (by omega), Nat.mul_comm]

theorem hexText_head {s : List Char} {v : Nat} (h : HexText s v) : ∃ c r d, s = c :: r ∧ hexCharVal c = some d := by
  induction h with
  | one hd => exact ⟨_, [], _, rfl, hexDigit_iff.1 hd⟩
  | more _ hd ih => obtain ⟨c, r, d, rfl, h⟩ := ih; exact ⟨c, _, d, rfl, h⟩

theorem hexCharVal_mark {c : Char} {d : Nat} (h : hexCharVal c = some d) : c ≠ ':' ∧ c ≠ '.' := by
  constructor <;> (rintro rfl; exact absurd h (by simp [hexCharVal]))

theorem hexText_no_mark {s : List Char} {v : Nat} (h : HexText s v) : ∀ c ∈ s, c ≠ ':' ∧ c ≠ '.' := by
  induction h with
  | one hd => intro c hc; simp at hc; subst hc; exact hexCharVal_mark (hexDigit_iff.1 hd)
  | more _ hd ih =>
    intro c hc
    rcases List.mem_append.1 hc with hc | hc
    · exact ih c hc
    · simp at hc; subst hc; exact hexCharVal_mark (hexDigit_iff.1 hd)

theorem toI_hexText {s : List Char} {v : Nat} (h : HexText s v) (hv : v < 65536) (r : List Char) (hr : ∀ c, r.head? = some c → hexCharVal c = none) :
    toI hexCharVal 16 (s ++ r) = some (v, r) := by
  unfold toI
  rw [hexText_scan h (by omega), scanNum_stop _ _ _ _ hr]
  obtain ⟨c, t, d, rfl, hd⟩ := hexText_head h
  simp [hd]

theorem scanNum_hexText (s : List Char) : ∀ (p : List Char) (n0 n : Nat) (rest : List Char), HexText p n0 → scanNum hexCharVal 16 n0 s = some (n, rest) →
    ∃ q, s = q ++ rest ∧ HexText (p ++ q) n ∧ ∀ c, rest.head? = some c → hexCharVal c = none := by
  induction s with
  | nil => intro p n0 n rest hp h; simp only [scanNum] at h; injection h with h; injection h with h1 h2; subst h1; subst h2; exact ⟨[], rfl, by simpa using hp, by simp⟩
  | cons c s ih =>
    intro p n0 n rest hp h
    simp only [scanNum] at h
    split at h
    · rename_i hd
      injection h with h; injection h with h1 h2; subst h1; subst h2
      exact ⟨[], rfl, by simpa using hp, by intro x hx; simp at hx; subst hx; exact hd⟩
    · rename_i d hd
      split at h
      · simp at h
      · have := HexText.more hp (hexDigit_iff.2 hd)
        rw [Nat.mul_comm 16 n0] at this
        obtain ⟨q, e, h1, h2⟩ := ih _ _ _ _ this h
        exact ⟨c :: q, by rw [e]; rfl, by simpa using h1, h2⟩

theorem toI_hexText_inv {s rest : List Char} {v : Nat} (h : toI hexCharVal 16 s = some (v, rest)) :
    ∃ q, s = q ++ rest ∧ HexText q v ∧ ∀ c, rest.head? = some c → hexCharVal c = none := by
  unfold toI at h
  split at h
  · simp at h
  · rename_i hh
    cases s with
    | nil => simp at hh
    | cons c s =>
      simp only [scanNum] at h
      split at h
      · rename_i hd; simp [hd] at hh
      · rename_i d hd
        simp only [Nat.zero_mul, Nat.zero_add] at h
        split at h
        · simp at h
        · obtain ⟨q, e, h1, h2⟩ := scanNum_hexText s [c] d v rest (HexText.one (hexDigit_iff.2 hd)) h
          exact ⟨c :: q, by rw [e]; rfl, h1, h2⟩

/-- A decimal number below 256, read as hexadecimal. -/
theorem decimal_hexText (n : Nat) : n < 1000 → ∃ v, HexText (Nat.toDigits 10 n) v ∧ v < 65536 := by
  have dig : ∀ n, n < 10 → HexText (Nat.toDigits 10 n) n := by
    intro n h
    rw [Nat.toDigits_of_lt_base h]
    exact HexText.one (hexDigit_iff.2 (hexVal_digit n (by omega)))
  have step : ∀ n v, HexText (Nat.toDigits 10 (n / 10)) v → 10 ≤ n → HexText (Nat.toDigits 10 n) (16 * v + n % 10) := by
    intro n v h hn
    rw [Nat.toDigits_of_base_le (by omega) hn]
    exact HexText.more h (hexDigit_iff.2 (hexVal_digit _ (by omega)))
  intro hn
  by_cases h1 : n < 10
  · exact ⟨n, dig n h1, by omega⟩
  · by_cases h2 : n < 100
    · exact ⟨_, step n _ (dig (n / 10) (by omega)) (by omega), by omega⟩
    · exact ⟨_, step n _ (step (n / 10) _ (dig (n / 10 / 10) (by omega)) (by omega)) (by omega), by omega⟩

theorem dotted_cons (a b c d : UInt8) : dotted a b c d = Nat.toDigits 10 a.toNat ++ '.' :: fmtIPv4 [b, c, d] := by
  rw [dotted_eq]; simp only [fmtIPv4]

theorem tailText_head {s : List Char} {g : List Nat} (h : TailText s g) : ∃ c r, s = c :: r ∧ c ≠ ':' := by
  cases h with
  | quad a b c d =>
    obtain ⟨x, r, hx, e⟩ := toDigits_cons 10 (by omega) a.toNat
    refine ⟨Nat.digitChar x, r ++ '.' :: fmtIPv4 [b, c, d], by rw [dotted_cons, e]; rfl, (digit_not_colon x (by omega)).1⟩
  | one h _ => obtain ⟨c, r, d, rfl, hd⟩ := hexText_head h; exact ⟨c, r, rfl, (hexCharVal_mark hd).1⟩
  | more h _ _ => obtain ⟨c, r, d, rfl, hd⟩ := hexText_head h; exact ⟨c, _, rfl, (hexCharVal_mark hd).1⟩

theorem groupsText_tail {s : List Char} {g : List Nat} (h : GroupsText s g) : TailText s g := by
  induction h with
  | one h hv => exact .one h hv
  | more h hv _ ih => exact .more h hv ih

theorem dot_stop (r : List Char) : ∀ c, ('.' :: r).head? = some c → hexCharVal c = none := by
  intro x hx; simp at hx; subst hx; decide

/-! ## Texts are accepted -/

theorem loop_tail {s : List Char} {g : List Nat} (h : TailText s g) : ∀ (n : Nat) (acc : List Nat) (ell : Option Nat), g.length ≤ n → acc.length + g.length ≤ 8 →
    (ell = none → acc.length + g.length = 8) → parse6Loop n s acc ell = some (acc ++ g, ell, []) := by
  induction h with
  | quad a b c d =>
    intro n acc ell hn h8 he
    obtain ⟨m, rfl⟩ : ∃ m, n = m + 1 := ⟨n - 1, by simp at hn; omega⟩
    obtain ⟨v, hv, hlt⟩ := decimal_hexText a.toNat (by have := a.toNat_lt; omega)
    have ht : toI hexCharVal 16 (dotted a b c d) = some (v, '.' :: fmtIPv4 [b, c, d]) := by
      rw [dotted_cons]; exact toI_hexText hv hlt _ (dot_stop _)
    rw [parse6Loop, ht]
    simp only [List.length_cons, List.length_nil] at h8 he
    simp only
    rw [if_neg (by omega : ¬ v > 65535), if_pos trivial, if_neg (by rintro ⟨h1, h2⟩; have := he h1; omega), if_neg (by omega), dotted_eq, parseIPv4_fmt]
  | @one s v h hv =>
    intro n acc ell hn h8 he
    obtain ⟨m, rfl⟩ : ∃ m, n = m + 1 := ⟨n - 1, by simp at hn; omega⟩
    have ht := toI_hexText h hv [] (by simp)
    rw [List.append_nil] at ht
    rw [parse6Loop, ht]
    simp only
    rw [if_neg (by omega : ¬ v > 65535)]
  | @more s r v g h hv hr ih =>
    intro n acc ell hn h8 he
    obtain ⟨m, rfl⟩ : ∃ m, n = m + 1 := ⟨n - 1, by simp at hn; omega⟩
    simp only [List.length_cons] at hn h8 he
    have ih' := ih m (acc ++ [v]) ell (by omega) (by simp; omega) (by intro e; have := he e; simp; omega)
    obtain ⟨c, t, rfl, hc⟩ := tailText_head hr
    rw [parse6Loop, toI_hexText h hv _ (colon_stop _)]
    simp only
    rw [if_neg (by omega : ¬ v > 65535), if_neg (by decide : ¬ ':' = '.'), if_neg (by decide : ¬ ':' ≠ ':'), if_neg hc, ih']
    simp

theorem loop_ellipsis {s : List Char} {g : List Nat} (h : GroupsText s g) : ∀ (n : Nat) (acc : List Nat) (r : List Char), g.length ≤ n →
    parse6Loop n (s ++ ':' :: ':' :: r) acc none
      = if r.isEmpty then some (acc ++ g, some (acc.length + g.length), [])
        else parse6Loop (n - g.length) r (acc ++ g) (some (acc.length + g.length)) := by
  induction h with
  | @one s v h hv =>
    intro n acc r hn
    obtain ⟨m, rfl⟩ : ∃ m, n = m + 1 := ⟨n - 1, by simp at hn; omega⟩
    rw [parse6Loop, toI_hexText h hv _ (colon_stop _)]
    simp only
    rw [if_neg (by omega : ¬ v > 65535), if_neg (by decide : ¬ ':' = '.'), if_neg (by decide : ¬ ':' ≠ ':'), if_pos trivial]
    simp
  | @more s t v g h hv hr ih =>
    intro n acc r hn
    obtain ⟨m, rfl⟩ : ∃ m, n = m + 1 := ⟨n - 1, by simp at hn; omega⟩
    simp only [List.length_cons] at hn
    have ih' := ih m (acc ++ [v]) r (by omega)
    obtain ⟨c, t', rfl, hc⟩ := tailText_head (groupsText_tail hr)
    rw [List.append_assoc, List.cons_append, List.cons_append, parse6Loop, toI_hexText h hv _ (colon_stop _)]
    simp only
    rw [if_neg (by omega : ¬ v > 65535), if_neg (by decide : ¬ ':' = '.'), if_neg (by decide : ¬ ':' ≠ ':'), if_neg hc, ← List.cons_append, ih']
    have e1 : (acc ++ [v]).length + g.length = acc.length + (v :: g).length := by simp; omega
    have e2 : m - g.length = m + 1 - (v :: g).length := by simp
    rw [e1, e2, List.append_assoc, List.singleton_append]

theorem take2_head {c : Char} {r : List Char} (hc : c ≠ ':') : (c :: r).take 2 ≠ [':', ':'] := by
  intro h
  cases r <;> simp_all

theorem parseIPv6_of_text {s : List Char} {g : List Nat} (h : V6Text s g) : parseIPv6 s = some g := by
  cases h with
  | full ht hl =>
    unfold parseIPv6
    obtain ⟨c, t, rfl, hc⟩ := tailText_head ht
    rw [if_neg (take2_head hc)]
    simp only [Option.isSome_none, Bool.false_eq_true, false_and, if_false]
    rw [loop_tail ht 8 [] none (by omega) (by simp; omega) (by intro _; simp; omega)]
    simp [expand, hl]
  | @ellipsis s r g h hs hr hl =>
    have hexp := expand_split g h (8 - (g.length + h.length)) (by omega) (by omega)
    rcases hs with ⟨rfl, rfl⟩ | hs
    · unfold parseIPv6
      simp only [List.nil_append, List.take_succ_cons, List.take_zero, if_true, List.drop_succ_cons, List.drop_zero, Option.isSome_some, true_and]
      rcases hr with ⟨rfl, rfl⟩ | hr
      · simp
      · obtain ⟨c, t, rfl, hc⟩ := tailText_head hr
        simp only [List.isEmpty_cons, Bool.false_eq_true, if_false]
        simp only [List.length_nil, Nat.zero_add] at hl
        rw [loop_tail hr 8 [] (some 0) (by omega) (by simp; omega) (by simp)]
        simp only [List.isEmpty_nil, if_true, List.nil_append]
        simp only [List.nil_append, List.length_nil] at hexp
        exact hexp
    · have h2 : (s ++ ':' :: ':' :: r).take 2 ≠ [':', ':'] := by
        obtain ⟨c, t, rfl, hc⟩ := tailText_head (groupsText_tail hs)
        exact take2_head hc
      unfold parseIPv6
      rw [if_neg h2]
      simp only [Option.isSome_none, Bool.false_eq_true, false_and, if_false]
      rw [loop_ellipsis hs 8 [] r (by omega)]
      rcases hr with ⟨rfl, rfl⟩ | hr
      · simp only [List.isEmpty_nil, if_true, List.nil_append, List.length_nil, Nat.zero_add]
        rw [List.append_nil] at hexp
        rw [hexp]; simp
      · obtain ⟨c, t, rfl, hc⟩ := tailText_head hr
        simp only [List.isEmpty_cons, Bool.false_eq_true, if_false, List.nil_append, List.length_nil, Nat.zero_add]
        rw [loop_tail hr _ _ _ (by omega) (by omega) (by simp)]
        simp only [List.isEmpty_nil, if_true]
        exact hexp

/-! ## Accepted texts are texts of addresses -/

theorem loop_text : ∀ (n : Nat) (s : List Char) (acc : List Nat) (ell : Option Nat) (acc' : List Nat) (ell' : Option Nat), s ≠ [] →
    parse6Loop n s acc ell = some (acc', ell', []) →
    (∃ g, TailText s g ∧ acc' = acc ++ g ∧ ell' = ell)
    ∨ (ell = none ∧ ∃ s1 r g h, GroupsText s1 g ∧ s = s1 ++ ':' :: ':' :: r ∧ (r = [] ∧ h = [] ∨ TailText r h) ∧ acc' = acc ++ g ++ h ∧ ell' = some (acc.length + g.length))
  | 0, s, acc, ell, acc', ell', hs, h => by
    simp only [parse6Loop, Option.some.injEq, Prod.mk.injEq] at h
    exact absurd h.2.2 hs
  | n + 1, s, acc, ell, acc', ell', hs, h => by
    rw [parse6Loop] at h
    split at h
    · simp at h
    · rename_i v rest ht
      obtain ⟨q, e, hq, hstop⟩ := toI_hexText_inv ht
      split at h
      · simp at h
      · rename_i hv
        have hv' : v < 65536 := by omega
        split at h
        · simp only [Option.some.injEq, Prod.mk.injEq] at h
          obtain ⟨h1, h2, -⟩ := h
          rw [List.append_nil] at e; subst e
          exact Or.inl ⟨[v], .one hq hv', h1.symm, h2.symm⟩
        · rename_i c rest
          split at h
          · split at h
            · simp at h
            · split at h
              · simp at h
              · split at h
                · simp at h
                · rename_i a b c d hp
                  simp only [Option.some.injEq, Prod.mk.injEq] at h
                  obtain ⟨h1, h2, -⟩ := h
                  obtain ⟨ha, hb, hc, hd, e4⟩ := parseIPv4_text hp
                  simp only at ha hb hc hd e4
                  left
                  have := TailText.quad (UInt8.ofNat a) (UInt8.ofNat b) (UInt8.ofNat c) (UInt8.ofNat d)
                  rw [dotted_eq, ← e4] at this
                  refine ⟨_, this, ?_, h2.symm⟩
                  rw [← h1]
                  simp [Nat.mod_eq_of_lt ha, Nat.mod_eq_of_lt hb, Nat.mod_eq_of_lt hc, Nat.mod_eq_of_lt hd]
          · split at h
            · simp at h
            · rename_i hcc
              have hcc : c = ':' := by simpa using hcc
              subst hcc
              split at h
              · simp at h
              · rename_i c rest
                split at h
                · rename_i hc2
                  subst hc2
                  split at h
                  · simp at h
                  · rename_i hell
                    have hell : ell = none := by simpa using hell
                    subst hell
                    split at h
                    · rename_i hre
                      have hre : rest = [] := by simpa using hre
                      subst hre
                      simp only [Option.some.injEq, Prod.mk.injEq] at h
                      exact Or.inr ⟨rfl, q, [], [v], [], .one hq hv', e, Or.inl ⟨rfl, rfl⟩, by rw [← h.1]; simp, by rw [← h.2.1]; simp⟩
                    · rename_i hre
                      have hre : rest ≠ [] := by simpa using hre
                      rcases loop_text n rest _ _ _ _ hre h with ⟨g, hg, e1, e2⟩ | ⟨hn, -⟩
                      · exact Or.inr ⟨rfl, q, rest, [v], g, .one hq hv', e, Or.inr hg, e1, by rw [e2]; simp⟩
                      · simp at hn
                · rcases loop_text n (c :: rest) _ _ _ _ (by simp) h with ⟨g, hg, e1, e2⟩ | ⟨hn, s1, r, g, t, hg, er, hr, e1, e2⟩
                  · left
                    exact ⟨v :: g, e ▸ .more hq hv' hg, by rw [e1]; simp, e2⟩
                  · right
                    refine ⟨hn, q ++ ':' :: s1, r, v :: g, t, .more hq hv' hg, ?_, hr, by rw [e1]; simp, by rw [e2]; simp; omega⟩
                    rw [e, er]; simp

theorem parseIPv6_text {s : List Char} {g : List Nat} (h : parseIPv6 s = some g) : V6Text s g := by
  unfold parseIPv6 at h
  by_cases h2 : s.take 2 = [':', ':']
  · rw [if_pos h2] at h
    obtain ⟨r, rfl⟩ : ∃ r, s = ':' :: ':' :: r := ⟨s.drop 2, by rw [← List.take_append_drop 2 s, h2]; rfl⟩
    simp only [List.drop_succ_cons, List.drop_zero, Option.isSome_some, true_and] at h
    split at h
    · rename_i hr
      have hr : r = [] := by simpa using hr
      subst hr
      injection h with h; subst h
      exact V6Text.ellipsis (s := []) (g := []) (r := []) (h := []) (Or.inl ⟨rfl, rfl⟩) (Or.inl ⟨rfl, rfl⟩) (by simp)
    · rename_i hr
      have hr : r ≠ [] := by simpa using hr
      split at h
      · simp at h
      · rename_i acc ell rest hp
        split at h
        · rename_i hre
          have hre : rest = [] := by simpa using hre
          subst hre
          rcases loop_text 8 r [] (some 0) acc ell hr hp with ⟨t, ht, e1, e2⟩ | ⟨hn, -⟩
          · rw [List.nil_append] at e1
            subst e1; subst e2
            unfold expand at h
            split at h
            · rename_i hl
              simp only [List.take_zero, List.drop_zero, List.nil_append, Option.some.injEq] at h
              subst h
              have := V6Text.ellipsis (s := []) (g := []) (r := r) (h := acc) (Or.inl ⟨rfl, rfl⟩) (Or.inr ht) (by simpa using hl)
              simpa using this
            · simp at h
          · simp at hn
        · simp at h
  · rw [if_neg h2] at h
    simp only [Option.isSome_none, Bool.false_eq_true, false_and, if_false] at h
    have hs : s ≠ [] := by rintro rfl; simp [parse6Loop, toI] at h
    split at h
    · simp at h
    · rename_i acc ell rest hp
      split at h
      · rename_i hre
        have hre : rest = [] := by simpa using hre
        subst hre
        have hl8 := parse6Loop_length _ _ _ _ _ hp (by simp)
        simp only at hl8
        rcases loop_text 8 s [] none acc ell hs hp with ⟨t, ht, e1, e2⟩ | ⟨-, s1, r, g', t, hg, er, hr, e1, e2⟩
        · rw [List.nil_append] at e1
          subst e1; subst e2
          unfold expand at h
          split at h
          · simp at h
          · simp only [Option.isSome_none, Bool.false_eq_true, if_false, Option.some.injEq] at h
            subst h
            exact .full ht (by omega)
        · simp only [List.nil_append, List.length_nil, Nat.zero_add] at e1 e2
          subst e1; subst e2; subst er
          unfold expand at h
          split at h
          · rename_i hl
            simp only [List.take_left, List.drop_left, Option.some.injEq] at h
            subst h
            have := V6Text.ellipsis (Or.inr hg) hr (by simpa using hl)
            simpa using this
          · simp at h
      · simp at h

theorem v6Text_find {s : List Char} {g : List Nat} (h : V6Text s g) : s.find? (fun c => c = '.' || c = ':') = some ':' := by
  cases h with
  | full ht hl =>
    cases ht with
    | quad => simp at hl
    | one => simp at hl
    | more h hv hr => exact find_mark _ _ _ (hexText_no_mark h) (Or.inr rfl)
  | ellipsis hs hr hl =>
    rcases hs with ⟨rfl, rfl⟩ | hs
    · simp
    · cases hs with
      | one h hv => exact find_mark _ _ _ (hexText_no_mark h) (Or.inr rfl)
      | more h hv hr => rw [List.append_assoc]; exact find_mark _ _ _ (hexText_no_mark h) (Or.inr rfl)

/-- `net.ParseIP` accepts exactly the texts of addresses and gives the address. -/
theorem parseIP_iff (s : List Char) (ip : Bytes) : parseIP s = some ip ↔ AddrText s ip := by
  constructor
  · intro h
    unfold parseIP at h
    split at h
    · simp at h
    · split at h
      · obtain ⟨p, hp, rfl⟩ := Option.map_eq_some_iff.1 h
        obtain ⟨-, -, -, -, e⟩ := parseIPv4_text hp
        rw [← dotted_eq] at e
        exact Or.inl ⟨_, _, _, _, e, rfl⟩
      · obtain ⟨g, hg, rfl⟩ := Option.map_eq_some_iff.1 h
        exact Or.inr ⟨g, parseIPv6_text hg, rfl⟩
  · rintro (⟨a, b, c, d, rfl, rfl⟩ | ⟨g, hg, rfl⟩)
    · have h := parseIP_ipString [a, b, c, d] (Or.inl rfl)
      rw [dotted_eq]
      exact h
    · unfold parseIP
      rw [v6Text_find hg]
      simp only
      rw [if_neg (by decide), parseIPv6_of_text hg]
      rfl

end TcpInfo
