import Verif.Lemmas.Json
/-!
# Lemmas about JSON strings and integers
-/

namespace TcpInfo

/-! ## Quoted strings are well-formed -/

/-- A byte that stands for itself in a JSON string. -/
def plain (b : UInt8) : Prop := 32 ≤ b.toNat ∧ b ≠ 34 ∧ b ≠ 92

theorem pStr_plain {b : UInt8} (h : plain b) (t k r : Bytes) (ht : pStr t = some (k, r)) : pStr (b :: t) = some (b :: k, r) := by
  rw [pStr.eq_def]
  simp only
  rw [if_neg h.2.1, if_neg h.2.2, if_neg (by have := h.1; omega), ht]; rfl

theorem pStr_plain_list {l : Bytes} (h : ∀ b ∈ l, plain b) (t k r : Bytes) (ht : pStr t = some (k, r)) : pStr (l ++ t) = some (l ++ k, r) := by
  induction l with
  | nil => exact ht
  | cons b l ih =>
    rw [List.cons_append, List.cons_append]
    exact pStr_plain (h b (by simp)) _ _ _ (ih (fun x hx => h x (by simp [hx])))

theorem pStr_end (r : Bytes) : pStr (34 :: r) = some ([], r) := by rw [pStr.eq_def]; simp

theorem okStr_plain {l : Bytes} (h : ∀ b ∈ l, plain b) : okStr l := by
  intro r
  have := pStr_plain_list h (34 :: r) [] r (pStr_end r)
  rwa [List.append_nil] at this

theorem hexVal_hexDigit (n : Nat) : hexVal (hexDigit n) = some (n % 16) := by
  unfold hexDigit
  split
  · unfold hexVal; simp only; rw [byte_toNat (by omega), if_pos (by omega)]; congr 1; omega
  · unfold hexVal; simp only; rw [byte_toNat (by omega), if_neg (by omega), if_pos (by omega)]; congr 1; omega

theorem hex4_escU {n : Nat} (h : n < 65536) : hex4 (hexDigit (n / 4096)) (hexDigit (n / 256)) (hexDigit (n / 16)) (hexDigit n) = n := by
  unfold hex4
  simp only [hexVal_hexDigit, Option.getD_some]
  omega

/-- The three forms of an escaped character. -/
theorem escChar_cases (c : Char) :
    (∃ e, escChar c = [92, e] ∧ isEsc e = true ∧ e ≠ 117 ∧ escVal e = c) ∨
    (escChar c = escU c.toNat ∧ c.toNat < 0xD800) ∨
    (escChar c = utf8Enc c.toNat ∧ ∀ b ∈ utf8Enc c.toNat, plain b) := by
  unfold escChar
  split
  · next h => subst h; exact Or.inl ⟨34, rfl, by decide, by decide, by decide⟩
  · next h34 =>
    split
    · next h => subst h; exact Or.inl ⟨92, rfl, by decide, by decide, by decide⟩
    · next h92 =>
      split
      · next h => subst h; exact Or.inl ⟨110, rfl, by decide, by decide, by decide⟩
      · split
        · next h => subst h; exact Or.inl ⟨114, rfl, by decide, by decide, by decide⟩
        · split
          · next h => subst h; exact Or.inl ⟨116, rfl, by decide, by decide, by decide⟩
          · split
            · next h =>
              refine Or.inr (Or.inl ⟨rfl, ?_⟩)
              rcases h with h | h | h | h | h | h
              · omega
              · subst h; decide
              · subst h; decide
              · subst h; decide
              · omega
              · omega
            · next h =>
              refine Or.inr (Or.inr ⟨rfl, ?_⟩)
              have hge : 32 ≤ c.toNat := by
                by_cases h32 : c.toNat < 32
                · exact absurd (Or.inl h32) h
                · omega
              by_cases ha : c.toNat < 0x80
              · intro b hb
                unfold utf8Enc at hb
                rw [if_pos ha, List.mem_singleton] at hb
                subst hb
                refine ⟨by rw [byte_toNat (by omega)]; exact hge, ?_, ?_⟩
                · intro e
                  have e2 := congrArg UInt8.toNat e
                  rw [byte_toNat (by omega)] at e2
                  apply h34
                  have : Char.ofNat c.toNat = Char.ofNat 34 := by rw [e2]; rfl
                  rw [Char.ofNat_toNat] at this
                  rw [this]
                · intro e
                  have e2 := congrArg UInt8.toNat e
                  rw [byte_toNat (by omega)] at e2
                  apply h92
                  have : Char.ofNat c.toNat = Char.ofNat 92 := by rw [e2]; rfl
                  rw [Char.ofNat_toNat] at this
                  rw [this]
              · intro b hb
                have hc := char_range c
                have := utf8Enc_high (n := c.toNat) (by omega) (by omega) b hb
                refine ⟨by omega, ?_, ?_⟩ <;> (intro e; subst e; revert this; decide)

theorem pStr_escChar (c : Char) (t k r : Bytes) (ht : pStr t = some (k, r)) : pStr (escChar c ++ t) = some (escChar c ++ k, r) := by
  rcases escChar_cases c with ⟨e, he, hesc, h117, _⟩ | ⟨he, _⟩ | ⟨he, hp⟩
  · rw [he]
    simp only [List.cons_append, List.nil_append]
    rw [pStr.eq_def]
    simp only
    rw [if_neg (by decide), if_pos trivial, if_neg h117, if_pos hesc, ht]
    rfl
  · rw [he]
    unfold escU
    simp only [List.cons_append, List.nil_append]
    rw [pStr.eq_def]
    simp only [hexVal_hexDigit]
    rw [if_neg (by decide), if_pos trivial, if_pos trivial, if_pos (by rfl), ht]
    rfl
  · rw [he]; exact pStr_plain_list hp _ _ _ ht

theorem okStr_quote (s : List Char) : okStr (quote s) := by
  intro r
  unfold quote
  induction s with
  | nil => exact pStr_end r
  | cons c s ih => rw [List.flatMap_cons, List.append_assoc]; exact pStr_escChar c _ _ _ ih

/-! ## Unquoting -/

theorem escChar_length (c : Char) : 1 ≤ (escChar c).length := by
  rcases escChar_cases c with ⟨e, he, _⟩ | ⟨he, _⟩ | ⟨he, _⟩
  · rw [he]; simp
  · rw [he]; simp [escU]
  · rw [he]; unfold utf8Enc; split <;> (try split) <;> (try split) <;> simp

theorem utf8Enc_length (n : Nat) : 1 ≤ (utf8Enc n).length := by
  unfold utf8Enc; split <;> (try split) <;> (try split) <;> simp

theorem unquoteLoop_rune (c : Char) (t : Bytes) (f : Nat) (h92 : ∀ b ∈ utf8Enc c.toNat, b ≠ 92) :
    unquoteLoop (f + 1) (utf8Enc c.toNat ++ t) = c :: unquoteLoop f t := by
  obtain ⟨b, r, hbr, hd⟩ := decodeRune_utf8Enc c t
  have hb : b ≠ 92 := by
    apply h92
    have hl := utf8Enc_length c.toNat
    cases hu : utf8Enc c.toNat with
    | nil => rw [hu] at hl; simp at hl
    | cons x u =>
      rw [hu, List.cons_append] at hbr
      rw [← (List.cons.inj hbr).1]; simp
  rw [hbr, unquoteLoop.eq_def]
  simp only
  rw [if_neg hb, hd]

theorem unquoteLoop_escChar (c : Char) (t : Bytes) (f : Nat) : unquoteLoop (f + 1) (escChar c ++ t) = c :: unquoteLoop f t := by
  rcases escChar_cases c with ⟨e, he, _, h117, hv⟩ | ⟨he, hn⟩ | ⟨he, hp⟩
  · rw [he]
    simp only [List.cons_append, List.nil_append]
    rw [unquoteLoop.eq_def]
    simp only
    rw [if_pos trivial, if_neg h117, hv]
  · rw [he]
    unfold escU
    simp only [List.cons_append, List.nil_append]
    rw [unquoteLoop.eq_def]
    simp only
    rw [if_pos trivial, if_pos trivial, hex4_escU (by omega), if_neg (by simp only [isSurr, Bool.and_eq_true, decide_eq_true_eq]; omega), Char.ofNat_toNat]
  · rw [he]; exact unquoteLoop_rune c t f (fun b hb => (hp b hb).2.2)

theorem unquoteLoop_quote (s : List Char) : ∀ f, (quote s).length ≤ f → unquoteLoop f (quote s) = s := by
  induction s with
  | nil => intro f _; cases f <;> simp [quote, unquoteLoop]
  | cons c s ih =>
    intro f hf
    have hq : quote (c :: s) = escChar c ++ quote s := by simp [quote]
    rw [hq] at hf ⊢
    rw [List.length_append] at hf
    have := escChar_length c
    cases f with
    | zero => omega
    | succ f => rw [unquoteLoop_escChar, ih f (by omega)]

/-- A written string is read back. -/
theorem unquote_quote (s : List Char) : unquote (quote s) = s := unquoteLoop_quote s _ (Nat.le_refl _)

/-- Text of plain ASCII bytes stands for itself. -/
theorem unquoteLoop_ascii {l : Bytes} (h : ∀ b ∈ l, plain b ∧ b.toNat < 0x80) : ∀ f, l.length ≤ f →
    unquoteLoop f l = l.map (fun b => Char.ofNat b.toNat) := by
  induction l with
  | nil => intro f _; cases f <;> simp [unquoteLoop]
  | cons b l ih =>
    intro f hf
    cases f with
    | zero => simp at hf
    | succ f =>
      have hb := h b (by simp)
      rw [unquoteLoop.eq_def]
      simp only
      rw [if_neg hb.1.2.2]
      unfold decodeRune
      rw [if_pos hb.2, ih (fun x hx => h x (by simp [hx])) f (by simpa using hf)]
      rfl

theorem unquote_ascii {l : Bytes} (h : ∀ b ∈ l, plain b ∧ b.toNat < 0x80) : unquote l = l.map (fun b => Char.ofNat b.toNat) :=
  unquoteLoop_ascii h _ (Nat.le_refl _)

theorem unquoteBytes_ascii {l : Bytes} (h : ∀ b ∈ l, plain b ∧ b.toNat < 0x80) : unquoteBytes l = l := by
  unfold unquoteBytes
  rw [unquote_ascii h]
  induction l with
  | nil => rfl
  | cons b l ih =>
    have hb := (h b (by simp)).2
    have hv : (Char.ofNat b.toNat).toNat = b.toNat := by
      have hval : b.toNat.isValidChar := by left; omega
      unfold Char.ofNat
      rw [dif_pos hval]
      rfl
    rw [List.map_cons, List.flatMap_cons, ih (fun x hx => h x (by simp [hx])), hv]
    unfold utf8Enc
    rw [if_pos hb, ← byte_eq_of_toNat (b := b) rfl]; rfl

/-! ## Base64 text and times inside strings -/

theorem b64_plain (b : Bytes) : ∀ x ∈ b64Enc b, plain x ∧ x.toNat < 0x80 := by
  intro x hx
  have := b64Safe_range (b64Enc_safe b x hx)
  refine ⟨⟨by omega, ?_, ?_⟩, by omega⟩ <;> (intro e; subst e; revert this; decide)

theorem digit_plain (n : Nat) : plain (digit n) ∧ (digit n).toNat < 0x80 := by
  have := digit_toNat n
  refine ⟨⟨by omega, ?_, ?_⟩, by omega⟩
  · intro e; rw [e] at this; simp at this; omega
  · intro e; rw [e] at this; simp at this; omega

theorem fmtTime_plain {off t : Int} {b : Bytes} (h : fmtTime off t = some b) : ∀ x ∈ b, plain x ∧ x.toNat < 0x80 := by
  unfold fmtTime at h
  simp only at h
  split at h
  · injection h with h
    subst h
    intro x hx
    have hz : ∀ x ∈ fmtZone off, plain x ∧ x.toNat < 0x80 := by
      intro x hx
      unfold fmtZone at hx
      split at hx
      · simp at hx; subst hx; unfold plain; decide
      · simp only [pad2, List.mem_cons, List.cons_append, List.nil_append, List.not_mem_nil, or_false] at hx
        rcases hx with rfl | rfl | rfl | rfl | rfl | rfl
        · split <;> (unfold plain; decide)
        · exact digit_plain _
        · exact digit_plain _
        · unfold plain; decide
        · exact digit_plain _
        · exact digit_plain _
    have hf : ∀ n, ∀ x ∈ fmtFrac n, plain x ∧ x.toNat < 0x80 := by
      intro n x hx
      unfold fmtFrac at hx
      split at hx
      · simp at hx
      · rw [List.mem_cons] at hx
        rcases hx with rfl | hx
        · unfold plain; decide
        · have := stripZeros_mem hx
          simp only [pad9, List.mem_cons, List.not_mem_nil, or_false] at this
          rcases this with rfl | rfl | rfl | rfl | rfl | rfl | rfl | rfl | rfl <;> exact digit_plain _
    simp only [pad2, pad4, List.mem_append, List.mem_cons, List.not_mem_nil, or_false] at hx
    have d := digit_plain
    have c1 : plain 45 ∧ (45 : UInt8).toNat < 0x80 := by unfold plain; decide
    have c2 : plain 84 ∧ (84 : UInt8).toNat < 0x80 := by unfold plain; decide
    have c3 : plain 58 ∧ (58 : UInt8).toNat < 0x80 := by unfold plain; decide
    rcases hx with ((((((((h | h | h | h) | h | h | h) | h | h | h) | h | h | h) | h | h | h) | h | h | h) | h) | h)
    · subst h; exact d _
    · subst h; exact d _
    · subst h; exact d _
    · subst h; exact d _
    · subst h; exact c1
    · subst h; exact d _
    · subst h; exact d _
    · subst h; exact c1
    · subst h; exact d _
    · subst h; exact d _
    · subst h; exact c2
    · subst h; exact d _
    · subst h; exact d _
    · subst h; exact c3
    · subst h; exact d _
    · subst h; exact d _
    · subst h; exact c3
    · subst h; exact d _
    · subst h; exact d _
    · exact hf _ _ h
    · exact hz _ h
  · exact absurd h (by simp)

/-! ## Integers -/

theorem ofNat_digitChar {d : Nat} (h : d < 10) : (Nat.digitChar d).toUInt8 = digit d := by
  rcases d with _ | _ | _ | _ | _ | _ | _ | _ | _ | _ | d <;> first | rfl | omega

/-- Decimal digits of a number as bytes. -/
def natLit (n : Nat) : Bytes := (Nat.toDigits 10 n).map Char.toUInt8

theorem natLit_step {n : Nat} (h : 10 ≤ n) : natLit n = natLit (n / 10) ++ [digit n] := by
  unfold natLit
  rw [Nat.toDigits_of_base_le (by decide) h, List.map_append, List.map_cons, List.map_nil, ofNat_digitChar (by omega)]
  have : digit (n % 10) = digit n := by unfold digit; rw [Nat.mod_mod]
  rw [this]

theorem natLit_small {n : Nat} (h : n < 10) : natLit n = [digit n] := by
  unfold natLit
  rw [Nat.toDigits_of_lt_base h, List.map_cons, List.map_nil, ofNat_digitChar h]

theorem natLit_digits (n : Nat) : ∀ b ∈ natLit n, (digitOf b).isSome = true := by
  induction n using Nat.strongRecOn with
  | _ n ih =>
    by_cases h : n < 10
    · rw [natLit_small h]; intro b hb; rw [List.mem_singleton] at hb; subst hb; rw [digitOf_digit]; rfl
    · rw [natLit_step (by omega)]
      intro b hb
      rw [List.mem_append, List.mem_singleton] at hb
      rcases hb with hb | hb
      · exact ih (n / 10) (by omega) b hb
      · subst hb; rw [digitOf_digit]; rfl

/-- The value of a list of digits. -/
def digitsVal (ds : Bytes) : Nat := ds.foldl (fun n d => n * 10 + (digitOf d).getD 0) 0

theorem digitsVal_natLit (n : Nat) : digitsVal (natLit n) = n := by
  unfold digitsVal
  induction n using Nat.strongRecOn with
  | _ n ih =>
    by_cases h : n < 10
    · rw [natLit_small h]; simp only [List.foldl_cons, List.foldl_nil, digitOf_digit, Option.getD_some]; omega
    · rw [natLit_step (by omega), List.foldl_append, ih (n / 10) (by omega)]
      simp only [List.foldl_cons, List.foldl_nil, digitOf_digit, Option.getD_some]; omega

/-- The first digit is 0 only for the number 0. -/
theorem natLit_head (n : Nat) : ∃ d t, natLit n = d :: t ∧ (digitOf d).isSome = true ∧ (d = 48 → t = []) := by
  induction n using Nat.strongRecOn with
  | _ n ih =>
    by_cases h : n < 10
    · exact ⟨digit n, [], natLit_small h, by rw [digitOf_digit]; rfl, fun _ => rfl⟩
    · obtain ⟨d, t, ht, hd, h0⟩ := ih (n / 10) (by omega)
      refine ⟨d, t ++ [digit n], by rw [natLit_step (by omega), ht]; rfl, hd, ?_⟩
      intro e
      have := h0 e
      subst this
      exfalso
      have hv := digitsVal_natLit (n / 10)
      rw [ht, e] at hv
      have : digitsVal [48] = 0 := by decide
      omega

theorem spanDigits_all {l r : Bytes} (hl : ∀ x ∈ l, (digitOf x).isSome = true) (hr : ∀ x, r.head? = some x → digitOf x = none) :
    spanDigits (l ++ r) = (l, r) := by
  have := takeWhile_all (p := fun x => (digitOf x).isSome) (l := l) (r := r) hl (by intro x hx; simp [hr x hx])
  unfold spanDigits
  rw [this.1, this.2]

theorem numEnd_facts {r : Bytes} (hr : numEnd r) : (∀ x, r.head? = some x → digitOf x = none ∧ x ≠ 46 ∧ x ≠ 101 ∧ x ≠ 69) := by
  intro x hx
  rcases hr x hx with rfl | rfl | rfl <;> decide

theorem pInt_natLit (n : Nat) {r : Bytes} (hr : numEnd r) : pInt (natLit n ++ r) = some (natLit n, r) := by
  obtain ⟨d, t, ht, hd, h0⟩ := natLit_head n
  have hs := spanDigits_all (natLit_digits n) (fun x hx => (numEnd_facts hr x hx).1)
  rw [ht] at hs ⊢
  unfold pInt
  rw [List.cons_append] at hs ⊢
  simp only
  split
  · next e => rw [h0 e, e]; rfl
  · rw [hs]

theorem pFrac_end {r : Bytes} (hr : numEnd r) : pFrac r = some ([], r) := by
  cases r with
  | nil => rfl
  | cons c r => unfold pFrac; simp only; rw [if_neg (numEnd_facts hr c rfl).2.1]

theorem pExp_end {r : Bytes} (hr : numEnd r) : pExp r = some ([], r) := by
  cases r with
  | nil => rfl
  | cons c r =>
    unfold pExp; simp only
    have := numEnd_facts hr c rfl
    rw [if_neg (by intro h; rcases h with h | h; exact this.2.2.1 h; exact this.2.2.2 h)]

theorem digit_range {d : UInt8} (h : (digitOf d).isSome = true) : 48 ≤ d.toNat ∧ d.toNat < 58 := by
  unfold digitOf at h
  split at h
  · assumption
  · exact absurd h (by simp)

theorem ne_of_digit {d c : UInt8} (h : (digitOf d).isSome = true) (hc : ¬ (48 ≤ c.toNat ∧ c.toNat < 58)) : d ≠ c := by
  intro e; subst e; exact hc (digit_range h)

theorem intLit_eq (i : Int) : intLit i = (if i < 0 then [45] else []) ++ natLit i.natAbs := rfl

theorem okNum_intLit (i : Int) : okNum (intLit i) := by
  rw [intLit_eq]
  obtain ⟨d, t, ht, hd, h0⟩ := natLit_head i.natAbs
  constructor
  · intro r hr
    by_cases hi : i < 0
    · rw [if_pos hi]
      unfold pNum
      have hm : pMinus ([45] ++ natLit i.natAbs ++ r) = ([45], natLit i.natAbs ++ r) := rfl
      rw [hm]
      simp only
      rw [pInt_natLit _ hr, Option.bind_some, pFrac_end hr, Option.bind_some, pExp_end hr]
      simp
    · rw [if_neg hi]
      unfold pNum
      have hm : pMinus ([] ++ natLit i.natAbs ++ r) = ([], natLit i.natAbs ++ r) := by
        rw [List.nil_append, ht, List.cons_append]
        unfold pMinus
        simp only
        rw [if_neg (ne_of_digit hd (by decide))]
      rw [hm]
      simp only
      rw [pInt_natLit _ hr, Option.bind_some, pFrac_end hr, Option.bind_some, pExp_end hr]
      simp
  · by_cases hi : i < 0
    · rw [if_pos hi]
      exact ⟨45, natLit i.natAbs, rfl, by decide, by decide, by decide, by decide, by decide, by decide, by decide, by decide, by decide⟩
    · rw [if_neg hi, ht]
      refine ⟨d, t, rfl, ?_, ?_, ?_, ?_, ?_, ?_, ?_, ?_, ?_⟩
      · have := digit_range hd
        unfold isWs
        simp only [Bool.or_eq_false_iff, beq_eq_false_iff_ne]
        refine ⟨⟨⟨?_, ?_⟩, ?_⟩, ?_⟩ <;> exact ne_of_digit hd (by decide)
      all_goals exact ne_of_digit hd (by decide)

/-- A written integer is read back. -/
theorem storeInt_intLit {lo hi : Int} (cur i : Int) (h1 : lo ≤ i) (h2 : i ≤ hi) (h0 : lo = 0 → 0 ≤ i) : storeInt lo hi cur (.num (intLit i)) = some i := by
  rw [intLit_eq]
  unfold storeInt
  simp only
  have hall : (natLit i.natAbs).all (fun d => (digitOf d).isSome) = true := List.all_eq_true.mpr (natLit_digits _)
  have hv := digitsVal_natLit i.natAbs
  unfold digitsVal at hv
  by_cases hi : i < 0
  · rw [if_pos hi]
    have hn : ([45] ++ natLit i.natAbs).head? = some 45 := rfl
    have hd : ([45] ++ natLit i.natAbs).drop 1 = natLit i.natAbs := rfl
    rw [hn, hd]
    simp only [beq_self_eq_true, if_true, hv]
    rw [hall, if_pos (by have : lo ≠ 0 := fun e => absurd (h0 e) (by omega)
                         simp [this]), if_pos (by omega)]
    congr 1; omega
  · rw [if_neg hi]
    obtain ⟨d, t, ht, hd, _⟩ := natLit_head i.natAbs
    have hn : (([] : Bytes) ++ natLit i.natAbs).head? ≠ some 45 := by
      rw [List.nil_append, ht]
      simp only [List.head?_cons, ne_eq, Option.some.injEq]
      exact ne_of_digit hd (by decide)
    have hnb : ((([] : Bytes) ++ natLit i.natAbs).head? == some 45) = false := by simpa using hn
    rw [hnb]
    simp only [List.nil_append, Bool.false_eq_true, if_false, hv]
    rw [hall, if_pos (by simp), if_pos (by omega)]
    congr 1; omega

/-- Foldings of struct members. -/
theorem foldMembers_append {α : Type} (f : α → Bytes × J → Option α) (l m : List (Bytes × J)) (a : α) :
    foldMembers f (l ++ m) a = (foldMembers f l a).bind (foldMembers f m) := by
  induction l generalizing a with
  | nil => rfl
  | cons x l ih =>
    rw [List.cons_append, foldMembers, foldMembers]
    cases f a x with
    | none => rfl
    | some b => rw [Option.bind_some, Option.bind_some, ih]

end TcpInfo
