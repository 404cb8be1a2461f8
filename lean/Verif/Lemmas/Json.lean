import Verif.Model.Json
import Verif.Lemmas.Text
/-!
# Lemmas about JSON text
-/

namespace TcpInfo

/-! ## Appending to the input does not change what has been parsed -/

theorem next_append {b : Bytes} {c : UInt8} {r : Bytes} (h : next b = some (c, r)) (q : Bytes) : next (b ++ q) = some (c, r ++ q) := by
  induction b with
  | nil => simp [next] at h
  | cons x b ih =>
    rw [List.cons_append]
    unfold next at h ⊢
    split at h
    · next hw => rw [if_pos hw]; exact ih h
    · next hw => rw [if_neg hw]; cases h; rfl

theorem next_cons {c : UInt8} (r : Bytes) (h : isWs c = false) : next (c :: r) = some (c, r) := by
  unfold next; rw [if_neg (by simp [h])]

theorem pStr_append (b : Bytes) : ∀ k r, pStr b = some (k, r) → ∀ q, pStr (b ++ q) = some (k, r ++ q) := by
  fun_induction pStr b with
  | case1 => intro k r h; exact absurd h (by simp)
  | case2 r => intro k r' h q; cases h; rw [List.cons_append, pStr.eq_def]; simp
  | case3 => intro k r h; exact absurd h (by simp)
  | case4 h1 h2 h3 h4 rest hh hhex ih =>
    intro k r h q
    simp only [Option.map_eq_some_iff] at h
    obtain ⟨p, hp, he⟩ := h
    cases he
    have := ih p.1 p.2 hp q
    simp only [List.cons_append, pStr]
    simp_all
  | case5 => intro k r h; exact absurd h (by simp)
  | case6 => intro k r h; exact absurd h (by simp)
  | case7 e rest hh h1 h2 ih =>
    intro k r h q
    simp only [Option.map_eq_some_iff] at h
    obtain ⟨p, hp, he⟩ := h
    cases he
    have := ih p.1 p.2 hp q
    simp only [List.cons_append]
    rw [pStr.eq_def]
    simp_all
  | case8 => intro k r h; exact absurd h (by simp)
  | case9 => intro k r h; exact absurd h (by simp)
  | case10 c rest h1 h2 h3 ih =>
    intro k r h q
    simp only [Option.map_eq_some_iff] at h
    obtain ⟨p, hp, he⟩ := h
    cases he
    have := ih p.1 p.2 hp q
    simp only [List.cons_append]
    rw [pStr.eq_def]
    simp_all

theorem pLit_append {w : Bytes} {j : J} {b : Bytes} {v : J} {r : Bytes} (h : pLit w j b = some (v, r)) (q : Bytes) :
    pLit w j (b ++ q) = some (v, r ++ q) := by
  unfold pLit at *
  split at h
  · next ht =>
    cases h
    have hl : w.length ≤ b.length := by
      have := congrArg List.length ht
      rw [List.length_take] at this; omega
    rw [List.take_append_of_le_length hl, if_pos ht, List.drop_append_of_le_length hl]
  · exact absurd h (by simp)

theorem spanDigits_append {b : Bytes} (h : (spanDigits b).2 ≠ []) (q : Bytes) :
    spanDigits (b ++ q) = ((spanDigits b).1, (spanDigits b).2 ++ q) := by
  unfold spanDigits at *
  induction b with
  | nil => simp at h
  | cons x b ih =>
    rw [List.cons_append]
    simp only [List.takeWhile_cons, List.dropWhile_cons] at h ⊢
    by_cases hx : (digitOf x).isSome = true
    · rw [if_pos hx] at h
      have := ih h
      simp only [Prod.mk.injEq] at this
      simp [hx, this.1, this.2]
    · simp [hx]

theorem pInt_append {b : Bytes} {x r : Bytes} (h : pInt b = some (x, r)) (hr : r ≠ []) (q : Bytes) : pInt (b ++ q) = some (x, r ++ q) := by
  cases b with
  | nil => simp [pInt] at h
  | cons d b =>
    simp only [pInt, List.cons_append] at h ⊢
    split at h
    · next hd => cases h; rw [if_pos hd]
    · next hd =>
      rw [if_neg hd]
      split at h
      · next hs =>
        rw [if_pos hs]
        simp only [Option.some.injEq] at h
        have := spanDigits_append (b := d :: b) (by rw [h]; exact hr) q
        rw [List.cons_append] at this
        rw [this, h]
      · exact absurd h (by simp)

theorem pFrac_append {b : Bytes} {x r : Bytes} (h : pFrac b = some (x, r)) (hr : r ≠ []) (q : Bytes) : pFrac (b ++ q) = some (x, r ++ q) := by
  cases b with
  | nil => simp only [pFrac, Option.some.injEq, Prod.mk.injEq] at h; exact absurd h.2.symm hr
  | cons d b =>
    simp only [pFrac, List.cons_append] at h ⊢
    split at h
    · next hd =>
      rw [if_pos hd]
      split at h
      · exact absurd h (by simp)
      · next hs =>
        cases h
        have := spanDigits_append (b := b) hr q
        rw [this, if_neg hs]
    · next hd => rw [if_neg hd]; cases h; rfl

theorem pSign_append {b : Bytes} (h : (pSign b).2 ≠ []) (q : Bytes) : pSign (b ++ q) = ((pSign b).1, (pSign b).2 ++ q) := by
  cases b with
  | nil => simp [pSign] at h
  | cons d b =>
    simp only [pSign, List.cons_append]
    split <;> rfl

theorem spanDigits_ne_nil {b : Bytes} (h : (spanDigits b).1 ≠ []) : b ≠ [] := by
  intro e; subst e; exact h rfl

theorem pExp_append {b : Bytes} {x r : Bytes} (h : pExp b = some (x, r)) (hr : r ≠ []) (q : Bytes) : pExp (b ++ q) = some (x, r ++ q) := by
  cases b with
  | nil => simp only [pExp, Option.some.injEq, Prod.mk.injEq] at h; exact absurd h.2.symm hr
  | cons d b =>
    simp only [pExp, List.cons_append] at h ⊢
    split at h
    · next hd =>
      rw [if_pos hd]
      split at h
      · exact absurd h (by simp)
      · next hs =>
        cases h
        have h1 := pSign_append (b := b) (spanDigits_ne_nil hs) q
        rw [h1]
        simp only
        have := spanDigits_append (b := (pSign b).2) hr q
        rw [this, if_neg hs]
    · next hd => rw [if_neg hd]; cases h; rfl

theorem pInt_ne_nil {b x r : Bytes} (h : pInt b = some (x, r)) : b ≠ [] := by
  intro e; subst e; simp [pInt] at h

theorem pMinus_append {b : Bytes} (h : (pMinus b).2 ≠ []) (q : Bytes) : pMinus (b ++ q) = ((pMinus b).1, (pMinus b).2 ++ q) := by
  cases b with
  | nil => simp [pMinus] at h
  | cons d b =>
    simp only [pMinus, List.cons_append]
    split <;> rfl

theorem pFrac_rest {b x r : Bytes} (h : pFrac b = some (x, r)) (hr : r ≠ []) : b ≠ [] := by
  intro e; subst e; simp only [pFrac, Option.some.injEq, Prod.mk.injEq] at h; exact hr h.2.symm

theorem pExp_rest {b x r : Bytes} (h : pExp b = some (x, r)) (hr : r ≠ []) : b ≠ [] := by
  intro e; subst e; simp only [pExp, Option.some.injEq, Prod.mk.injEq] at h; exact hr h.2.symm

theorem pNum_append {b x r : Bytes} (h : pNum b = some (x, r)) (hr : r ≠ []) (q : Bytes) : pNum (b ++ q) = some (x, r ++ q) := by
  unfold pNum at *
  simp only [Option.bind_eq_some_iff, Option.map_eq_some_iff] at h ⊢
  obtain ⟨i, hi, f, hf, e, he, heq⟩ := h
  cases heq
  have hf2 := pExp_rest he hr
  have hi2 := pFrac_rest hf hf2
  have hm := pInt_ne_nil hi
  rw [pMinus_append hm]
  exact ⟨(i.1, i.2 ++ q), pInt_append hi hi2 q, (f.1, f.2 ++ q), pFrac_append hf hf2 q, (e.1, e.2 ++ q), pExp_append he hr q, rfl⟩

/-- Bare numbers can be continued by what follows; nothing else can. -/
def J.isNum : J → Bool
  | .num _ => true
  | _ => false

theorem pValue_append_all (f : Nat) :
    (∀ b v r, pValue f b = some (v, r) → (r ≠ [] ∨ v.isNum = false) → ∀ q, pValue f (b ++ q) = some (v, r ++ q)) ∧
    (∀ b v r, pElems f b = some (v, r) → ∀ q, pElems f (b ++ q) = some (v, r ++ q)) ∧
    (∀ b v r, pMembers f b = some (v, r) → ∀ q, pMembers f (b ++ q) = some (v, r ++ q)) := by
  induction f with
  | zero => simp [pValue, pElems, pMembers]
  | succ f ih =>
    obtain ⟨ihv, ihe, ihm⟩ := ih
    refine ⟨?_, ?_, ?_⟩
    · intro b v r h hr q
      rw [pValue, Option.bind_eq_some_iff] at h
      obtain ⟨⟨c, rest⟩, hn, h⟩ := h
      rw [pValue, next_append hn q, Option.bind_some]
      simp only at h ⊢
      split at h
      · next h1 =>
        rw [if_pos h1]
        rw [Option.bind_eq_some_iff] at h
        obtain ⟨⟨d, r'⟩, hn2, h⟩ := h
        rw [next_append hn2 q, Option.bind_some]
        simp only at h ⊢
        split at h
        · next h2 => rw [if_pos h2]; cases h; rfl
        · next h2 =>
          rw [if_neg h2]
          rw [Option.map_eq_some_iff] at h ⊢
          obtain ⟨p, hp, he⟩ := h
          cases he
          exact ⟨_, ihm _ _ _ hp q, rfl⟩
      · next h1 =>
        rw [if_neg h1]
        split at h
        · next h1 =>
          rw [if_pos h1]
          rw [Option.bind_eq_some_iff] at h
          obtain ⟨⟨d, r'⟩, hn2, h⟩ := h
          rw [next_append hn2 q, Option.bind_some]
          simp only at h ⊢
          split at h
          · next h2 => rw [if_pos h2]; cases h; rfl
          · next h2 =>
            rw [if_neg h2]
            rw [Option.map_eq_some_iff] at h ⊢
            obtain ⟨p, hp, he⟩ := h
            cases he
            exact ⟨_, ihe _ _ _ hp q, rfl⟩
        · next h1 =>
          rw [if_neg h1]
          split at h
          · next h1 =>
            rw [if_pos h1]
            rw [Option.map_eq_some_iff] at h ⊢
            obtain ⟨p, hp, he⟩ := h
            cases he
            exact ⟨_, pStr_append _ _ _ hp q, rfl⟩
          · next h1 =>
            rw [if_neg h1]
            split at h
            · next h1 => rw [if_pos h1]; exact pLit_append h q
            · next h1 =>
              rw [if_neg h1]
              split at h
              · next h1 => rw [if_pos h1]; exact pLit_append h q
              · next h1 =>
                rw [if_neg h1]
                split at h
                · next h1 => rw [if_pos h1]; exact pLit_append h q
                · next h1 =>
                  rw [if_neg h1]
                  rw [Option.map_eq_some_iff] at h ⊢
                  obtain ⟨p, hp, he⟩ := h
                  cases he
                  have hne : p.2 ≠ [] := by
                    rcases hr with hr | hr
                    · exact hr
                    · exact absurd hr (by simp [J.isNum])
                  have := pNum_append hp hne q
                  rw [List.cons_append] at this
                  exact ⟨_, this, rfl⟩
    · intro b v r h q
      rw [pElems, Option.bind_eq_some_iff] at h
      obtain ⟨⟨v1, r1⟩, hv, h⟩ := h
      simp only at h
      rw [Option.bind_eq_some_iff] at h
      obtain ⟨⟨c, r2⟩, hn, h⟩ := h
      have hne : r1 ≠ [] := by intro e; subst e; simp [next] at hn
      rw [pElems, ihv _ _ _ hv (Or.inl hne) q, Option.bind_some]
      simp only
      rw [next_append hn q, Option.bind_some]
      simp only at h ⊢
      split at h
      · next h1 =>
        rw [if_pos h1]
        rw [Option.map_eq_some_iff] at h ⊢
        obtain ⟨p, hp, he⟩ := h
        cases he
        exact ⟨_, ihe _ _ _ hp q, rfl⟩
      · next h1 =>
        rw [if_neg h1]
        split at h
        · next h2 => rw [if_pos h2]; cases h; rfl
        · exact absurd h (by simp)
    · intro b v r h q
      rw [pMembers, Option.bind_eq_some_iff] at h
      obtain ⟨⟨c0, r0⟩, hn0, h⟩ := h
      rw [pMembers, next_append hn0 q, Option.bind_some]
      simp only at h ⊢
      split at h
      · next h0 =>
        rw [if_pos h0]
        rw [Option.bind_eq_some_iff] at h
        obtain ⟨⟨k, rk⟩, hk, h⟩ := h
        rw [pStr_append _ _ _ hk q, Option.bind_some]
        simp only at h ⊢
        rw [Option.bind_eq_some_iff] at h
        obtain ⟨⟨c1, r1⟩, hn1, h⟩ := h
        rw [next_append hn1 q, Option.bind_some]
        simp only at h ⊢
        split at h
        · next h1 =>
          rw [if_pos h1]
          rw [Option.bind_eq_some_iff] at h
          obtain ⟨⟨v1, r2⟩, hv, h⟩ := h
          simp only at h
          rw [Option.bind_eq_some_iff] at h
          obtain ⟨⟨c, r3⟩, hn, h⟩ := h
          have hne : r2 ≠ [] := by intro e; subst e; simp [next] at hn
          rw [ihv _ _ _ hv (Or.inl hne) q, Option.bind_some]
          simp only
          rw [next_append hn q, Option.bind_some]
          simp only at h ⊢
          split at h
          · next h1 =>
            rw [if_pos h1]
            rw [Option.map_eq_some_iff] at h ⊢
            obtain ⟨p, hp, he⟩ := h
            cases he
            exact ⟨_, ihm _ _ _ hp q, rfl⟩
          · next h1 =>
            rw [if_neg h1]
            split at h
            · next h2 => rw [if_pos h2]; cases h; rfl
            · exact absurd h (by simp)
        · exact absurd h (by simp)
      · exact absurd h (by simp)

/-! ## More fuel does not change the result -/

theorem pValue_fuel_all (f : Nat) :
    (∀ b x, pValue f b = some x → pValue (f + 1) b = some x) ∧
    (∀ b x, pElems f b = some x → pElems (f + 1) b = some x) ∧
    (∀ b x, pMembers f b = some x → pMembers (f + 1) b = some x) := by
  induction f with
  | zero => simp [pValue, pElems, pMembers]
  | succ f ih =>
    obtain ⟨ihv, ihe, ihm⟩ := ih
    refine ⟨?_, ?_, ?_⟩
    · intro b x h
      rw [pValue, Option.bind_eq_some_iff] at h ⊢
      obtain ⟨⟨c, rest⟩, hn, h⟩ := h
      refine ⟨_, hn, ?_⟩
      simp only at h ⊢
      split at h
      · next h1 =>
        rw [if_pos h1]
        rw [Option.bind_eq_some_iff] at h ⊢
        obtain ⟨⟨d, r'⟩, hn2, h⟩ := h
        refine ⟨_, hn2, ?_⟩
        simp only at h ⊢
        split at h
        · next h2 => rw [if_pos h2]; exact h
        · next h2 =>
          rw [if_neg h2]
          rw [Option.map_eq_some_iff] at h ⊢
          obtain ⟨p, hp, he⟩ := h
          exact ⟨_, ihm _ _ hp, he⟩
      · next h1 =>
        rw [if_neg h1]
        split at h
        · next h1 =>
          rw [if_pos h1]
          rw [Option.bind_eq_some_iff] at h ⊢
          obtain ⟨⟨d, r'⟩, hn2, h⟩ := h
          refine ⟨_, hn2, ?_⟩
          simp only at h ⊢
          split at h
          · next h2 => rw [if_pos h2]; exact h
          · next h2 =>
            rw [if_neg h2]
            rw [Option.map_eq_some_iff] at h ⊢
            obtain ⟨p, hp, he⟩ := h
            exact ⟨_, ihe _ _ hp, he⟩
        · next h1 => rw [if_neg h1]; exact h
    · intro b x h
      rw [pElems, Option.bind_eq_some_iff] at h ⊢
      obtain ⟨⟨v1, r1⟩, hv, h⟩ := h
      refine ⟨_, ihv _ _ hv, ?_⟩
      simp only at h ⊢
      rw [Option.bind_eq_some_iff] at h ⊢
      obtain ⟨⟨c, r2⟩, hn, h⟩ := h
      refine ⟨_, hn, ?_⟩
      simp only at h ⊢
      split at h
      · next h1 =>
        rw [if_pos h1]
        rw [Option.map_eq_some_iff] at h ⊢
        obtain ⟨p, hp, he⟩ := h
        exact ⟨_, ihe _ _ hp, he⟩
      · next h1 => rw [if_neg h1]; exact h
    · intro b x h
      rw [pMembers, Option.bind_eq_some_iff] at h ⊢
      obtain ⟨⟨c0, r0⟩, hn0, h⟩ := h
      refine ⟨_, hn0, ?_⟩
      simp only at h ⊢
      split at h
      · next h0 =>
        rw [if_pos h0]
        rw [Option.bind_eq_some_iff] at h ⊢
        obtain ⟨⟨k, rk⟩, hk, h⟩ := h
        refine ⟨_, hk, ?_⟩
        simp only at h ⊢
        rw [Option.bind_eq_some_iff] at h ⊢
        obtain ⟨⟨c1, r1⟩, hn1, h⟩ := h
        refine ⟨_, hn1, ?_⟩
        simp only at h ⊢
        split at h
        · next h1 =>
          rw [if_pos h1]
          rw [Option.bind_eq_some_iff] at h ⊢
          obtain ⟨⟨v1, r2⟩, hv, h⟩ := h
          refine ⟨_, ihv _ _ hv, ?_⟩
          simp only at h ⊢
          rw [Option.bind_eq_some_iff] at h ⊢
          obtain ⟨⟨c, r3⟩, hn, h⟩ := h
          refine ⟨_, hn, ?_⟩
          simp only at h ⊢
          split at h
          · next h1 =>
            rw [if_pos h1]
            rw [Option.map_eq_some_iff] at h ⊢
            obtain ⟨p, hp, he⟩ := h
            exact ⟨_, ihm _ _ hp, he⟩
          · next h1 => rw [if_neg h1]; exact h
        · exact absurd h (by simp)
      · exact absurd h (by simp)

theorem pValue_fuel {f g : Nat} (h : f ≤ g) {b : Bytes} {x : J × Bytes} (hx : pValue f b = some x) : pValue g b = some x := by
  induction g with
  | zero => have : f = 0 := by omega
            subst this; exact hx
  | succ g ih =>
    by_cases e : f = g + 1
    · subst e; exact hx
    · exact (pValue_fuel_all g).1 _ _ (ih (by omega))

/-! ## What is written can be parsed -/

/-- A text that can stand between quotes. -/
def okStr (raw : Bytes) : Prop := ∀ r, pStr (raw ++ 34 :: r) = some (raw, r)

/-- What may follow a number in a compact document. -/
def numEnd (r : Bytes) : Prop := ∀ c, r.head? = some c → c = 44 ∨ c = 93 ∨ c = 125

/-- A number that is recognised in front of a separator or at the end. -/
def okNum (lit : Bytes) : Prop :=
  (∀ r, numEnd r → pNum (lit ++ r) = some (lit, r)) ∧
  ∃ c t, lit = c :: t ∧ isWs c = false ∧ c ≠ 123 ∧ c ≠ 91 ∧ c ≠ 34 ∧ c ≠ 116 ∧ c ≠ 102 ∧ c ≠ 110 ∧ c ≠ 93 ∧ c ≠ 125

mutual
/-- Strings and numbers of the tree are written as JSON requires. -/
def J.ok : J → Prop
  | .null => True
  | .bool _ => True
  | .num lit => okNum lit
  | .str raw => okStr raw
  | .arr l => J.okElems l
  | .obj l => J.okMembers l
def J.okElems : List J → Prop
  | [] => True
  | j :: js => j.ok ∧ J.okElems js
def J.okMembers : List (Bytes × J) → Prop
  | [] => True
  | (k, j) :: js => okStr k ∧ j.ok ∧ J.okMembers js
end

theorem encElems_cons (j : J) (js : List J) :
    J.encElems (j :: js) = J.enc j ++ (match js with | [] => [] | _ :: _ => 44 :: J.encElems js) := by
  cases js <;> rw [J.encElems.eq_def]
theorem encMembers_cons (k : Bytes) (j : J) (js : List (Bytes × J)) :
    J.encMembers ((k, j) :: js) = 34 :: (k ++ 34 :: 58 :: (J.enc j ++ (match js with | [] => [] | _ :: _ => 44 :: J.encMembers js))) := by
  cases js <;> rw [J.encMembers.eq_def]

/-- The first byte of a value is neither white space nor a closing bracket. -/
theorem enc_head (j : J) (h : j.ok) : ∃ c t, j.enc = c :: t ∧ isWs c = false ∧ c ≠ 93 ∧ c ≠ 125 := by
  cases j with
  | null => exact ⟨110, asc "ull", by decide +kernel, by decide, by decide, by decide⟩
  | bool b =>
    cases b
    · exact ⟨102, asc "alse", by decide +kernel, by decide, by decide, by decide⟩
    · exact ⟨116, asc "rue", by decide +kernel, by decide, by decide, by decide⟩
  | num lit =>
    simp only [J.ok] at h
    obtain ⟨c, t, he, hw, _, _, _, _, _, _, h1, h2⟩ := h.2
    exact ⟨c, t, by rw [J.enc, he], hw, h1, h2⟩
  | str raw => exact ⟨34, raw ++ [34], by rw [J.enc], by decide, by decide, by decide⟩
  | arr l => exact ⟨91, _, by rw [J.enc], by decide, by decide, by decide⟩
  | obj l => exact ⟨123, _, by rw [J.enc], by decide, by decide, by decide⟩

theorem pLit_append_self (w r : Bytes) (j : J) : pLit w j (w ++ r) = some (j, r) := by
  unfold pLit
  rw [List.take_left, if_pos rfl, List.drop_left]

mutual
theorem pValue_enc (j : J) (hj : j.ok) (f : Nat) (hf : j.enc.length ≤ f) (r : Bytes) (hr : numEnd r) : pValue f (j.enc ++ r) = some (j, r) := by
  match j, hj with
  | .null, _ =>
    cases f with
    | zero => exact absurd hf (by decide +kernel)
    | succ f =>
      rw [pValue, show J.enc .null = 110 :: asc "ull" by decide +kernel, List.cons_append, next_cons _ (by decide), Option.bind_some]
      simp only
      rw [if_neg (by decide), if_neg (by decide), if_neg (by decide), if_neg (by decide), if_neg (by decide), if_pos trivial, pLit_append_self]
  | .bool b, _ =>
    cases f with
    | zero => cases b <;> exact absurd hf (by decide +kernel)
    | succ f =>
      cases b
      · rw [pValue, show J.enc (.bool false) = 102 :: asc "alse" by decide +kernel, List.cons_append, next_cons _ (by decide), Option.bind_some]
        simp only
        rw [if_neg (by decide), if_neg (by decide), if_neg (by decide), if_neg (by decide), if_pos trivial, pLit_append_self]
      · rw [pValue, show J.enc (.bool true) = 116 :: asc "rue" by decide +kernel, List.cons_append, next_cons _ (by decide), Option.bind_some]
        simp only
        rw [if_neg (by decide), if_neg (by decide), if_neg (by decide), if_pos trivial, pLit_append_self]
  | .num lit, hj =>
    simp only [J.ok] at hj
    obtain ⟨h1, c, t, he, hw, a1, a2, a3, a4, a5, a6, _, _⟩ := hj
    have hp := h1 r hr
    rw [J.enc] at hf ⊢
    subst he
    cases f with
    | zero => exact absurd hf (by simp)
    | succ f =>
      rw [pValue, List.cons_append, next_cons _ hw, Option.bind_some]
      simp only
      rw [if_neg a1, if_neg a2, if_neg a3, if_neg a4, if_neg a5, if_neg a6]
      rw [List.cons_append] at hp
      rw [hp]; rfl
  | .str raw, hj =>
    simp only [J.ok] at hj
    rw [J.enc] at hf ⊢
    cases f with
    | zero => exact absurd hf (by simp)
    | succ f =>
      rw [pValue, List.cons_append, next_cons _ (by decide), Option.bind_some]
      simp only
      rw [if_neg (by decide), if_neg (by decide), if_pos trivial, List.append_assoc, List.cons_append, List.nil_append, hj r]
      rfl
  | .arr l, hj =>
    simp only [J.ok] at hj
    rw [J.enc] at hf ⊢
    cases f with
    | zero => exact absurd hf (by simp)
    | succ f =>
      rw [pValue, List.cons_append, next_cons _ (by decide), Option.bind_some]
      simp only
      rw [if_neg (by decide), if_pos trivial, List.append_assoc, List.cons_append, List.nil_append]
      cases l with
      | nil => rw [J.encElems, List.nil_append, next_cons _ (by decide), Option.bind_some]; rfl
      | cons j js =>
        have hh : ∃ c t, J.encElems (j :: js) = c :: t ∧ isWs c = false ∧ c ≠ 93 := by
          simp only [J.okElems] at hj
          obtain ⟨c, t, he, hw, h1, _⟩ := enc_head j hj.1
          rw [encElems_cons, he]; exact ⟨c, _, rfl, hw, h1⟩
        obtain ⟨c, t, he, hw, h1⟩ := hh
        have := pElems_enc (j :: js) (by simp) hj f (by simp only [List.length_cons, List.length_append, List.length_nil] at hf; omega) r
        rw [he] at this ⊢
        rw [List.cons_append, next_cons _ hw, Option.bind_some]
        simp only
        rw [if_neg h1]
        rw [List.cons_append] at this
        rw [this]; rfl
  | .obj l, hj =>
    simp only [J.ok] at hj
    rw [J.enc] at hf ⊢
    cases f with
    | zero => exact absurd hf (by simp)
    | succ f =>
      rw [pValue, List.cons_append, next_cons _ (by decide), Option.bind_some]
      simp only
      rw [if_pos trivial, List.append_assoc, List.cons_append, List.nil_append]
      match l, hj with
      | [], _ => rw [J.encMembers, List.nil_append, next_cons _ (by decide), Option.bind_some]; rfl
      | (k, j) :: js, hj =>
        have := pMembers_enc ((k, j) :: js) (by simp) hj f (by simp only [List.length_cons, List.length_append, List.length_nil] at hf; omega) r
        rw [encMembers_cons] at this ⊢
        rw [List.cons_append, next_cons _ (by decide), Option.bind_some]
        simp only
        rw [if_neg (by decide)]
        rw [List.cons_append] at this
        rw [this]; rfl
theorem pElems_enc (l : List J) (hne : l ≠ []) (hl : J.okElems l) (f : Nat) (hf : (J.encElems l).length + 1 ≤ f) (r : Bytes) :
    pElems f (J.encElems l ++ 93 :: r) = some (l, r) := by
  match l, hl with
  | [], _ => exact absurd rfl hne
  | j :: js, hl =>
    simp only [J.okElems] at hl
    cases f with
    | zero => omega
    | succ f =>
      rw [encElems_cons] at hf ⊢
      rw [List.length_append] at hf
      cases js with
      | nil =>
        rw [List.append_nil, pElems, pValue_enc j hl.1 f (by omega) _ (by intro c hc; simp at hc; simp [← hc]), Option.bind_some]
        simp only
        rw [next_cons _ (by decide), Option.bind_some]
        rfl
      | cons j2 js =>
        simp only [List.length_cons] at hf
        rw [List.append_assoc, List.cons_append, pElems, pValue_enc j hl.1 f (by omega) _ (by intro c hc; simp at hc; simp [← hc]), Option.bind_some]
        simp only
        rw [next_cons _ (by decide), Option.bind_some]
        simp only [if_true]
        rw [pElems_enc (j2 :: js) (by simp) hl.2 f (by omega) r]
        rfl
theorem pMembers_enc (l : List (Bytes × J)) (hne : l ≠ []) (hl : J.okMembers l) (f : Nat) (hf : (J.encMembers l).length + 1 ≤ f) (r : Bytes) :
    pMembers f (J.encMembers l ++ 125 :: r) = some (l, r) := by
  match l, hl with
  | [], _ => exact absurd rfl hne
  | (k, j) :: js, hl =>
    simp only [J.okMembers] at hl
    cases f with
    | zero => omega
    | succ f =>
      rw [encMembers_cons] at hf ⊢
      simp only [List.length_append, List.length_cons] at hf
      have hk := hl.1
      rw [pMembers, List.cons_append, next_cons _ (by decide), Option.bind_some]
      simp only [if_true]
      rw [List.append_assoc, List.cons_append, hk _, Option.bind_some]
      simp only
      rw [List.cons_append, next_cons _ (by decide), Option.bind_some]
      simp only [if_true]
      cases js with
      | nil =>
        rw [List.append_nil, pValue_enc j hl.2.1 f (by omega) _ (by intro c hc; simp at hc; simp [← hc]), Option.bind_some]
        simp only
        rw [next_cons _ (by decide), Option.bind_some]
        rfl
      | cons j2 js =>
        simp only [List.length_cons] at hf
        rw [List.append_assoc, List.cons_append, pValue_enc j hl.2.1 f (by omega) _ (by intro c hc; simp at hc; simp [← hc]), Option.bind_some]
        simp only
        rw [next_cons _ (by decide), Option.bind_some]
        simp only [if_true]
        rw [pMembers_enc (j2 :: js) (by simp) hl.2.2 f (by omega) r]
        rfl
end

theorem numEnd_nil : numEnd [] := by intro c h; simp at h

/-- A written document is parsed back. -/
theorem parseJson_enc (j : J) (hj : j.ok) : parseJson j.enc = some j := by
  unfold parseJson
  have := pValue_enc j hj (j.enc.length + 1) (by omega) [] numEnd_nil
  rw [List.append_nil] at this
  rw [this]
  rfl

/-- Cut off anywhere, the text of an object is not a document. -/
theorem parseJson_prefix (l : List (Bytes × J)) (hj : (J.obj l).ok) (p q : Bytes) (he : (J.obj l).enc = p ++ q) (hp : p ≠ []) (hq : q ≠ []) :
    parseJson p = none := by
  have hc : ∃ t, p = 123 :: t := by
    cases p with
    | nil => exact absurd rfl hp
    | cons c t =>
      rw [J.enc, List.cons_append] at he
      exact ⟨t, by rw [(List.cons.inj he).1]⟩
  obtain ⟨t, ht⟩ := hc
  unfold parseJson
  cases hv : pValue (p.length + 1) p with
  | none => rfl
  | some x =>
    obtain ⟨v, r⟩ := x
    have hn : v.isNum = false := by
      rw [ht, pValue, next_cons _ (by decide), Option.bind_some] at hv
      simp only [if_true] at hv
      rw [Option.bind_eq_some_iff] at hv
      obtain ⟨⟨d, r'⟩, _, hv⟩ := hv
      simp only at hv
      split at hv
      · cases hv; rfl
      · rw [Option.map_eq_some_iff] at hv
        obtain ⟨_, _, hv⟩ := hv
        cases hv; rfl
    have h1 := (pValue_append_all (p.length + 1)).1 p v r hv (Or.inr hn) q
    rw [← he] at h1
    have h2 := pValue_enc (.obj l) hj ((J.obj l).enc.length) (Nat.le_refl _) [] numEnd_nil
    rw [List.append_nil] at h2
    have hlen : p.length + 1 ≤ (J.obj l).enc.length := by
      rw [he, List.length_append]
      have : q.length ≠ 0 := fun h => hq (List.length_eq_zero_iff.mp h)
      omega
    rw [pValue_fuel hlen h1] at h2
    injection h2 with h2
    have := (Prod.mk.inj h2).2
    exact absurd (List.append_eq_nil_iff.mp this).2 hq

end TcpInfo
