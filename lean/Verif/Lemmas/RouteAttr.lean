import Verif.Lemmas.Bytes
import Verif.Model.Netlink
/-! Lemmas about the attribute parser. -/

namespace TcpInfo
open Spec

theorem rtaAlignOf_ge (n : Nat) : n ≤ rtaAlignOf n ∧ rtaAlignOf n < n + 4 ∧ rtaAlignOf n % 4 = 0 := by
  simp only [rtaAlignOf]; omega

theorem loop_short (fuel : Nat) (b tail : Bytes) (acc : List RouteAttr) (h : b.length < 4) :
    parseRouteAttrLoop (fuel + 1) b tail acc = some (.ok acc) := by
  simp [parseRouteAttrLoop, h]

/-- One iteration on a bad length. -/
theorem loop_bad (fuel : Nat) (b tail : Bytes) (acc : List RouteAttr) (h : 4 ≤ b.length)
    (hb : (u16At 0 b).toNat < 4 ∨ (u16At 0 b).toNat > b.length) :
    parseRouteAttrLoop (fuel + 1) b tail acc = some (.err .einval) := by
  have h4 : ¬ b.length < 4 := by omega
  simp only [parseRouteAttrLoop, h4, if_false, netlinkRouteAttrAndValue, if_pos hb]

theorem loop_overrun (fuel : Nat) (b tail : Bytes) (acc : List RouteAttr) (h : 4 ≤ b.length)
    (h1 : 4 ≤ (u16At 0 b).toNat) (h2 : (u16At 0 b).toNat ≤ b.length) (h3 : b.length < rtaAlignOf (u16At 0 b).toNat) :
    parseRouteAttrLoop (fuel + 1) b tail acc = some .panic := by
  have h4 : ¬ b.length < 4 := by omega
  have hb : ¬ ((u16At 0 b).toNat < 4 ∨ (u16At 0 b).toNat > b.length) := by omega
  simp only [parseRouteAttrLoop, h4, if_false, netlinkRouteAttrAndValue, if_neg hb, gt_iff_lt, h3, if_true]

theorem loop_step (fuel : Nat) (b tail : Bytes) (acc : List RouteAttr) (h : 4 ≤ b.length)
    (h1 : 4 ≤ (u16At 0 b).toNat) (h3 : rtaAlignOf (u16At 0 b).toNat ≤ b.length) :
    parseRouteAttrLoop (fuel + 1) b tail acc =
      parseRouteAttrLoop fuel (b.drop (rtaAlignOf (u16At 0 b).toNat)) tail
        (acc ++ [{ type := u16At 2 b, value := { val := (b.drop 4).take ((u16At 0 b).toNat - 4),
                                                 spare := (b.drop 4).drop ((u16At 0 b).toNat - 4) ++ tail } }]) := by
  have h4 : ¬ b.length < 4 := by omega
  have hg := rtaAlignOf_ge (u16At 0 b).toNat
  have hb : ¬ ((u16At 0 b).toNat < 4 ∨ (u16At 0 b).toNat > b.length) := by omega
  have h3' : ¬ (b.length < rtaAlignOf (u16At 0 b).toNat) := by omega
  simp only [parseRouteAttrLoop, h4, if_false, netlinkRouteAttrAndValue, if_neg hb, gt_iff_lt, h3']

/-- What the parser returns for encoded attributes; the spare bytes are everything behind the value. -/
def outAttrs (rest : Bytes) : List (Attr × Bytes) → List RouteAttr
  | [] => []
  | (a, pad) :: l => { type := a.type, value := { val := a.value, spare := pad ++ (attrsWire l ++ rest) } } :: outAttrs rest l

/-- An attribute as the netlink rules allow it: 16-bit length, minimal padding. -/
def GoodAttr (p : Attr × Bytes) : Prop := p.1.value.length ≤ 65531 ∧ GoodPad p.1 p.2

theorem loop_block (fuel : Nat) (a : Attr) (pad rest tail : Bytes) (acc : List RouteAttr) (hg : GoodAttr (a, pad)) :
    parseRouteAttrLoop (fuel + 1) (a.block pad ++ rest) tail acc =
      parseRouteAttrLoop fuel rest tail
        (acc ++ [{ type := a.type, value := { val := a.value, spare := pad ++ (rest ++ tail) } }]) := by
  obtain ⟨hlen, hpad, hmod⟩ := hg
  simp only at hlen hpad hmod
  have e0 : (u16At 0 (a.block pad ++ rest)).toNat = a.value.length + 4 := by
    simp only [u16At, Attr.block, List.append_assoc]
    rw [sub_append_here _ _ _ (by simp), leNat_le, UInt16.toNat_ofNat']
    simp; omega
  have e2 : u16At 2 (a.block pad ++ rest) = a.type := by
    simp only [u16At, Attr.block, List.append_assoc]
    rw [sub_append_skip _ _ _ _ (by simp), le_length, Nat.sub_self, sub_append_here _ _ _ (by simp), leNat_le]
    have := a.type.toNat_lt
    rw [Nat.mod_eq_of_lt (by omega)]; simp
  have e3 : rtaAlignOf (a.value.length + 4) = a.value.length + pad.length + 4 := by
    simp only [rtaAlignOf]; omega
  have hbl : (a.block pad).length = a.value.length + pad.length + 4 := by
    simp [Attr.block]; omega
  have hL : (a.block pad ++ rest).length = a.value.length + pad.length + 4 + rest.length := by
    rw [List.length_append, hbl]
  have d4 : (a.block pad ++ rest).drop 4 = a.value ++ (pad ++ rest) := by
    simp only [Attr.block, List.append_assoc]
    rw [← List.append_assoc (le 2 _)]
    exact List.drop_left' (by simp)
  rw [loop_step _ _ _ _ (by omega) (by omega) (by rw [e0, e3]; omega), e0, e2, e3, d4]
  rw [List.drop_left' hbl]
  simp

theorem loop_blocks (l : List (Attr × Bytes)) (hg : ∀ p ∈ l, GoodAttr p) (fuel : Nat) (rest tail : Bytes) (acc : List RouteAttr) :
    parseRouteAttrLoop (fuel + l.length) (attrsWire l ++ rest) tail acc =
      parseRouteAttrLoop fuel rest tail (acc ++ outAttrs (rest ++ tail) l) := by
  induction l generalizing acc with
  | nil => simp [attrsWire, outAttrs]
  | cons p l ih =>
    obtain ⟨a, pad⟩ := p
    simp only [attrsWire, List.append_assoc, List.length_cons]
    rw [show fuel + (l.length + 1) = (fuel + l.length) + 1 by omega, loop_block _ _ _ _ _ _ (hg _ (by simp)),
      ih (fun p hp => hg p (by simp [hp]))]
    simp [outAttrs]

/-- More budget does not change a finished run. -/
theorem loop_mono (fuel k : Nat) (b tail : Bytes) (acc : List RouteAttr) (r) (h : parseRouteAttrLoop fuel b tail acc = some r) :
    parseRouteAttrLoop (fuel + k) b tail acc = some r := by
  induction fuel generalizing b acc with
  | zero => simp [parseRouteAttrLoop] at h
  | succ f ih =>
    rw [show f + 1 + k = (f + k) + 1 by omega]
    by_cases h4 : b.length < 4
    · rw [loop_short _ _ _ _ h4] at h ⊢; exact h
    · by_cases hb : (u16At 0 b).toNat < 4 ∨ (u16At 0 b).toNat > b.length
      · rw [loop_bad _ _ _ _ (by omega) hb] at h ⊢; exact h
      · by_cases h3 : b.length < rtaAlignOf (u16At 0 b).toNat
        · rw [loop_overrun _ _ _ _ (by omega) (by omega) (by omega) h3] at h ⊢; exact h
        · rw [loop_step _ _ _ _ (by omega) (by omega) (by omega)] at h ⊢
          exact ih _ _ h

theorem attrsWire_length (l : List (Attr × Bytes)) (hg : ∀ p ∈ l, GoodAttr p) :
    4 * l.length ≤ (attrsWire l).length ∧ (attrsWire l).length % 4 = 0 := by
  induction l with
  | nil => simp [attrsWire]
  | cons p l ih =>
    obtain ⟨a, pad⟩ := p
    have ih := ih (fun p hp => hg p (by simp [hp]))
    have := (hg (a, pad) (by simp)).2.2
    simp only [attrsWire, List.length_append, Attr.block, le_length, List.length_cons] at this ⊢
    omega

/-- Every input is a sequence of good attribute blocks followed by a rest on which the loop stops at once. -/
theorem decompose (n : Nat) (b : Bytes) (hn : b.length ≤ n) : ∃ (l : List (Attr × Bytes)) (rest : Bytes), b = attrsWire l ++ rest
    ∧ (∀ p ∈ l, GoodAttr p)
    ∧ (rest.length < 4 ∨ (4 ≤ rest.length ∧ ((u16At 0 rest).toNat < 4 ∨ (u16At 0 rest).toNat > rest.length
        ∨ (4 ≤ (u16At 0 rest).toNat ∧ (u16At 0 rest).toNat ≤ rest.length ∧ rest.length < rtaAlignOf (u16At 0 rest).toNat)))) := by
  induction n generalizing b with
  | zero => exact ⟨[], b, by simp [attrsWire], by simp, Or.inl (by omega)⟩
  | succ n ih =>
    by_cases h4 : b.length < 4
    · exact ⟨[], b, by simp [attrsWire], by simp, Or.inl h4⟩
    · by_cases hb : (u16At 0 b).toNat < 4 ∨ (u16At 0 b).toNat > b.length
      · exact ⟨[], b, by simp [attrsWire], by simp, Or.inr ⟨by omega, by omega⟩⟩
      · by_cases h3 : b.length < rtaAlignOf (u16At 0 b).toNat
        · exact ⟨[], b, by simp [attrsWire], by simp, Or.inr ⟨by omega, by omega⟩⟩
        · have hal := rtaAlignOf_ge (u16At 0 b).toNat
          generalize hA : rtaAlignOf (u16At 0 b).toNat = A at *
          generalize hL : (u16At 0 b).toNat = L at *
          obtain ⟨l, rest, e, hg, hr⟩ := ih (b.drop A) (by simp; omega)
          let a : Attr := { type := u16At 2 b, value := sub 4 (L - 4) b }
          let pad := sub L (A - L) b
          have hv : a.value.length = L - 4 := sub_length _ _ _ (by omega)
          have hp : pad.length = A - L := sub_length _ _ _ (by omega)
          have hL16 : L < 65536 := by rw [← hL]; exact (u16At 0 b).toNat_lt
          refine ⟨(a, pad) :: l, rest, ?_, ?_, hr⟩
          · simp only [attrsWire, List.append_assoc]
            rw [← e]
            have hblk : a.block pad = b.take A := by
              have e1 : le 2 (a.value.length + 4) = sub 0 2 b := by
                rw [hv, show L - 4 + 4 = L by omega, ← hL]
                exact le_u16 _ (sub_length _ _ _ (by omega))
              have e2 : le 2 a.type.toNat = sub 2 2 b := le_u16 _ (sub_length _ _ _ (by omega))
              rw [Attr.block, e1, e2]
              have h0 : sub 0 2 b = b.take 2 := by simp [sub]
              rw [h0, take_append_sub]
              show b.take (2 + 2) ++ sub 4 (L - 4) b ++ sub L (A - L) b = _
              rw [take_append_sub, show 2 + 2 + (L - 4) = L by omega, take_append_sub,
                show L + (A - L) = A by omega]
            rw [hblk, List.take_append_drop]
          · intro p hpm
            rcases List.mem_cons.1 hpm with rfl | hpm
            · refine ⟨by simp only [hv]; omega, ?_, ?_⟩
              · simp only [hp]; omega
              · simp only [hp, hv]; omega
            · exact hg p hpm

/-- Full description of the parser. -/
theorem parseRouteAttr_spec (l : List (Attr × Bytes)) (hg : ∀ p ∈ l, GoodAttr p) (rest tail : Bytes) :
    (rest.length < 4 → parseRouteAttr (attrsWire l ++ rest) tail = some (.ok (outAttrs (rest ++ tail) l)))
    ∧ (4 ≤ rest.length → ((u16At 0 rest).toNat < 4 ∨ (u16At 0 rest).toNat > rest.length) →
        parseRouteAttr (attrsWire l ++ rest) tail = some (.err .einval))
    ∧ (4 ≤ rest.length → 4 ≤ (u16At 0 rest).toNat → (u16At 0 rest).toNat ≤ rest.length →
        rest.length < rtaAlignOf (u16At 0 rest).toNat → parseRouteAttr (attrsWire l ++ rest) tail = some .panic) := by
  have hl := attrsWire_length l hg
  have hf : ∃ k, (attrsWire l ++ rest).length / 4 + 1 = (k + 1) + l.length := by
    refine ⟨(attrsWire l ++ rest).length / 4 - l.length, ?_⟩
    simp only [List.length_append]
    omega
  obtain ⟨k, hk⟩ := hf
  refine ⟨fun h => ?_, fun h1 h2 => ?_, fun h1 h2 h3 h4 => ?_⟩
  · rw [parseRouteAttr, hk, loop_blocks l hg, loop_short _ _ _ _ h]; simp
  · rw [parseRouteAttr, hk, loop_blocks l hg, loop_bad _ _ _ _ h1 h2]
  · rw [parseRouteAttr, hk, loop_blocks l hg, loop_overrun _ _ _ _ h1 h2 h3 h4]

theorem outAttrs_map (rest : Bytes) (l : List (Attr × Bytes)) :
    (outAttrs rest l).map (fun r => (r.type, r.value.val)) = l.map (fun p => (p.1.type, p.1.value)) := by
  induction l with
  | nil => rfl
  | cons p l ih => obtain ⟨a, pad⟩ := p; simp [outAttrs, ih]

end TcpInfo
