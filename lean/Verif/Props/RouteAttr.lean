import Verif.Lemmas.RouteAttr
/-!
# C07, C08, C09: route attribute parsing
-/

namespace TcpInfo
open Spec

/-- What a caller sees of a parsed attribute: its type and its value bytes. -/
def RouteAttr.view (r : RouteAttr) : UInt16 × Bytes := (r.type, r.value.val)
/-- The same for a specified attribute. -/
def Spec.Attr.view (a : Attr) : UInt16 × Bytes := (a.type, a.value)

/-- C07. Attributes laid out by the netlink rules, with any padding content, are read back exactly and in order
(fewer than 4 bytes behind them are ignored). -/
theorem C07_roundtrip (l : List (Attr × Bytes)) (hlen : ∀ p ∈ l, p.1.value.length ≤ 65531)
    (hpad : ∀ p ∈ l, GoodPad p.1 p.2) (trailing tail : Bytes) (ht : trailing.length < 4) :
    ∃ attrs, parseRouteAttr (attrsWire l ++ trailing) tail = some (.ok attrs)
      ∧ attrs.map RouteAttr.view = l.map (fun p => p.1.view) :=
  ⟨_, (parseRouteAttr_spec l (fun p hp => ⟨hlen p hp, hpad p hp⟩) trailing tail).1 ht, outAttrs_map _ _⟩

/-- Two attributes, the first one padded with non-zero bytes, and two stray bytes. -/
def exampleAttrs : List (Attr × Bytes) := [({ type := 4, value := [99, 117, 98, 105, 99, 0] }, [0xaa, 0xbb]), ({ type := 8, value := [] }, [])]
example : (∀ p ∈ exampleAttrs, p.1.value.length ≤ 65531) ∧ (∀ p ∈ exampleAttrs, GoodPad p.1 p.2) := by
  constructor <;> simp [exampleAttrs, GoodPad]

/-- C08. The parser always terminates within its iteration budget of one iteration per four bytes. -/
theorem C08_terminates (b tail : Bytes) : parseRouteAttr b tail ≠ none := by
  obtain ⟨l, rest, rfl, hg, h | ⟨h4, h | h | ⟨h1, h2, h3⟩⟩⟩ := decompose b.length b (Nat.le_refl _)
  · rw [(parseRouteAttr_spec l hg rest tail).1 h]; simp
  · rw [(parseRouteAttr_spec l hg rest tail).2.1 h4 (Or.inl h)]; simp
  · rw [(parseRouteAttr_spec l hg rest tail).2.1 h4 (Or.inr h)]; simp
  · rw [(parseRouteAttr_spec l hg rest tail).2.2 h4 h1 h2 h3]; simp

/-- C08. On success the input consists of exactly the returned attributes' blocks, in order, and fewer than four left-over bytes. -/
theorem C08_sound (b tail : Bytes) (attrs : List RouteAttr) (h : parseRouteAttr b tail = some (.ok attrs)) :
    ∃ (l : List (Attr × Bytes)) (rest : Bytes), b = attrsWire l ++ rest ∧ rest.length < 4 ∧ (∀ p ∈ l, GoodPad p.1 p.2)
      ∧ attrs.map RouteAttr.view = l.map (fun p => p.1.view) := by
  obtain ⟨l, rest, rfl, hg, hr | ⟨h4, hr | hr | ⟨h1, h2, h3⟩⟩⟩ := decompose b.length b (Nat.le_refl _)
  · rw [(parseRouteAttr_spec l hg rest tail).1 hr] at h
    injection h with h; injection h with h; subst h
    exact ⟨l, rest, rfl, hr, fun p hp => (hg p hp).2, outAttrs_map _ _⟩
  · rw [(parseRouteAttr_spec l hg rest tail).2.1 h4 (Or.inl hr)] at h; simp at h
  · rw [(parseRouteAttr_spec l hg rest tail).2.1 h4 (Or.inr hr)] at h; simp at h
  · rw [(parseRouteAttr_spec l hg rest tail).2.2 h4 h1 h2 h3] at h; simp at h

example : ∃ attrs, parseRouteAttr (attrsWire exampleAttrs ++ [1, 2]) [] = some (.ok attrs) ∧ attrs.length = 2 := by
  refine ⟨_, rfl, rfl⟩

theorem lenField_eq (b : Bytes) (h : 2 ≤ b.length) : lenField b = (u16At 0 b).toNat := by
  rcases b with _ | ⟨x, _ | ⟨y, t⟩⟩
  · simp at h
  · simp at h
  · have hx := x.toNat_lt
    have hy := y.toNat_lt
    simp [lenField, byte, u16At, sub, leNat]
    omega

/-- C09. The error is returned exactly when, after some well-formed attributes, an attribute header has a length below 4 or
beyond the bytes left. -/
theorem C09_error_iff (b tail : Bytes) :
    (∃ e, parseRouteAttr b tail = some (.err e)) ↔
      ∃ (l : List (Attr × Bytes)) (rest : Bytes), b = attrsWire l ++ rest
        ∧ (∀ p ∈ l, p.1.value.length ≤ 65531 ∧ GoodPad p.1 p.2) ∧ 4 ≤ rest.length ∧ (lenField rest < 4 ∨ rest.length < lenField rest) := by
  constructor
  · rintro ⟨e, h⟩
    obtain ⟨l, rest, rfl, hg, hr | ⟨h4, hr | hr | ⟨h1, h2, h3⟩⟩⟩ := decompose b.length b (Nat.le_refl _)
    · rw [(parseRouteAttr_spec l hg rest tail).1 hr] at h; simp at h
    · exact ⟨l, rest, rfl, hg, h4, by rw [lenField_eq _ (by omega)]; omega⟩
    · exact ⟨l, rest, rfl, hg, h4, by rw [lenField_eq _ (by omega)]; omega⟩
    · rw [(parseRouteAttr_spec l hg rest tail).2.2 h4 h1 h2 h3] at h; simp at h
  · rintro ⟨l, rest, rfl, hg, h4, hl⟩
    rw [lenField_eq _ (by omega)] at hl
    exact ⟨_, (parseRouteAttr_spec l hg rest tail).2.1 h4 hl⟩

/-- C09. It panics exactly when the last attribute is complete but its padding is cut off. -/
theorem C09_panic_iff (b tail : Bytes) :
    parseRouteAttr b tail = some .panic ↔
      ∃ (l : List (Attr × Bytes)) (rest : Bytes), b = attrsWire l ++ rest
        ∧ (∀ p ∈ l, p.1.value.length ≤ 65531 ∧ GoodPad p.1 p.2) ∧ 4 ≤ lenField rest ∧ lenField rest ≤ rest.length
        ∧ rest.length < (lenField rest + 3) / 4 * 4 := by
  constructor
  · intro h
    obtain ⟨l, rest, rfl, hg, hr | ⟨h4, hr | hr | ⟨h1, h2, h3⟩⟩⟩ := decompose b.length b (Nat.le_refl _)
    · rw [(parseRouteAttr_spec l hg rest tail).1 hr] at h; simp at h
    · rw [(parseRouteAttr_spec l hg rest tail).2.1 h4 (Or.inl hr)] at h; simp at h
    · rw [(parseRouteAttr_spec l hg rest tail).2.1 h4 (Or.inr hr)] at h; simp at h
    · refine ⟨l, rest, rfl, hg, ?_⟩
      rw [lenField_eq _ (by omega)]
      exact ⟨h1, h2, h3⟩
  · rintro ⟨l, rest, rfl, hg, h1, h2, h3⟩
    have e := lenField_eq rest (by omega)
    rw [e] at h1 h2 h3
    exact (parseRouteAttr_spec l hg rest tail).2.2 (by omega) h1 h2 h3

/-- C09 (partial: inputs whose length is a multiple of four, which is what the kernel sends). No panic. -/
theorem C09_no_panic_partial (b tail : Bytes) (h : b.length % 4 = 0) : parseRouteAttr b tail ≠ some .panic := by
  rw [Ne, C09_panic_iff]
  rintro ⟨l, rest, rfl, hg, h1, h2, h3⟩
  have := attrsWire_length l hg
  rw [List.length_append] at h
  omega

/-- C09 violated: a 5-byte attribute at the end of a 5-byte buffer makes the parser panic (`b[8:]` of 5 bytes). -/
theorem C09_violated_panic : parseRouteAttr [5, 0, 1, 0, 42] [] = some .panic := by decide

example : parseRouteAttr [5, 0, 1, 0, 42, 0, 0, 0] [] ≠ some .panic := C09_no_panic_partial _ _ (by decide)
example : ∃ e, parseRouteAttr (attrsWire exampleAttrs ++ [3, 0, 1, 0]) [] = some (.err e) :=
  (C09_error_iff _ _).2 ⟨exampleAttrs, [3, 0, 1, 0], rfl, by simp [exampleAttrs, GoodPad], by decide, by decide⟩

end TcpInfo
