import Verif.Model.Memory
import Verif.Spec.Saver
/-!
# Slices of memory
-/

namespace TcpInfo
open Spec

theorem bytes_length (m : Mem) (a n : Nat) : (m.bytes a n).length = n := by simp [Mem.bytes]

theorem bytes_getElem? (m : Mem) (a n i : Nat) : (m.bytes a n)[i]? = if i < n then some (m (a + i)) else none := by
  by_cases h : i < n <;> simp [Mem.bytes, h]

theorem bytes_congr (m m' : Mem) (a n : Nat) (h : ∀ x, a ≤ x → x < a + n → m' x = m x) : m'.bytes a n = m.bytes a n := by
  apply List.ext_getElem?
  intro i
  rw [bytes_getElem?, bytes_getElem?]
  split
  · rw [h (a + i) (by omega) (by omega)]
  · rfl

theorem bytes_take (m : Mem) (a n k : Nat) (h : k ≤ n) : (m.bytes a n).take k = m.bytes a k := by
  apply List.ext_getElem?
  intro i
  simp only [List.getElem?_take, bytes_getElem?]
  by_cases h1 : i < k
  · rw [if_pos h1, if_pos h1, if_pos (by omega)]
  · rw [if_neg h1, if_neg h1]

theorem bytes_drop (m : Mem) (a n k : Nat) : (m.bytes a n).drop k = m.bytes (a + k) (n - k) := by
  apply List.ext_getElem?
  intro i
  simp only [List.getElem?_drop, bytes_getElem?, Nat.add_assoc]
  split <;> split <;> first | rfl | omega

theorem bytes_append (m : Mem) (a n k : Nat) : m.bytes a (n + k) = m.bytes a n ++ m.bytes (a + n) k := by
  have := List.take_append_drop n (m.bytes a (n + k))
  rw [bytes_take m a _ n (by omega), bytes_drop, Nat.add_sub_cancel_left] at this
  exact this.symm

theorem read_length (m : Mem) (s : PSlice) : (s.read m).length = s.len := bytes_length ..

theorem read_after (m : Mem) (s : PSlice) (k : Nat) : (s.after k).read m = (s.read m).drop k := (bytes_drop ..).symm

theorem read_upto (m : Mem) (s : PSlice) (k : Nat) (h : k ≤ s.len) : (s.upto k).read m = (s.read m).take k := (bytes_take m _ _ _ h).symm

theorem spare_after (m : Mem) (s : PSlice) (k : Nat) (h : k ≤ s.len) : (s.after k).spare m = s.spare m := by
  simp only [PSlice.spare, PSlice.after]
  rw [show s.base + k + (s.len - k) = s.base + s.len by omega, show s.cap - k - (s.len - k) = s.cap - s.len by omega]

theorem spare_upto (m : Mem) (s : PSlice) (k : Nat) (h : k ≤ s.len) (hc : s.len ≤ s.cap) : (s.upto k).spare m = (s.read m).drop k ++ s.spare m := by
  simp only [PSlice.spare, PSlice.upto, PSlice.read]
  rw [bytes_drop, show s.base + s.len = s.base + k + (s.len - k) by omega, ← bytes_append]
  congr 1
  omega

/-! ## Values of the results of the parsers -/

/-- A result with the function applied to the value. -/
def Res.mapVal {ε α β : Type} (f : α → β) : Res ε α → Res ε β
  | .ok a => .ok (f a)
  | .err e => .err e
  | .panic => .panic

theorem pLoop_load (m : Mem) (fuel : Nat) : ∀ (b : PSlice) (acc : List PAttr), b.len ≤ b.cap →
    (pParseRouteAttrLoop m fuel b acc).map (Res.mapVal (List.map (PAttr.load m)))
      = parseRouteAttrLoop fuel (b.read m) (b.spare m) (acc.map (PAttr.load m)) := by
  induction fuel with
  | zero => intros; rfl
  | succ fuel ih =>
    intro b acc hc
    simp only [pParseRouteAttrLoop, parseRouteAttrLoop, read_length]
    split
    · rfl
    · rename_i h4
      cases hr : netlinkRouteAttrAndValue (b.read m) with
      | err e => rfl
      | panic => rfl
      | ok r =>
        obtain ⟨len, typ, vbuf, alen⟩ := r
        have hb : vbuf = (b.read m).drop 4 ∧ len ≤ b.len := by
          unfold netlinkRouteAttrAndValue at hr
          simp only [read_length] at hr
          split at hr
          · cases hr
          · injection hr with hr; injection hr with h1 hr; injection hr with h2 hr; injection hr with h3 h4
            exact ⟨h3.symm, by omega⟩
        obtain ⟨rfl, hl⟩ := hb
        simp only
        split
        · rfl
        · rename_i ha
          rw [ih _ _ (by simp only [PSlice.after]; omega), read_after, spare_after m b _ (by omega), List.map_append]
          congr 2
          simp only [List.map_cons, List.map_nil, PAttr.load, PSlice.load]
          rw [read_upto _ _ _ (by simp only [PSlice.after]; omega), spare_upto _ _ _ (by simp only [PSlice.after]; omega) (by simp only [PSlice.after]; omega),
            read_after, spare_after m b 4 (by omega)]

theorem pMaxAttrType_load (m : Mem) (as : List PAttr) (t : Nat) : pMaxAttrType as t = maxAttrTypeLoop (as.map (PAttr.load m)) t := by
  induction as generalizing t with
  | nil => rfl
  | cons a as ih => simp only [pMaxAttrType, List.map_cons, maxAttrTypeLoop, PAttr.load, ih]

theorem pFillAttrs_load (m : Mem) (as : List PAttr) (t : Nat) (tbl : List (Option PSlice)) :
    (pFillAttrs as t tbl).map (·.map (·.load m)) = fillAttrs (as.map (PAttr.load m)) t (tbl.map (·.map (·.load m))) := by
  induction as generalizing tbl with
  | nil => rfl
  | cons a as ih =>
    simp only [pFillAttrs, List.map_cons, fillAttrs, PAttr.load]
    split
    · exact ih _
    · rw [ih, List.map_set]; rfl

theorem pMakeRecord_load (m : Mem) (raw attrs : PSlice) (hc : attrs.len ≤ attrs.cap) :
    (pMakeRecord m raw attrs).mapVal (Option.map (PRecord.load m 0)) = makeRecord (raw.read m) (attrs.read m) (attrs.spare m) := by
  unfold pMakeRecord makeRecord parseRouteAttr
  have := pLoop_load m (attrs.len / 4 + 1) attrs [] hc
  rw [read_length]
  simp only [List.map_nil] at this
  rw [← this]
  cases pParseRouteAttrLoop m (attrs.len / 4 + 1) attrs [] with
  | none => rfl
  | some r =>
    cases r with
    | err e => rfl
    | panic => rfl
    | ok as =>
      simp only [Option.map_some, Res.mapVal, PRecord.load, pFillAttrs_load, pMaxAttrType_load m, List.map_replicate, Option.map_none]

/-! ## Where the slices are -/

/-- The visible part of `s` lies between two addresses. -/
def PSlice.within (s : PSlice) (lo hi : Nat) : Prop := lo ≤ s.base ∧ s.base + s.len ≤ hi

theorem pLoop_within (m : Mem) (lo hi : Nat) (fuel : Nat) : ∀ (b : PSlice) (acc l : List PAttr), lo ≤ b.base → b.base + b.len ≤ hi →
    (∀ a ∈ acc, a.value.within lo hi) → pParseRouteAttrLoop m fuel b acc = some (.ok l) → ∀ a ∈ l, a.value.within lo hi := by
  induction fuel with
  | zero => intro b acc l _ _ _ h; cases h
  | succ fuel ih =>
    intro b acc l h1 h2 ha h
    simp only [pParseRouteAttrLoop] at h
    split at h
    · injection h with h; injection h with h; subst h; exact ha
    · rename_i h4
      cases hr : netlinkRouteAttrAndValue (b.read m) with
      | err e => rw [hr] at h; cases h
      | panic => rw [hr] at h; cases h
      | ok r =>
        obtain ⟨len, typ, vbuf, alen⟩ := r
        have hl : len ≤ b.len ∧ 4 ≤ len := by
          unfold netlinkRouteAttrAndValue at hr
          simp only [read_length] at hr
          split at hr
          · cases hr
          · injection hr with hr; injection hr with h1 hr
            omega
        rw [hr] at h
        simp only at h
        split at h
        · cases h
        · refine ih (b.after alen) _ l ?_ ?_ ?_ h
          · show lo ≤ b.base + alen; omega
          · show b.base + alen + (b.len - alen) ≤ hi; omega
          · intro a hm
            rcases List.mem_append.1 hm with hm | hm
            · exact ha a hm
            · rw [List.mem_singleton.1 hm]
              refine ⟨?_, ?_⟩
              · show lo ≤ b.base + 4; omega
              · show b.base + 4 + (len - 4) ≤ hi; omega

theorem pFillAttrs_mem (as : List PAttr) (t : Nat) : ∀ (tbl : List (Option PSlice)) (s : PSlice), some s ∈ pFillAttrs as t tbl →
    some s ∈ tbl ∨ ∃ a ∈ as, a.value = s := by
  induction as with
  | nil => intro tbl s h; exact Or.inl h
  | cons a as ih =>
    intro tbl s h
    simp only [pFillAttrs] at h
    split at h
    · rcases ih tbl s h with h | ⟨x, hx, e⟩
      · exact Or.inl h
      · exact Or.inr ⟨x, List.mem_cons_of_mem _ hx, e⟩
    · rcases ih _ s h with h | ⟨x, hx, e⟩
      · rcases List.mem_or_eq_of_mem_set h with h | h
        · exact Or.inl h
        · injection h with h
          exact Or.inr ⟨a, List.mem_cons_self, h.symm⟩
      · exact Or.inr ⟨x, List.mem_cons_of_mem _ hx, e⟩

theorem pMakeRecord_where (m : Mem) (raw attrs : PSlice) (p : PRecord) (h : pMakeRecord m raw attrs = .ok (some p)) :
    p.raw = raw ∧ ∀ s, some s ∈ p.attrs → s.within attrs.base (attrs.base + attrs.len) := by
  unfold pMakeRecord at h
  cases hl : pParseRouteAttrLoop m (attrs.len / 4 + 1) attrs [] with
  | none => rw [hl] at h; cases h
  | some r =>
    rw [hl] at h
    cases r with
    | err e => cases h
    | panic => cases h
    | ok as =>
      simp only at h
      injection h with h; injection h with h; subst h
      refine ⟨rfl, fun s hs => ?_⟩
      rcases pFillAttrs_mem _ _ _ _ hs with hs | ⟨a, ha, rfl⟩
      · have := (List.mem_replicate.1 hs).2; cases this
      · exact pLoop_within m _ _ _ _ _ _ (Nat.le_refl _) (Nat.le_refl _) (by simp) hl a ha

/-- Where a record made from a message has its header and its attributes. -/
theorem pMake_where (m : Mem) (msg : PMessage) (ex : Option ExcludeConfig) (p : PRecord) (h : pMakeArchivalRecord m msg ex = .ok (some p)) :
    72 ≤ msg.data.len ∧ p.raw.base = msg.data.base ∧ p.raw.len = 72
      ∧ ∀ s, some s ∈ p.attrs → s.within (msg.data.base + 72) (msg.data.base + msg.data.len) := by
  unfold pMakeArchivalRecord at h
  split at h
  · cases h
  · split at h
    · cases h
    · rename_i hl
      have key : pMakeRecord m (msg.data.upto 72) (msg.data.after 72) = .ok (some p) := by
        cases ex with
        | none => exact h
        | some ex =>
          simp only at h
          cases hp : parseIDM ((msg.data.upto 72).read m) with
          | err e => rw [hp] at h; cases h
          | panic => rw [hp] at h; cases h
          | ok idm =>
            rw [hp] at h
            simp only at h
            split at h
            · injection h with h; cases h
            · exact h
      obtain ⟨h1, h2⟩ := pMakeRecord_where _ _ _ _ key
      refine ⟨by omega, by rw [h1]; rfl, by rw [h1]; rfl, fun s hs => ?_⟩
      have := h2 s hs
      refine ⟨this.1, Nat.le_trans this.2 ?_⟩
      show msg.data.base + 72 + (msg.data.len - 72) ≤ _
      omega

/-! ## Stores -/

theorem store_other (m : Mem) (a : Nat) (vs : Bytes) (x : Nat) (h : x < a ∨ a + vs.length ≤ x) : m.store a vs x = m x := by
  induction vs generalizing m a with
  | nil => rfl
  | cons v vs ih =>
    simp only [List.length_cons] at h
    show (m.set a v).store (a + 1) vs x = m x
    rw [ih _ _ (by omega)]
    exact if_neg (by omega)

theorem store_bytes (m : Mem) (a : Nat) (vs : Bytes) : (m.store a vs).bytes a vs.length = vs := by
  induction vs generalizing m a with
  | nil => rfl
  | cons v vs ih =>
    rw [List.length_cons, Nat.add_comm, bytes_append]
    show ((m.set a v).store (a + 1) vs).bytes a 1 ++ ((m.set a v).store (a + 1) vs).bytes (a + 1) vs.length = v :: vs
    rw [ih]
    have : ((m.set a v).store (a + 1) vs).bytes a 1 = [v] := by
      show [(m.set a v).store (a + 1) vs (a + 0)] = [v]
      rw [Nat.add_zero, store_other _ _ _ _ (by omega)]
      show [if a = a then v else m a] = [v]
      rw [if_pos rfl]
    rw [this]; rfl

theorem stores_other (m : Mem) (l : List (Nat × UInt8)) (x : Nat) (h : ∀ q ∈ l, q.1 ≠ x) : m.stores l x = m x := by
  induction l generalizing m with
  | nil => rfl
  | cons q l ih =>
    obtain ⟨a, v⟩ := q
    show (m.set a v).stores l x = m x
    rw [ih _ (fun q hq => h q (List.mem_cons_of_mem _ hq))]
    exact if_neg (fun e => h (a, v) List.mem_cons_self e.symm)

theorem mem_storesAt (a : Nat) (vs : Bytes) (q : Nat × UInt8) (h : q ∈ storesAt a vs) : a ≤ q.1 ∧ q.1 < a + vs.length := by
  obtain ⟨i, hi, rfl⟩ := List.mem_map.1 h
  have := List.mem_range.1 hi
  simp only
  omega

/-- The stores of `Anonymize` are to address bytes of the header. -/
theorem anonymizeStores_where (anon : Anonymizer) (m : Mem) (raw : PSlice) (q : Nat × UInt8) (h : q ∈ anonymizeStores anon m raw) :
    raw.base + 8 ≤ q.1 ∧ q.1 < raw.base + 40 := by
  unfold anonymizeStores at h
  split at h
  · split at h
    · rcases List.mem_append.1 h with h | h <;> have := mem_storesAt _ _ _ h <;> rw [anon.len, bytes_length] at this <;> omega
    · split at h
      · rcases List.mem_append.1 h with h | h <;> have := mem_storesAt _ _ _ h <;> rw [anon.len, bytes_length] at this <;> omega
      · simp at h
  · simp at h

/-! ## Messages of a datagram -/

theorem parseNetlinkLoop_where (m : Mem) (fuel : Nat) : ∀ (b : PSlice) (l : List PMessage), b.len ≤ b.cap → parseNetlinkLoop m fuel b = some (.ok l) →
    (∀ p ∈ l, p.data.within (b.base + 16) (b.base + b.len) ∧ p.data.len ≤ p.data.cap)
      ∧ l.Pairwise (fun p q => p.data.base + p.data.len ≤ q.data.base) := by
  induction fuel with
  | zero => intro b l _ h; cases h
  | succ fuel ih =>
    intro b l hc h
    simp only [parseNetlinkLoop] at h
    split at h
    · injection h with h; injection h with h; subst h
      exact ⟨by simp, List.Pairwise.nil⟩
    · rename_i h16
      generalize parseNlMsghdr (b.read m) = hd at h
      split at h
      · cases h
      · rename_i hb
        have ha : hd.len.toNat ≤ nlmAlignOf hd.len.toNat := by unfold nlmAlignOf; omega
        generalize nlmAlignOf hd.len.toNat = al at *
        generalize hd.len.toNat = n at *
        cases hr : parseNetlinkLoop m fuel (b.after al) with
        | none => rw [hr] at h; cases h
        | some r =>
          rw [hr] at h
          cases r with
          | err e => cases h
          | panic => cases h
          | ok l' =>
            simp only [addMessages, List.singleton_append] at h
            injection h with h; injection h with h; subst h
            obtain ⟨i1, i2⟩ := ih _ _ (by simp only [PSlice.after]; omega) hr
            refine ⟨fun p hp => ?_, List.pairwise_cons.2 ⟨fun q hq => ?_, i2⟩⟩
            · rcases List.mem_cons.1 hp with rfl | hp
              · refine ⟨⟨Nat.le_refl _, ?_⟩, ?_⟩
                · show b.base + 16 + (n - 16) ≤ _; omega
                · show n - 16 ≤ b.cap - 16; omega
              · obtain ⟨⟨w1, w2⟩, w3⟩ := i1 p hp
                simp only [PSlice.after] at w1 w2
                exact ⟨⟨by omega, by omega⟩, w3⟩
            · have := (i1 q hq).1.1
              simp only [PSlice.after] at this
              show b.base + 16 + (n - 16) ≤ _
              omega

/-! ## The heap -/

/-- Two messages have no visible byte in common. -/
def Apart (p q : PMessage) : Prop := p.data.base + p.data.len ≤ q.data.base ∨ q.data.base + q.data.len ≤ p.data.base

/-- Invariant: messages lie in the buffers, and apart from each other. -/
structure Heap.OK (h : Heap) : Prop where
  inside : ∀ p ∈ h.msgs, (∃ b ∈ h.buffers, p.data.within b.base (b.base + b.cap)) ∧ p.data.len ≤ p.data.cap
  apart : h.msgs.Pairwise Apart

theorem step_ok (h h' : Heap) (hs : Heap.Step h h') (ok : h.OK) : h'.OK := by
  cases hs with
  | receive b data l hlen hcap hnew hparse =>
    obtain ⟨w1, w2⟩ := parseNetlinkLoop_where _ _ _ _ hcap hparse
    refine ⟨fun p hp => ?_, List.pairwise_append.2 ⟨ok.apart, w2.imp (fun h => Or.inl h), fun p hp q hq => ?_⟩⟩
    · rcases List.mem_append.1 hp with hp | hp
      · obtain ⟨⟨b', hb, hw⟩, hc⟩ := ok.inside p hp
        exact ⟨⟨b', List.mem_append_left _ hb, hw⟩, hc⟩
      · obtain ⟨⟨a1, a2⟩, a3⟩ := w1 p hp
        exact ⟨⟨b, List.mem_append_right _ (List.mem_singleton.2 rfl), ⟨by omega, by omega⟩⟩, a3⟩
    · obtain ⟨⟨b', hb, ⟨c1, c2⟩⟩, _⟩ := ok.inside p hp
      obtain ⟨⟨a1, a2⟩, a3⟩ := w1 q hq
      have hd := hnew b' hb
      unfold PSlice.disjoint at hd
      unfold Apart
      omega
  | anonymize msg hm ex m' m'' p hp anon a v hs => exact ⟨ok.inside, ok.apart⟩

theorem steps_ok (h h' : Heap) (hs : Heap.Steps h h') (ok : h.OK) : h'.OK := by
  induction hs with
  | refl => exact ok
  | tail _ s ih => exact step_ok _ _ s ih

theorem init_ok (m : Mem) : (Heap.init m).OK := ⟨by simp [Heap.init], List.Pairwise.nil⟩

theorem step_msgs (h h' : Heap) (hs : Heap.Step h h') (p : PMessage) (hp : p ∈ h.msgs) : p ∈ h'.msgs := by
  cases hs with
  | receive => exact List.mem_append_left _ hp
  | anonymize => exact hp

theorem steps_msgs (h h' : Heap) (hs : Heap.Steps h h') (p : PMessage) (hp : p ∈ h.msgs) : p ∈ h'.msgs := by
  induction hs with
  | refl => exact hp
  | tail _ s ih => exact step_msgs _ _ s p ih

theorem apart_of_ne {h : Heap} (ok : h.OK) {p q : PMessage} (hp : p ∈ h.msgs) (hq : q ∈ h.msgs) (hne : p ≠ q) : Apart p q := by
  have key : ∀ l : List PMessage, l.Pairwise Apart → p ∈ l → q ∈ l → Apart p q := by
    intro l
    induction l with
    | nil => intro _ h; simp at h
    | cons x l ih =>
      intro hl hp hq
      obtain ⟨h1, h2⟩ := List.pairwise_cons.1 hl
      rcases List.mem_cons.1 hp with rfl | hp' <;> rcases List.mem_cons.1 hq with rfl | hq'
      · exact absurd rfl hne
      · exact h1 _ hq'
      · exact (h1 _ hp').symm
      · exact ih h2 hp' hq'
  exact key _ ok.apart hp hq

/-- A step changes, of the visible bytes of a message, at most the address bytes of its header. -/
theorem step_keeps (h h' : Heap) (ok : h.OK) (hs : Heap.Step h h') (p : PMessage) (hp : p ∈ h.msgs) (x : Nat) (h1 : p.data.base ≤ x)
    (h2 : x < p.data.base + p.data.len) (h3 : x < p.data.base + 8 ∨ p.data.base + 40 ≤ x) : h'.mem x = h.mem x := by
  cases hs with
  | receive b data l hlen hcap hnew hparse =>
    obtain ⟨⟨b', hb, ⟨c1, c2⟩⟩, _⟩ := ok.inside p hp
    have hd := hnew b' hb
    unfold PSlice.disjoint at hd
    exact store_other _ _ _ _ (by omega)
  | anonymize msg hm ex m' m'' r hr anon a v hs =>
    obtain ⟨w1, w2, w3, _⟩ := pMake_where _ _ _ _ hr
    have hw := anonymizeStores_where _ _ _ _ hs
    refine if_neg (fun e => ?_)
    subst e
    by_cases he : p = msg
    · subst he; omega
    · have := apart_of_ne ok hp hm he
      unfold Apart at this
      omega

theorem steps_keeps (h h' : Heap) (ok : h.OK) (hs : Heap.Steps h h') (p : PMessage) (hp : p ∈ h.msgs) (x : Nat) (h1 : p.data.base ≤ x)
    (h2 : x < p.data.base + p.data.len) (h3 : x < p.data.base + 8 ∨ p.data.base + 40 ≤ x) : h'.mem x = h.mem x := by
  induction hs with
  | refl => rfl
  | tail s t ih =>
    rw [step_keeps _ _ (steps_ok _ _ s ok) t p (steps_msgs _ _ s p hp) x h1 h2 h3, ih]

theorem sub_read (m : Mem) (s : PSlice) (off n : Nat) (h : off + n ≤ s.len) : sub off n (s.read m) = m.bytes (s.base + off) n := by
  simp only [sub, PSlice.read]
  rw [bytes_drop, bytes_take _ _ _ _ (by omega)]

end TcpInfo
