import Verif.Lemmas.Compare
import Verif.Props.Record
/-!
# C14, C15, C16, C17: change detection
-/

namespace TcpInfo
open Spec

theorem parse_raw (r : ArchivalRecord) (h : 72 ≤ (r.rawIDM.getD []).length) :
    ∃ m, parseIDM r.raw = .ok m ∧ m.state = stateByte r := ⟨_, parseIDM_ok h, rfl⟩

/-- C14. For records with a complete header and tcp_info, `Compare` reports no change exactly when nothing documented as significant
differs: TCP state, every tcp_info field before `tcpi_busy_time` except the four `last_*`, and every other attribute. -/
theorem C14_nochange_iff (pm prev : ArchivalRecord) (hr : 72 ≤ (pm.rawIDM.getD []).length) (hr' : 72 ≤ (prev.rawIDM.getD []).length)
    (hf : FullInfo pm) (hf' : FullInfo prev) :
    compareRecords pm (some prev) = .ok .noMajorChange ↔ Unchanged pm prev := by
  obtain ⟨m, hm, hst⟩ := parse_raw pm hr
  obtain ⟨m', hm', hst'⟩ := parse_raw prev hr'
  obtain ⟨b, hb, hbl⟩ := hf
  obtain ⟨a, ha, hal⟩ := hf'
  rw [attrVal_eq] at hb ha
  obtain ⟨sb, hsb, rfl⟩ : ∃ sb, pm.attrs.getD 2 none = some sb ∧ sb.val = b := by
    cases h : pm.attrs.getD 2 none with
    | none => rw [h] at hb; simp at hb
    | some s => rw [h] at hb; exact ⟨s, rfl, by simpa using hb⟩
  obtain ⟨sa, hsa, rfl⟩ : ∃ sa, prev.attrs.getD 2 none = some sa ∧ sa.val = a := by
    cases h : prev.attrs.getD 2 none with
    | none => rw [h] at ha; simp at ha
    | some s => rw [h] at ha; exact ⟨s, rfl, by simpa using ha⟩
  have hlp : 2 < pm.attrs.length := by
    apply Classical.byContradiction; intro hn
    rw [List.getD_eq_getElem?_getD, List.getElem?_eq_none (by omega)] at hsb; simp at hsb
  have hlq : 2 < prev.attrs.length := by
    apply Classical.byContradiction; intro hn
    rw [List.getD_eq_getElem?_getD, List.getElem?_eq_none (by omega)] at hsa; simp at hsa
  have hS : SameInfo sb.val sa.val ↔ _ := sameInfo_iff sb.val sa.val hbl hal
  have hU : Unchanged pm prev ↔ stateByte prev = stateByte pm
      ∧ ((sa.val.drop 60).take 108 = (sb.val.drop 60).take 108) ∧ (sa.val.take 44 = sb.val.take 44)
      ∧ prev.attrs.length = pm.attrs.length
      ∧ compareAttrsLoop 0 prev.attrs pm.attrs = .noMajorChange := by
    unfold Unchanged
    constructor
    · rintro ⟨h1, h2, h3, h4⟩
      have := hS.1 (h2 _ _ (by rw [attrVal_eq, hsb]; rfl) (by rw [attrVal_eq, hsa]; rfl))
      refine ⟨h1.symm, this.2.symm, this.1.symm, h3.symm, ?_⟩
      rw [compareAttrsLoop_nochange 0 prev.attrs pm.attrs h3.symm]
      intro i hi h2
      have := h4 i (by omega)
      rw [attrVal_eq, attrVal_eq] at this
      exact this.symm
    · rintro ⟨h1, h2, h3, h4, h5⟩
      refine ⟨h1.symm, ?_, h4.symm, ?_⟩
      · intro x y hx hy
        rw [attrVal_eq, hsb] at hx
        rw [attrVal_eq, hsa] at hy
        simp only [Option.map_some, Option.some.injEq] at hx hy
        subst hx; subst hy
        exact hS.2 ⟨h3.symm, h2.symm⟩
      · intro t ht
        rw [attrVal_eq, attrVal_eq]
        rw [compareAttrsLoop_nochange _ _ _ h4] at h5
        by_cases htl : t < prev.attrs.length
        · exact (h5 t htl (by omega)).symm
        · simp only [List.getD_eq_getElem?_getD]
          rw [List.getElem?_eq_none (by omega), List.getElem?_eq_none (by omega)]
  rw [hU]
  rw [compareRecords_def]
  simp only [hm, hm', hst, hst']
  have hno : ¬ (prev.attrs.length ≤ INET_DIAG_INFO ∨ pm.attrs.length ≤ INET_DIAG_INFO) := by
    simp only [INET_DIAG_INFO]; omega
  have s1 := slice_hi sa 60 168 (by omega) hal
  have s2 := slice_hi sb 60 168 (by omega) hbl
  have s3 := slice_hi sa 0 44 (by omega) (by omega)
  have s4 := slice_hi sb 0 44 (by omega) (by omega)
  rw [if_neg hno, hsa, hsb]
  simp only [pmtuOffset_eq, busytimeOffset_eq, lastDataSentOffset_eq, s1, s2, s3, s4, List.drop_zero, Nat.sub_zero, Nat.reduceSub]
  by_cases h1 : stateByte prev = stateByte pm
  · by_cases h2 : (sa.val.drop 60).take 108 = (sb.val.drop 60).take 108
    · by_cases h3 : sa.val.take 44 = sb.val.take 44
      · by_cases h4 : prev.attrs.length = pm.attrs.length
        · simp [h1, h2, h3, h4]
        · by_cases h5 : prev.attrs.length < pm.attrs.length
          · simp [h1, h2, h3, h4, h5]
          · have : pm.attrs.length < prev.attrs.length := by omega
            simp [h1, h2, h3, h4, h5, this]
      · simp [h1, h2, h3]
    · simp [h1, h2]
  · simp [h1]

/-- C14. Comparing a record with itself reports no change. -/
theorem C14_self (r : ArchivalRecord) (hr : 72 ≤ (r.rawIDM.getD []).length) (hf : FullInfo r) :
    compareRecords r (some r) = .ok .noMajorChange := by
  rw [C14_nochange_iff r r hr hr hf hf]
  refine ⟨rfl, ?_, rfl, fun _ _ => rfl⟩
  intro a b ha hb f _
  rw [ha] at hb; injection hb with hb; rw [hb]

/-- C14. Without a tcp_info attribute in one of the records, a change is always reported. -/
theorem C14_no_info_is_change (pm prev : ArchivalRecord) (h : attrVal pm 2 = none ∨ attrVal prev 2 = none) :
    compareRecords pm (some prev) ≠ .ok .noMajorChange := by
  rw [compareRecords_def]
  simp only
  split
  · simp
  · simp
  · split
    · simp
    · simp
    · split
      · simp
      · split
        · simp
        · split
          · rename_i a b ha hb
            rw [attrVal_eq, attrVal_eq] at h
            rw [show pm.attrs.getD 2 none = some b from hb, show prev.attrs.getD 2 none = some a from ha] at h
            simp at h
          · simp

/-- C14. For all records with a complete header, and a tcp_info that is absent or complete, `Compare` returns exactly the kind of change. -/
theorem C14_kind (pm prev : ArchivalRecord) (hr : 72 ≤ (pm.rawIDM.getD []).length) (hr' : 72 ≤ (prev.rawIDM.getD []).length)
    (hf : attrVal pm 2 = none ∨ FullInfo pm) (hf' : attrVal prev 2 = none ∨ FullInfo prev) (c : ChangeType) :
    compareRecords pm (some prev) = .ok c ↔ ChangeKind pm prev c := by
  classical
  have key : ∀ c, ChangeKind pm prev c → compareRecords pm (some prev) = .ok c := by
    intro c h
    obtain ⟨m, hm, hst⟩ := parse_raw pm hr
    obtain ⟨m', hm', hst'⟩ := parse_raw prev hr'
    have slice : ∀ (r : ArchivalRecord) (b : Bytes), attrVal r 2 = some b → ∃ sb, r.attrs.getD 2 none = some sb ∧ sb.val = b ∧ 2 < r.attrs.length := by
      intro r b hb
      rw [attrVal_eq] at hb
      cases h : r.attrs.getD 2 none with
      | none => rw [h] at hb; simp at hb
      | some s =>
        rw [h] at hb
        refine ⟨s, rfl, by simpa using hb, ?_⟩
        apply Classical.byContradiction; intro hn
        rw [List.getD_eq_getElem?_getD, List.getElem?_eq_none (by omega)] at h; simp at h
    have full : ∀ (r : ArchivalRecord) (b : Bytes), (attrVal r 2 = none ∨ FullInfo r) → attrVal r 2 = some b → 168 ≤ b.length := by
      rintro r b (h | ⟨b', h, hl⟩) hb
      · rw [h] at hb; simp at hb
      · rw [h] at hb; injection hb with hb; rw [← hb]; exact hl
    -- with tcp_info in both records
    have both : ∀ a b, stateByte pm = stateByte prev → attrVal pm 2 = some a → attrVal prev 2 = some b →
        compareRecords pm (some prev) = if SameInfo a b then
          (if prev.attrs.length < pm.attrs.length then .ok .newAttribute else if prev.attrs.length > pm.attrs.length then .ok .lostAttribute
           else .ok (compareAttrsLoop 0 prev.attrs pm.attrs)) else .ok .stateOrCounterChange := by
      intro a b hs ha hb
      obtain ⟨sb, hsb, rfl, hlp⟩ := slice pm a ha
      obtain ⟨sa, hsa, rfl, hlq⟩ := slice prev b hb
      have hbl := full pm _ hf ha
      have hal := full prev _ hf' hb
      have hS : SameInfo sb.val sa.val ↔ _ := sameInfo_iff sb.val sa.val hbl hal
      rw [compareRecords_def]
      simp only [hm, hm', hst, hst']
      have hno : ¬ (prev.attrs.length ≤ INET_DIAG_INFO ∨ pm.attrs.length ≤ INET_DIAG_INFO) := by
        simp only [INET_DIAG_INFO]; omega
      have s1 := slice_hi sa 60 168 (by omega) hal
      have s2 := slice_hi sb 60 168 (by omega) hbl
      have s3 := slice_hi sa 0 44 (by omega) (by omega)
      have s4 := slice_hi sb 0 44 (by omega) (by omega)
      rw [if_neg hno, hsa, hsb, if_neg (by rw [hs]; simp)]
      simp only [pmtuOffset_eq, busytimeOffset_eq, lastDataSentOffset_eq, s1, s2, s3, s4, List.drop_zero, Nat.sub_zero, Nat.reduceSub]
      by_cases h2 : (sa.val.drop 60).take 108 = (sb.val.drop 60).take 108
      · by_cases h3 : sa.val.take 44 = sb.val.take 44
        · rw [if_pos (hS.2 ⟨h3.symm, h2.symm⟩)]; simp [h2, h3]
        · rw [if_neg (fun h => h3 (hS.1 h).1.symm)]; simp [h2, h3]
      · rw [if_neg (fun h => h2 (hS.1 h).2.symm)]; simp [h2]
    cases h with
    | state hs =>
      rw [compareRecords_def]
      simp only [hm, hm', hst, hst']
      rw [if_pos (fun e => hs e.symm)]
    | noInfo hs hn =>
      rw [compareRecords_def]
      simp only [hm, hm', hst, hst']
      rw [if_neg (by rw [hs]; simp)]
      split
      · rfl
      · rw [attrVal_eq, attrVal_eq] at hn
        split
        · rename_i x y e1 e2
          rw [show pm.attrs.getD 2 none = some y from e2, show prev.attrs.getD 2 none = some x from e1] at hn
          simp at hn
        · rfl
    | counter a b hs ha hb hS => rw [both a b hs ha hb, if_neg hS]
    | more a b hs ha hb hS hl =>
      have hl' : prev.attrs.length < pm.attrs.length := hl
      rw [both a b hs ha hb, if_pos hS, if_pos hl']
    | fewer a b hs ha hb hS hl =>
      have hl' : pm.attrs.length < prev.attrs.length := hl
      rw [both a b hs ha hb, if_pos hS, if_neg (by omega), if_pos hl']
    | attr a b t c hs ha hb hS hl ht hi hc =>
      have hl' : pm.attrs.length = prev.attrs.length := hl
      rw [both a b hs ha hb, if_pos hS, if_neg (by omega), if_neg (by omega)]
      congr 1
      have htl : t < prev.attrs.length := by
        apply Classical.byContradiction; intro hn
        have e1 : attrVal prev t = none := by rw [attrVal_eq, List.getD_eq_getElem?_getD, List.getElem?_eq_none (by omega)]; rfl
        have e2 : attrVal pm t = none := by rw [attrVal_eq, List.getD_eq_getElem?_getD, List.getElem?_eq_none (by omega)]; rfl
        rw [e1, e2] at hc
        simp [attrChange] at hc
      exact compareAttrsLoop_first 0 _ _ hl'.symm t c htl (by omega) (fun i h1 h2 => by
        have := hi i h1 (by omega); rw [attrVal_eq, attrVal_eq] at this; exact this) (by rw [← attrVal_eq, ← attrVal_eq]; exact hc)
    | same hi hi' hu => exact (C14_nochange_iff pm prev hr hr' (hf.resolve_left hi) (hf'.resolve_left hi')).mpr hu
  refine ⟨fun h => ?_, key c⟩
  obtain ⟨c', hc'⟩ := changeKind_total pm prev
  have := key c' hc'
  rw [h] at this
  injection this with this
  rw [this]
  exact hc'

theorem exampleRec_full : FullInfo exampleRec := ⟨_, rfl, by decide +kernel⟩
theorem exampleRec_raw : 72 ≤ (exampleRec.rawIDM.getD []).length := by decide

/-- `exampleRec` with one byte of tcp_info (at `i`) set to 9. -/
def exampleRecAt (i : Nat) : ArchivalRecord :=
  { exampleRec with attributes := some [none, none, some { val := (List.replicate 200 (0 : UInt8) ++ [2, 1] ++ List.replicate 30 0).set i 9, spare := [] }] }

-- changing tcpi_last_ack_sent is no change, changing tcpi_rtt is
example : compareRecords (exampleRecAt 48) (some exampleRec) = .ok .noMajorChange := by decide +kernel
example : compareRecords (exampleRecAt 68) (some exampleRec) = .ok .stateOrCounterChange := by decide +kernel

-- the other kinds of change: another attribute is new, gone, has another length, other bytes; two changes at once: the first type counts
example : (∀ (x y : List (Option GoSlice)) (c : ChangeType),
      (x, y, c) ∈ ([([some ⟨[1], []⟩], [none], .newAttribute), ([none], [some ⟨[1], []⟩], .lostAttribute), ([some ⟨[1, 2], []⟩], [some ⟨[1], []⟩], .attributeLength),
        ([some ⟨[1], []⟩], [some ⟨[2], []⟩], .other), ([some ⟨[1], []⟩, none], [some ⟨[2], []⟩, some ⟨[], []⟩], .other)] : List _) →
      compareRecords { exampleRec with attributes := some (x ++ (exampleRec.attributes.getD []).drop x.length) }
        (some { exampleRec with attributes := some (y ++ (exampleRec.attributes.getD []).drop y.length) }) = .ok c) := by
  intro x y c h
  simp only [List.mem_cons, List.not_mem_nil, or_false, Prod.mk.injEq] at h
  rcases h with ⟨rfl, rfl, rfl⟩ | ⟨rfl, rfl, rfl⟩ | ⟨rfl, rfl, rfl⟩ | ⟨rfl, rfl, rfl⟩ | ⟨rfl, rfl, rfl⟩ <;> decide +kernel

/-! ## C15 -/

/-- The counters in the compared part of tcp_info. -/
def earlyCounters : List String :=
  ["tcpi_bytes_acked", "tcpi_bytes_received", "tcpi_segs_out", "tcpi_segs_in", "tcpi_data_segs_in", "tcpi_data_segs_out",
   "tcpi_total_retrans", "tcpi_notsent_bytes", "tcpi_retransmits", "tcpi_unacked", "tcpi_sacked", "tcpi_lost", "tcpi_retrans", "tcpi_fackets"]
/-- The counters behind `tcpi_busy_time`. -/
def lateCounters : List String := ["tcpi_bytes_sent", "tcpi_bytes_retrans", "tcpi_delivered", "tcpi_delivered_ce"]

/-- C15 (partial: the counters before `tcpi_busy_time`; the late ones are ignored, `C15_violated`). If such a counter differs, a
change is reported. -/
theorem C15_counter_change_partial (pm prev : ArchivalRecord) (a b : Bytes) (hr : 72 ≤ (pm.rawIDM.getD []).length)
    (hr' : 72 ≤ (prev.rawIDM.getD []).length) (ha : attrVal pm 2 = some a) (hb : attrVal prev 2 = some b)
    (hal : 168 ≤ a.length) (hbl : 168 ≤ b.length) (c : String) (hc : c ∈ earlyCounters)
    (hne : fieldOf tcp_info c a ≠ fieldOf tcp_info c b) :
    compareRecords pm (some prev) ≠ .ok .noMajorChange := by
  rw [Ne, C14_nochange_iff pm prev hr hr' ⟨a, ha, hal⟩ ⟨b, hb, hbl⟩]
  intro hu
  have hmem : ∀ c ∈ earlyCounters, ∃ f, (f ∈ earlyFields ∨ f ∈ middleFields) ∧ f.1 = c := by
    have : ∀ c ∈ earlyCounters, (earlyFields ++ middleFields).any (fun f => f.1 == c) = true := by decide +kernel
    intro c hc
    have := this c hc
    rw [List.any_eq_true] at this
    obtain ⟨f, hf, he⟩ := this
    exact ⟨f, List.mem_append.1 hf, by simpa using he⟩
  obtain ⟨f, hf, rfl⟩ := hmem c hc
  exact hne (hu.2.1 a b ha hb f hf)

/-- C15 violated: whatever happens to the counters behind `tcpi_busy_time` (bytes sent, bytes retransmitted, delivered), it is not
reported: two records that agree elsewhere and whose tcp_info agrees on its first 168 bytes compare as unchanged. -/
theorem C15_violated (pm : ArchivalRecord) (hr : 72 ≤ (pm.rawIDM.getD []).length) (hf : FullInfo pm) (late : Bytes)
    (prev : ArchivalRecord) (s : GoSlice) (hs : pm.attrs[2]? = some (some s))
    (hprev : prev = { pm with attributes := some (pm.attrs.set 2 (some { val := s.val.take 168 ++ late, spare := s.spare })) }) :
    compareRecords pm (some prev) = .ok .noMajorChange := by
  have h2 : 2 < pm.attrs.length := by
    apply Classical.byContradiction; intro hn
    rw [List.getElem?_eq_none (by omega)] at hs; simp at hs
  obtain ⟨b, hb, hbl⟩ := hf
  have hsb : s.val = b := by
    rw [attrVal_eq, List.getD_eq_getElem?_getD, hs] at hb; simpa using hb
  subst hsb
  have hav : attrVal prev 2 = some (s.val.take 168 ++ late) := by
    rw [hprev, attrVal_eq]
    have h2' : 2 < (pm.attributes.getD []).length := h2
    simp [ArchivalRecord.attrs, List.getElem?_set, h2']
  have hraw : prev.rawIDM = pm.rawIDM := by rw [hprev]
  rw [C14_nochange_iff pm prev hr (by rw [hraw]; exact hr) ⟨_, hb, hbl⟩ ⟨_, hav, by simp; omega⟩]
  refine ⟨by simp [stateByte, hraw], ?_, ?_, ?_⟩
  · intro x y hx hy
    rw [hb] at hx; rw [hav] at hy
    injection hx with hx; injection hy with hy
    subst hx; subst hy
    rw [sameInfo_iff _ _ hbl (by simp; omega)]
    constructor
    · rw [List.take_append_of_le_length (by simp; omega), List.take_take]; simp
    · have hdt : ∀ x : Bytes, (x.drop 60).take 108 = (x.take 168).drop 60 := fun x => by rw [List.drop_take]
      rw [hdt, hdt, List.take_append_of_le_length (by simp; omega), List.take_take]; simp
  · rw [hprev]; simp [ArchivalRecord.attrs]
  · intro t ht
    rw [hprev, attrVal_eq, attrVal_eq]
    simp only [ArchivalRecord.attrs, Option.getD_some, List.getD_eq_getElem?_getD, List.getElem?_set]
    rw [if_neg (by omega)]

-- bytes_sent (at 200) changes, nothing is reported
example : fieldOf tcp_info "tcpi_bytes_sent" ((List.replicate 200 (0 : UInt8) ++ [2, 1] ++ List.replicate 30 0).set 200 9) = some 0x109
    ∧ compareRecords (exampleRecAt 200) (some exampleRec) = .ok .noMajorChange := by decide +kernel
example : compareRecords (exampleRecAt 120) (some exampleRec) = .ok .stateOrCounterChange := by decide +kernel

/-! ## C16 -/

/-- C16. Swapping the records swaps "gained" and "lost" and changes nothing else (errors and panics included). -/
theorem C16_dual (r s : ArchivalRecord) : compareRecords s (some r) = (compareRecords r (some s)).map dual := by
  rw [compareRecords_def, compareRecords_def]
  simp only
  have hnp : ∀ x, parseIDM x ≠ .panic := fun x => (C01_parse_total x).2.2
  have hpe : ∀ x e, parseIDM x = .err e → e = .parseFailed := by
    intro x e h
    simp only [parseIDM] at h
    split at h
    · injection h with h; exact h.symm
    · simp at h
  cases hr : parseIDM r.raw with
  | panic => exact absurd hr (hnp _)
  | err e =>
    cases hs : parseIDM s.raw with
    | panic => exact absurd hs (hnp _)
    | err e' => rfl
    | ok m' => rfl
  | ok m =>
    cases hs : parseIDM s.raw with
    | panic => exact absurd hs (hnp _)
    | err e' => rfl
    | ok m' =>
      simp only
      by_cases h1 : m.state = m'.state
      · rw [if_neg (show ¬ (m.state ≠ m'.state) from fun h => h h1), if_neg (show ¬ (m'.state ≠ m.state) from fun h => h h1.symm)]
        by_cases h2 : r.attrs.length ≤ INET_DIAG_INFO ∨ s.attrs.length ≤ INET_DIAG_INFO
        · rw [if_pos h2, if_pos h2.symm]; rfl
        · rw [if_neg h2, if_neg (show ¬ (s.attrs.length ≤ INET_DIAG_INFO ∨ r.attrs.length ≤ INET_DIAG_INFO) from fun h => h2 h.symm)]
          cases ha : r.attrs.getD INET_DIAG_INFO none with
          | none => cases s.attrs.getD INET_DIAG_INFO none <;> rfl
          | some a =>
            cases hb : s.attrs.getD INET_DIAG_INFO none with
            | none => rfl
            | some b =>
              simp only
              cases hx : a.slice? pmtuOffset busytimeOffset with
              | none => cases b.slice? pmtuOffset busytimeOffset <;> rfl
              | some x =>
                cases hy : b.slice? pmtuOffset busytimeOffset with
                | none => rfl
                | some y =>
                  simp only
                  by_cases h3 : x = y
                  · rw [if_neg (show ¬ (x ≠ y) from fun h => h h3), if_neg (show ¬ (y ≠ x) from fun h => h h3.symm)]
                    cases hx2 : a.slice? 0 lastDataSentOffset with
                    | none => cases b.slice? 0 lastDataSentOffset <;> rfl
                    | some x2 =>
                      cases hy2 : b.slice? 0 lastDataSentOffset with
                      | none => rfl
                      | some y2 =>
                        simp only
                        by_cases h4 : x2 = y2
                        · rw [if_neg (show ¬ (x2 ≠ y2) from fun h => h h4), if_neg (show ¬ (y2 ≠ x2) from fun h => h h4.symm)]
                          by_cases h5 : r.attrs.length < s.attrs.length
                          · rw [if_pos h5, if_neg (show ¬ s.attrs.length < r.attrs.length by omega), if_pos (show s.attrs.length > r.attrs.length by omega)]; rfl
                          · by_cases h6 : s.attrs.length < r.attrs.length
                            · rw [if_neg h5, if_pos (show r.attrs.length > s.attrs.length by omega), if_pos h6]; rfl
                            · rw [if_neg h5, if_neg (show ¬ r.attrs.length > s.attrs.length by omega), if_neg h6, if_neg (show ¬ s.attrs.length > r.attrs.length by omega)]
                              rw [compareAttrsLoop_dual 0 s.attrs r.attrs (by omega)]; rfl
                        · rw [if_pos h4, if_pos (show y2 ≠ x2 from fun h => h4 h.symm)]; rfl
                  · rw [if_pos h3, if_pos (show y ≠ x from fun h => h3 h.symm)]; rfl
      · rw [if_pos h1, if_pos (show m'.state ≠ m.state from fun h => h1 h.symm)]; rfl

/-- C16. "No change" is an equivalence relation on records with complete header and tcp_info. -/
theorem C16_equivalence :
    (∀ r : ArchivalRecord, 72 ≤ (r.rawIDM.getD []).length → FullInfo r → compareRecords r (some r) = .ok .noMajorChange)
    ∧ (∀ r s : ArchivalRecord, compareRecords r (some s) = .ok .noMajorChange → compareRecords s (some r) = .ok .noMajorChange)
    ∧ (∀ r s t : ArchivalRecord, 72 ≤ (r.rawIDM.getD []).length → FullInfo r → 72 ≤ (s.rawIDM.getD []).length → FullInfo s →
        72 ≤ (t.rawIDM.getD []).length → FullInfo t →
        compareRecords r (some s) = .ok .noMajorChange → compareRecords s (some t) = .ok .noMajorChange →
        compareRecords r (some t) = .ok .noMajorChange) := by
  refine ⟨C14_self, ?_, ?_⟩
  · intro r s h
    rw [C16_dual r s, h]; rfl
  · intro r s t hr hrf hs hsf ht htf h1 h2
    rw [C14_nochange_iff _ _ hr hs hrf hsf] at h1
    rw [C14_nochange_iff _ _ hs ht hsf htf] at h2
    rw [C14_nochange_iff _ _ hr ht hrf htf]
    obtain ⟨a1, a2, a3, a4⟩ := h1
    obtain ⟨b1, b2, b3, b4⟩ := h2
    obtain ⟨y, hy, -⟩ := hsf
    refine ⟨a1.trans b1, ?_, a3.trans b3, fun t ht => (a4 t ht).trans (b4 t ht)⟩
    intro x z hx hz f hf
    exact (a2 x y hx hy f hf).trans (b2 y z hy hz f hf)

example : compareRecords { exampleRec with attributes := some [none, some ⟨[], []⟩, (exampleRec.attrs.getD 2 none)] } (some exampleRec)
    = .ok .newAttribute ∧ dual .newAttribute = .lostAttribute := by decide +kernel

/-! ## C17 -/

/-- C17. Exactly when it panics: complete headers with equal states, and one of the two tcp_info attributes ends, *backing array
included*, before byte 168. -/
theorem C17_panic_iff (pm prev : ArchivalRecord) :
    compareRecords pm (some prev) = .panic ↔
      72 ≤ (pm.rawIDM.getD []).length ∧ 72 ≤ (prev.rawIDM.getD []).length ∧ stateByte pm = stateByte prev
      ∧ ∃ a b, pm.attrs[2]? = some (some a) ∧ prev.attrs[2]? = some (some b)
        ∧ (a.val.length + a.spare.length < 168 ∨ b.val.length + b.spare.length < 168) := by
  have hnp : ∀ x, parseIDM x ≠ .panic := fun x => (C01_parse_total x).2.2
  have hsl : ∀ s : GoSlice, (s.slice? pmtuOffset busytimeOffset = none ↔ s.val.length + s.spare.length < 168) := by
    intro s
    simp only [GoSlice.slice?, pmtuOffset_eq, busytimeOffset_eq]
    split <;> simp <;> omega
  have hsl2 : ∀ s : GoSlice, 168 ≤ s.val.length + s.spare.length → s.slice? 0 lastDataSentOffset ≠ none := by
    intro s h
    rw [GoSlice.slice?, lastDataSentOffset_eq, if_pos (by omega)]; simp
  by_cases hs : (pm.rawIDM.getD []).length < 72
  · have : parseIDM pm.raw = .err .parseFailed := parseIDM_short hs
    simp only [compareRecords_def, this]
    constructor
    · intro h; split at h <;> simp at h
      rename_i hp; exact absurd hp (hnp _)
    · rintro ⟨h, -⟩; omega
  · by_cases hs' : (prev.rawIDM.getD []).length < 72
    · have : parseIDM prev.raw = .err .parseFailed := parseIDM_short hs'
      simp only [compareRecords_def, this]
      constructor
      · intro h; simp at h
      · rintro ⟨-, h, -⟩; omega
    · obtain ⟨m, hm, hst⟩ := parse_raw pm (by omega)
      obtain ⟨m', hm', hst'⟩ := parse_raw prev (by omega)
      simp only [compareRecords_def, hm, hm', hst, hst']
      by_cases h1 : stateByte prev = stateByte pm
      · rw [if_neg (by simp [h1])]
        by_cases h2 : prev.attrs.length ≤ INET_DIAG_INFO ∨ pm.attrs.length ≤ INET_DIAG_INFO
        · rw [if_pos h2]
          constructor
          · intro h; simp at h
          · rintro ⟨-, -, -, a, b, ha, hb, -⟩
            have q1 : 2 < pm.attrs.length := by
              apply Classical.byContradiction; intro hn
              rw [List.getElem?_eq_none (by omega)] at ha; simp at ha
            have q2 : 2 < prev.attrs.length := by
              apply Classical.byContradiction; intro hn
              rw [List.getElem?_eq_none (by omega)] at hb; simp at hb
            simp only [INET_DIAG_INFO] at h2
            omega
        · rw [if_neg h2]
          simp only [INET_DIAG_INFO] at h2
          have e1 : pm.attrs[2]? = some (pm.attrs.getD 2 none) := by
            rw [List.getD_eq_getElem?_getD, List.getElem?_eq_getElem (by omega)]; rfl
          have e2 : prev.attrs[2]? = some (prev.attrs.getD 2 none) := by
            rw [List.getD_eq_getElem?_getD, List.getElem?_eq_getElem (by omega)]; rfl
          rw [e1, e2]
          simp only [INET_DIAG_INFO]
          cases hA : prev.attrs.getD 2 none with
          | none => simp
          | some a =>
            cases hB : pm.attrs.getD 2 none with
            | none => simp
            | some b =>
              simp only
              cases hx : a.slice? pmtuOffset busytimeOffset with
              | none =>
                have := (hsl a).1 hx
                simp [h1]
                exact ⟨by omega, by omega, Or.inr this⟩
              | some x =>
                have hxa : ¬ (a.val.length + a.spare.length < 168) := fun h => by rw [(hsl a).2 h] at hx; simp at hx
                cases hy : b.slice? pmtuOffset busytimeOffset with
                | none =>
                  have := (hsl b).1 hy
                  simp [h1]
                  exact ⟨by omega, by omega, Or.inl this⟩
                | some y =>
                  have hyb : ¬ (b.val.length + b.spare.length < 168) := fun h => by rw [(hsl b).2 h] at hy; simp at hy
                  simp only
                  constructor
                  · intro h
                    split at h
                    · simp at h
                    · split at h
                      · split at h
                        · simp at h
                        · split at h
                          · simp at h
                          · split at h <;> simp at h
                      · rename_i hn
                        exfalso
                        cases q1 : a.slice? 0 lastDataSentOffset with
                        | none => exact hsl2 a (by omega) q1
                        | some _ =>
                          cases q2 : b.slice? 0 lastDataSentOffset with
                          | none => exact hsl2 b (by omega) q2
                          | some _ => exact hn _ _ q1 q2
                  · rintro ⟨-, -, -, a', b', ha, hb, h⟩
                    injection ha with ha; injection ha with ha
                    injection hb with hb; injection hb with hb
                    subst ha; subst hb
                    omega
      · rw [if_pos h1]
        constructor
        · intro h; simp at h
        · rintro ⟨-, -, h, -⟩; exact absurd h.symm h1

/-- C17 (partial: records whose tcp_info, if present, has at least 168 bytes). No panic. -/
theorem C17_no_panic_partial (pm : ArchivalRecord) (prev : Option ArchivalRecord)
    (h : ∀ s, pm.attrs[2]? = some (some s) → 168 ≤ s.val.length)
    (h' : ∀ p, prev = some p → ∀ s, p.attrs[2]? = some (some s) → 168 ≤ s.val.length) :
    compareRecords pm prev ≠ .panic := by
  cases prev with
  | none => simp [compareRecords]
  | some p =>
    rw [Ne, C17_panic_iff]
    rintro ⟨-, -, -, a, b, ha, hb, hs⟩
    have := h a ha
    have := h' p rfl b hb
    omega

/-- A record with a tcp_info of 104 bytes (Linux 3.10), nothing behind it in the buffer. -/
def oldKernelRec : ArchivalRecord :=
  { exampleRec with attributes := some [none, none, some { val := List.replicate 104 0, spare := [] }] }

/-- C17 violated: comparing a record of an old kernel (104-byte tcp_info as last attribute) with itself panics. -/
theorem C17_violated : compareRecords oldKernelRec (some oldKernelRec) = .panic := by decide +kernel

/-- C17 violated: with other data behind the short attribute, the comparison silently reads that data: two records with the same
visible attributes compare as different. -/
theorem C17_violated_overread : ∃ (s s' : GoSlice), s.val = s'.val ∧
    compareRecords { oldKernelRec with attributes := some [none, none, some s] }
      (some { oldKernelRec with attributes := some [none, none, some s'] }) = .ok .stateOrCounterChange :=
  ⟨{ val := List.replicate 104 0, spare := List.replicate 64 0 }, { val := List.replicate 104 0, spare := List.replicate 64 1 }, rfl,
   by decide +kernel⟩

example : compareRecords exampleRec (some exampleRec) ≠ .panic :=
  have h : ∀ s, exampleRec.attrs[2]? = some (some s) → 168 ≤ s.val.length := by
    intro s hs
    have : some (some s) = some (some (GoSlice.mk (List.replicate 200 0 ++ [2, 1] ++ List.replicate 30 0) [])) := hs.symm.trans rfl
    injection this with this; injection this with this; subst this; decide +kernel
  C17_no_panic_partial _ _ h (by intro p hp; injection hp with hp; subst hp; exact h)

end TcpInfo
