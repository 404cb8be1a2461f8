import Verif.Model.Archive
import Verif.Lemmas.JsonStr
import Verif.Spec.Archive
/-!
# Lemmas about archive files
-/

namespace TcpInfo

/-! ## Records -/

theorem okStr_asc_plain {s : String} (h : ∀ b ∈ asc s, plain b) : okStr (key s) := okStr_plain h

theorem bytesOfJ_toJ (o : Option Bytes) : bytesOfJ (bytesToJ o) = some o := by
  cases o with
  | none => rfl
  | some b =>
    unfold bytesToJ bytesOfJ
    simp only
    rw [unquoteBytes_ascii (b64_plain b), b64Dec_enc]
    rfl

theorem bytesToJ_ok (o : Option Bytes) : (bytesToJ o).ok := by
  cases o with
  | none => simp [bytesToJ, J.ok]
  | some b => simp only [bytesToJ, J.ok]; exact okStr_plain (fun x hx => (b64_plain b x hx).1)

/-- An attribute after a round trip. -/
def normAttr (a : Option GoSlice) : Option GoSlice :=
  a.map (fun s => { val := s.val, spare := List.replicate ((3 - s.val.length % 3) % 3) 0 })

theorem sliceOfJ_toJ (a : Option GoSlice) : sliceOfJ (bytesToJ (a.map (·.val))) = some (normAttr a) := by
  unfold sliceOfJ
  rw [bytesOfJ_toJ]
  cases a <;> rfl

theorem mapM_map_some {α β γ : Type} (f : α → β) (g : β → Option γ) (h : α → γ) (hh : ∀ a, g (f a) = some (h a)) (l : List α) :
    (l.map f).mapM g = some (l.map h) := by
  induction l with
  | nil => rfl
  | cons a l ih => rw [List.map_cons, List.mapM_cons, hh, ih]; rfl

theorem attrsOfJ_toJ (l : List (Option GoSlice)) : attrsOfJ (.arr (l.map (fun a => bytesToJ (a.map (·.val))))) = some (some (l.map normAttr)) := by
  unfold attrsOfJ
  simp only
  rw [mapM_map_some _ _ _ sliceOfJ_toJ]
  rfl

theorem okElems_map {α : Type} (f : α → J) (hf : ∀ a, (f a).ok) (l : List α) : J.okElems (l.map f) := by
  induction l with
  | nil => simp [J.okElems]
  | cons a l ih => simp only [List.map_cons, J.okElems]; exact ⟨hf a, ih⟩

theorem timeToJ_ok {zone : Int → Int} {t : Int} {j : J} (h : timeToJ zone t = some j) : j.ok := by
  unfold timeToJ at h
  obtain ⟨b, hb, rfl⟩ := Option.map_eq_some_iff.mp h
  simp only [J.ok]
  exact okStr_plain (fun x hx => (fmtTime_plain hb x hx).1)

theorem storeTime_toJ {zone : Int → Int} (hz : ∀ t, (zone t).natAbs < 1440) {t cur : Int} {j : J} (h : timeToJ zone t = some j) :
    storeTime cur j = some t := by
  unfold timeToJ at h
  obtain ⟨b, hb, rfl⟩ := Option.map_eq_some_iff.mp h
  exact parseTime_fmtTime (hz t) hb

/-- The sequence number fits into an `int`. -/
def seqOk (r : ArchivalRecord) : Prop := ∀ m, r.metadata = some m → minInt64 ≤ m.sequence ∧ m.sequence ≤ maxInt64

theorem keyOk (s : String) (h : (asc s).all (fun b => 32 ≤ b.toNat && b != 34 && b != 92) = true) : okStr (key s) := by
  apply okStr_plain
  intro b hb
  have := List.all_eq_true.mp h b hb
  simp only [Bool.and_eq_true, decide_eq_true_eq, bne_iff_ne] at this
  exact ⟨this.1.1, this.1.2, this.2⟩

theorem metadataToJ_ok {zone : Int → Int} {m : Metadata} {j : J} (h : metadataToJ zone m = some j) : j.ok := by
  unfold metadataToJ at h
  obtain ⟨st, hst, rfl⟩ := Option.map_eq_some_iff.mp h
  simp only [J.ok, J.okMembers]
  exact ⟨keyOk _ (by decide +kernel), okStr_quote _, keyOk _ (by decide +kernel), okNum_intLit _, keyOk _ (by decide +kernel), timeToJ_ok hst, trivial⟩

theorem storeMetadata_toJ {zone : Int → Int} (hz : ∀ t, (zone t).natAbs < 1440) {m : Metadata} {j : J} (h : metadataToJ zone m = some j)
    (h1 : minInt64 ≤ m.sequence) (h2 : m.sequence ≤ maxInt64) (cur : Option Metadata) : storeMetadata cur j = some (some m) := by
  unfold metadataToJ at h
  obtain ⟨st, hst, rfl⟩ := Option.map_eq_some_iff.mp h
  have k1 : lookupField metadataFields (unquote (key "UUID")) = some .uuid := by decide +kernel
  have k2 : lookupField metadataFields (unquote (key "Sequence")) = some .sequence := by decide +kernel
  have k3 : lookupField metadataFields (unquote (key "StartTime")) = some .startTime := by decide +kernel
  unfold storeMetadata
  simp only [foldMembers, storeMetadataMember, k1, k2, k3, storeString, unquote_quote, Option.map_some, Option.bind_some,
    storeInt_intLit _ _ h1 h2 (fun e => absurd e (by decide)), storeTime_toJ hz hst, String.ofList_toList]

theorem okMembers_append (l m : List (Bytes × J)) (hl : J.okMembers l) (hm : J.okMembers m) : J.okMembers (l ++ m) := by
  induction l with
  | nil => exact hm
  | cons a l ih => obtain ⟨k, j⟩ := a; simp only [List.cons_append, J.okMembers] at hl ⊢; exact ⟨hl.1, hl.2.1, ih hl.2.2⟩

/-- A record after a round trip. -/
def normRecord (r : ArchivalRecord) : ArchivalRecord :=
  { timestamp := r.timestamp, rawIDM := if r.raw = [] then none else some r.raw,
    attributes := if r.attrs = [] then none else some (r.attrs.map normAttr), metadata := r.metadata }

theorem recordToJ_ok {zone : Int → Int} {r : ArchivalRecord} {j : J} (h : recordToJ zone r = some j) : j.ok ∧ ∃ l, j = .obj l := by
  unfold recordToJ at h
  obtain ⟨ts, hts, h⟩ := Option.bind_eq_some_iff.mp h
  simp only at h
  have hraw : J.okMembers (if r.raw = [] then [] else [(key "RawIDM", bytesToJ r.rawIDM)]) := by
    split
    · simp [J.okMembers]
    · simp only [J.okMembers]; exact ⟨keyOk _ (by decide +kernel), bytesToJ_ok _, trivial⟩
  have hat : J.okMembers (if r.attrs = [] then [] else [(key "Attributes", J.arr (r.attrs.map (fun a => bytesToJ (a.map (·.val)))))]) := by
    split
    · simp [J.okMembers]
    · simp only [J.okMembers, J.ok]; exact ⟨keyOk _ (by decide +kernel), okElems_map _ (fun a => bytesToJ_ok _) _, trivial⟩
  have hk : okStr (key "Timestamp") := keyOk _ (by decide +kernel)
  split at h
  · obtain rfl := Option.some.inj h
    refine ⟨?_, _, rfl⟩
    simp only [J.ok, J.okMembers]
    exact ⟨hk, timeToJ_ok hts, okMembers_append _ _ hraw hat⟩
  · obtain ⟨mj, hmj, rfl⟩ := Option.map_eq_some_iff.mp h
    refine ⟨?_, _, rfl⟩
    simp only [J.ok, J.okMembers]
    refine ⟨hk, timeToJ_ok hts, okMembers_append _ _ hraw (okMembers_append _ _ hat ?_)⟩
    simp only [J.okMembers]
    exact ⟨keyOk _ (by decide +kernel), metadataToJ_ok hmj, trivial⟩

theorem recordOfJ_toJ {zone : Int → Int} (hz : ∀ t, (zone t).natAbs < 1440) {r : ArchivalRecord} (hs : seqOk r) {j : J}
    (h : recordToJ zone r = some j) : recordOfJ j = some (normRecord r) := by
  unfold recordToJ at h
  obtain ⟨ts, hts, h⟩ := Option.bind_eq_some_iff.mp h
  simp only at h
  have k1 : lookupField recordFields (unquote (key "Timestamp")) = some .timestamp := by decide +kernel
  have k2 : lookupField recordFields (unquote (key "RawIDM")) = some .rawIDM := by decide +kernel
  have k3 : lookupField recordFields (unquote (key "Attributes")) = some .attributes := by decide +kernel
  have k4 : lookupField recordFields (unquote (key "Metadata")) = some .metadata := by decide +kernel
  have hraw : ∀ x : ArchivalRecord, x.rawIDM = none →
      foldMembers storeRecordMember (if r.raw = [] then [] else [(key "RawIDM", bytesToJ r.rawIDM)]) x =
        some { x with rawIDM := if r.raw = [] then none else some r.raw } := by
    intro x hx
    split
    · simp only [foldMembers]; rw [← hx]
    · next hne =>
      simp only [foldMembers, storeRecordMember, k2, bytesOfJ_toJ, Option.map_some, Option.bind_some]
      cases hr : r.rawIDM with
      | none => rw [ArchivalRecord.raw, hr] at hne; exact absurd rfl hne
      | some b => simp [ArchivalRecord.raw, hr]
  have hat : ∀ x : ArchivalRecord, x.attributes = none →
      foldMembers storeRecordMember (if r.attrs = [] then [] else [(key "Attributes", J.arr (r.attrs.map (fun a => bytesToJ (a.map (·.val)))))]) x =
        some { x with attributes := if r.attrs = [] then none else some (r.attrs.map normAttr) } := by
    intro x hx
    split
    · simp only [foldMembers]; rw [← hx]
    · simp only [foldMembers, storeRecordMember, k3, attrsOfJ_toJ, Option.map_some, Option.bind_some]
  have hts' : storeTime zeroRecord.timestamp ts = some r.timestamp := storeTime_toJ hz hts
  split at h
  · next hm =>
    obtain rfl := Option.some.inj h
    unfold recordOfJ
    simp only [foldMembers, storeRecordMember, k1, hts', Option.map_some, Option.bind_some]
    rw [foldMembers_append, hraw _ rfl, Option.bind_some, hat _ rfl]
    simp [normRecord, zeroRecord, hm]
  · next m hm =>
    obtain ⟨mj, hmj, rfl⟩ := Option.map_eq_some_iff.mp h
    unfold recordOfJ
    simp only [foldMembers, storeRecordMember, k1, hts', Option.map_some, Option.bind_some]
    rw [foldMembers_append, hraw _ rfl, Option.bind_some, foldMembers_append, hat _ rfl, Option.bind_some]
    simp only [foldMembers, storeRecordMember, k4]
    rw [storeMetadata_toJ hz hmj (hs m hm).1 (hs m hm).2]
    simp [normRecord, hm]

/-- What is marshalled is unmarshalled. -/
theorem unmarshal_marshal {zone : Int → Int} (hz : ∀ t, (zone t).natAbs < 1440) {r : ArchivalRecord} (hs : seqOk r) {b : Bytes}
    (h : marshalRecord zone r = some b) : unmarshalRecord b = some (normRecord r) := by
  unfold marshalRecord at h
  obtain ⟨j, hj, rfl⟩ := Option.map_eq_some_iff.mp h
  unfold unmarshalRecord
  rw [parseJson_enc _ (recordToJ_ok hj).1, Option.bind_some, recordOfJ_toJ hz hs hj]

/-- An incomplete record is not unmarshalled. -/
theorem unmarshal_prefix {zone : Int → Int} {r : ArchivalRecord} {b p q : Bytes} (h : marshalRecord zone r = some b) (hb : b = p ++ q)
    (hp : p ≠ []) (hq : q ≠ []) : unmarshalRecord p = none := by
  unfold marshalRecord at h
  obtain ⟨j, hj, rfl⟩ := Option.map_eq_some_iff.mp h
  obtain ⟨hok, l, rfl⟩ := recordToJ_ok hj
  unfold unmarshalRecord
  rw [parseJson_prefix l hok p q hb hp hq]
  rfl

theorem marshal_ne_nil {zone : Int → Int} {r : ArchivalRecord} {b : Bytes} (h : marshalRecord zone r = some b) : b ≠ [] := by
  unfold marshalRecord at h
  obtain ⟨j, hj, rfl⟩ := Option.map_eq_some_iff.mp h
  obtain ⟨_, l, rfl⟩ := recordToJ_ok hj
  simp [J.enc]

theorem normRecord_same (r : ArchivalRecord) : Spec.SameContents r (normRecord r) := by
  refine ⟨rfl, ?_, ?_, rfl⟩
  · unfold normRecord ArchivalRecord.raw
    cases h : r.rawIDM <;> simp
  · unfold normRecord
    simp only
    split
    · next h => rw [show r.attributes.getD [] = [] from h]; rfl
    · simp only [Option.getD_some, List.map_map]
      refine List.map_congr_left (fun a _ => ?_)
      cases a <;> rfl

/-! ## The bytes of a record's text -/

theorem mem_encMembers {l : List (Bytes × J)} {x : UInt8} (h : x ∈ J.encMembers l) :
    x = 34 ∨ x = 58 ∨ x = 44 ∨ ∃ kv ∈ l, x ∈ kv.1 ∨ x ∈ J.enc kv.2 := by
  induction l with
  | nil => simp [J.encMembers] at h
  | cons a l ih =>
    obtain ⟨k, j⟩ := a
    rw [encMembers_cons] at h
    simp only [List.mem_cons, List.mem_append] at h
    rcases h with h | h | h | h | h | h
    · exact Or.inl h
    · exact Or.inr (Or.inr (Or.inr ⟨_, List.mem_cons_self, Or.inl h⟩))
    · exact Or.inl h
    · exact Or.inr (Or.inl h)
    · exact Or.inr (Or.inr (Or.inr ⟨_, List.mem_cons_self, Or.inr h⟩))
    · cases l with
      | nil => simp at h
      | cons b l =>
        simp only [List.mem_cons] at h
        rcases h with h | h
        · exact Or.inr (Or.inr (Or.inl h))
        · rcases ih h with h | h | h | ⟨kv, hkv, h⟩
          · exact Or.inl h
          · exact Or.inr (Or.inl h)
          · exact Or.inr (Or.inr (Or.inl h))
          · exact Or.inr (Or.inr (Or.inr ⟨kv, List.mem_cons_of_mem _ hkv, h⟩))

theorem mem_encElems {l : List J} {x : UInt8} (h : x ∈ J.encElems l) : x = 44 ∨ ∃ j ∈ l, x ∈ J.enc j := by
  induction l with
  | nil => simp [J.encElems] at h
  | cons a l ih =>
    rw [encElems_cons] at h
    simp only [List.mem_append] at h
    rcases h with h | h
    · exact Or.inr ⟨_, List.mem_cons_self, h⟩
    · cases l with
      | nil => simp at h
      | cons b l =>
        simp only [List.mem_cons] at h
        rcases h with h | h
        · exact Or.inl h
        · rcases ih h with h | ⟨j, hj, h⟩
          · exact Or.inl h
          · exact Or.inr ⟨j, List.mem_cons_of_mem _ hj, h⟩

/-- A byte that is neither newline nor carriage return nor another control character. -/
def noCtl (b : UInt8) : Prop := 32 ≤ b.toNat

theorem enc_str_noCtl {raw : Bytes} (h : ∀ x ∈ raw, noCtl x) : ∀ x ∈ J.enc (.str raw), noCtl x := by
  intro x hx
  simp only [J.enc, List.mem_cons, List.mem_append, List.not_mem_nil, or_false] at hx
  rcases hx with rfl | hx | rfl
  · unfold noCtl; decide
  · exact h x hx
  · unfold noCtl; decide

theorem enc_bytes_noCtl (o : Option Bytes) : ∀ x ∈ J.enc (bytesToJ o), noCtl x := by
  cases o with
  | none =>
    intro x hx
    rw [bytesToJ, show J.enc J.null = [110, 117, 108, 108] by decide +kernel] at hx
    simp only [List.mem_cons, List.not_mem_nil, or_false] at hx
    rcases hx with rfl | rfl | rfl | rfl <;> (unfold noCtl; decide)
  | some b => exact enc_str_noCtl (fun x hx => (b64_plain b x hx).1.1)

theorem enc_members_noCtl {l : List (Bytes × J)} (h : ∀ kv ∈ l, (∀ x ∈ kv.1, noCtl x) ∧ ∀ x ∈ J.enc kv.2, noCtl x) : ∀ x ∈ J.enc (.obj l), noCtl x := by
  intro x hx
  simp only [J.enc, List.mem_cons, List.mem_append, List.not_mem_nil, or_false] at hx
  rcases hx with rfl | hx | rfl
  · unfold noCtl; decide
  · rcases mem_encMembers hx with rfl | rfl | rfl | ⟨kv, hkv, hx | hx⟩
    · unfold noCtl; decide
    · unfold noCtl; decide
    · unfold noCtl; decide
    · exact (h kv hkv).1 x hx
    · exact (h kv hkv).2 x hx
  · unfold noCtl; decide

theorem enc_elems_noCtl {l : List J} (h : ∀ j ∈ l, ∀ x ∈ J.enc j, noCtl x) : ∀ x ∈ J.enc (.arr l), noCtl x := by
  intro x hx
  simp only [J.enc, List.mem_cons, List.mem_append, List.not_mem_nil, or_false] at hx
  rcases hx with rfl | hx | rfl
  · unfold noCtl; decide
  · rcases mem_encElems hx with rfl | ⟨j, hj, hx⟩
    · unfold noCtl; decide
    · exact h j hj x hx
  · unfold noCtl; decide

theorem key_noCtl (s : String) (h : (asc s).all (fun b => 32 ≤ b.toNat) = true) : ∀ x ∈ key s, noCtl x := by
  intro x hx
  have := List.all_eq_true.mp h x hx
  simp only [decide_eq_true_eq] at this
  exact this

theorem quote_noCtl (s : List Char) : ∀ x ∈ quote s, noCtl x := by
  intro x hx
  unfold quote at hx
  obtain ⟨c, _, hx⟩ := List.mem_flatMap.mp hx
  rcases escChar_cases c with ⟨e, he, hesc, _⟩ | ⟨he, _⟩ | ⟨he, hp⟩
  · rw [he] at hx
    simp only [List.mem_cons, List.not_mem_nil, or_false] at hx
    rcases hx with rfl | rfl
    · unfold noCtl; decide
    · unfold isEsc at hesc
      simp only [Bool.or_eq_true, beq_iff_eq] at hesc
      rcases hesc with ((((((rfl | rfl) | rfl) | rfl) | rfl) | rfl) | rfl) | rfl <;> (unfold noCtl; decide)
  · rw [he] at hx
    have hd : ∀ n, noCtl (hexDigit n) := by
      intro n
      unfold hexDigit noCtl
      split <;> (rw [byte_toNat (by omega)]; omega)
    unfold escU at hx
    simp only [List.mem_cons, List.not_mem_nil, or_false] at hx
    rcases hx with rfl | rfl | rfl | rfl | rfl | rfl
    · unfold noCtl; decide
    · unfold noCtl; decide
    · exact hd _
    · exact hd _
    · exact hd _
    · exact hd _
  · rw [he] at hx; exact (hp x hx).1

theorem intLit_noCtl (i : Int) : ∀ x ∈ intLit i, noCtl x := by
  intro x hx
  rw [intLit_eq] at hx
  rcases List.mem_append.mp hx with hx | hx
  · split at hx
    · simp only [List.mem_cons, List.not_mem_nil, or_false] at hx; subst hx; unfold noCtl; decide
    · simp at hx
  · have := digit_range (natLit_digits _ x hx)
    unfold noCtl; omega

theorem time_noCtl {zone : Int → Int} {t : Int} {j : J} (h : timeToJ zone t = some j) : ∀ x ∈ j.enc, noCtl x := by
  unfold timeToJ at h
  obtain ⟨b, hb, rfl⟩ := Option.map_eq_some_iff.mp h
  exact enc_str_noCtl (fun x hx => (fmtTime_plain hb x hx).1.1)

theorem metadata_noCtl {zone : Int → Int} {m : Metadata} {j : J} (h : metadataToJ zone m = some j) : ∀ x ∈ j.enc, noCtl x := by
  unfold metadataToJ at h
  obtain ⟨st, hst, rfl⟩ := Option.map_eq_some_iff.mp h
  apply enc_members_noCtl
  intro kv hkv
  simp only [List.mem_cons, List.not_mem_nil, or_false] at hkv
  rcases hkv with rfl | rfl | rfl
  · exact ⟨key_noCtl _ (by decide +kernel), enc_str_noCtl (quote_noCtl _)⟩
  · exact ⟨key_noCtl _ (by decide +kernel), by simp only [J.enc]; exact intLit_noCtl _⟩
  · exact ⟨key_noCtl _ (by decide +kernel), time_noCtl hst⟩

/-- A record's text has no control characters, in particular no newline. -/
theorem marshal_noCtl {zone : Int → Int} {r : ArchivalRecord} {b : Bytes} (h : marshalRecord zone r = some b) : ∀ x ∈ b, noCtl x := by
  unfold marshalRecord at h
  obtain ⟨j, hj, rfl⟩ := Option.map_eq_some_iff.mp h
  unfold recordToJ at hj
  obtain ⟨ts, hts, hj⟩ := Option.bind_eq_some_iff.mp hj
  simp only at hj
  have hraw : ∀ kv ∈ (if r.raw = [] then [] else [(key "RawIDM", bytesToJ r.rawIDM)]), (∀ x ∈ kv.1, noCtl x) ∧ ∀ x ∈ J.enc kv.2, noCtl x := by
    intro kv hkv
    split at hkv
    · simp at hkv
    · simp only [List.mem_cons, List.not_mem_nil, or_false] at hkv; subst hkv
      exact ⟨key_noCtl _ (by decide +kernel), enc_bytes_noCtl _⟩
  have hat : ∀ kv ∈ (if r.attrs = [] then [] else [(key "Attributes", J.arr (r.attrs.map (fun a => bytesToJ (a.map (·.val)))))]),
      (∀ x ∈ kv.1, noCtl x) ∧ ∀ x ∈ J.enc kv.2, noCtl x := by
    intro kv hkv
    split at hkv
    · simp at hkv
    · simp only [List.mem_cons, List.not_mem_nil, or_false] at hkv; subst hkv
      refine ⟨key_noCtl _ (by decide +kernel), enc_elems_noCtl ?_⟩
      intro j hj
      obtain ⟨a, _, rfl⟩ := List.mem_map.mp hj
      exact enc_bytes_noCtl _
  split at hj
  · obtain rfl := Option.some.inj hj
    apply enc_members_noCtl
    intro kv hkv
    simp only [List.mem_cons, List.mem_append] at hkv
    rcases hkv with rfl | hkv | hkv
    · exact ⟨key_noCtl _ (by decide +kernel), time_noCtl hts⟩
    · exact hraw kv hkv
    · exact hat kv hkv
  · obtain ⟨mj, hmj, rfl⟩ := Option.map_eq_some_iff.mp hj
    apply enc_members_noCtl
    intro kv hkv
    simp only [List.mem_cons, List.mem_append, List.not_mem_nil, or_false] at hkv
    rcases hkv with rfl | hkv | hkv | rfl
    · exact ⟨key_noCtl _ (by decide +kernel), time_noCtl hts⟩
    · exact hraw kv hkv
    · exact hat kv hkv
    · exact ⟨key_noCtl _ (by decide +kernel), metadata_noCtl hmj⟩

/-! ## Lines -/

theorem dropCR_noCtl {b : Bytes} (h : ∀ x ∈ b, noCtl x) : dropCR b = b := by
  unfold dropCR
  split
  · next e =>
    have := h 13 (List.mem_of_getLast? e)
    exact absurd this (by unfold noCtl; decide)
  · rfl

theorem scanLines_line (t r : Bytes) (ht : ∀ x ∈ t, x ≠ 10) : ∀ cur, (cur ++ t).length < maxScanTokenSize →
    scanLines cur (t ++ 10 :: r) = (dropCR (cur ++ t) :: (scanLines [] r).1, (scanLines [] r).2) := by
  induction t with
  | nil =>
    intro cur h
    rw [List.append_nil] at h
    rw [List.nil_append, List.append_nil, scanLines.eq_def]
    simp only
    rw [if_neg (by omega), if_pos trivial]
  | cons c t ih =>
    intro cur h
    rw [List.cons_append, scanLines.eq_def]
    simp only
    have hlen : cur.length < maxScanTokenSize := by rw [List.length_append] at h; omega
    rw [if_neg (by omega), if_neg (ht c (by simp)), ih (fun x hx => ht x (by simp [hx])) (cur ++ [c]) (by simpa using h)]
    simp

theorem scanLines_last (t : Bytes) (ht : ∀ x ∈ t, x ≠ 10) : ∀ cur, (cur ++ t).length < maxScanTokenSize →
    scanLines cur t = (if cur ++ t = [] then [] else [dropCR (cur ++ t)], false) := by
  induction t with
  | nil =>
    intro cur h
    rw [List.append_nil] at h ⊢
    rw [scanLines.eq_def]
    simp only
    rw [if_neg (by omega)]
    split <;> rfl
  | cons c t ih =>
    intro cur h
    rw [scanLines.eq_def]
    simp only
    have hlen : cur.length < maxScanTokenSize := by rw [List.length_append] at h; omega
    rw [if_neg (by omega), if_neg (ht c (by simp)), ih (fun x hx => ht x (by simp [hx])) (cur ++ [c]) (by simpa using h)]
    simp

theorem scanLines_long (t r : Bytes) (ht : ∀ x ∈ t, x ≠ 10) : ∀ cur, maxScanTokenSize ≤ (cur ++ t).length → scanLines cur (t ++ r) = ([], true) := by
  induction t with
  | nil =>
    intro cur h
    rw [List.append_nil] at h
    rw [List.nil_append, scanLines.eq_def]
    cases r <;> simp only <;> rw [if_pos h]
  | cons c t ih =>
    intro cur h
    rw [List.cons_append, scanLines.eq_def]
    simp only
    split
    · rfl
    · rw [if_neg (ht c (by simp)), ih (fun x hx => ht x (by simp [hx])) (cur ++ [c]) (by simpa using h)]

/-- The scanner finds the lines of the specification, if none is too long. -/
theorem scanLines_split (b : Bytes) : ∀ cur, (∀ x ∈ cur, x ≠ 10) →
    (∀ l ∈ Spec.splitLines (cur ++ b), l.length < maxScanTokenSize) →
    scanLines cur b = ((Spec.splitLines (cur ++ b)).map Spec.stripCR, false) := by
  have hpre : ∀ (cur : Bytes) (r : Bytes), (∀ x ∈ cur, x ≠ 10) → Spec.splitLines (cur ++ 10 :: r) = cur :: Spec.splitLines r := by
    intro cur r h
    induction cur with
    | nil => rw [List.nil_append, Spec.splitLines.eq_def]; simp
    | cons c cur ih =>
      rw [List.cons_append, Spec.splitLines.eq_def]
      simp only
      rw [if_neg (h c (by simp)), ih (fun x hx => h x (by simp [hx]))]
  have hend : ∀ (cur : Bytes), (∀ x ∈ cur, x ≠ 10) → Spec.splitLines cur = if cur = [] then [] else [cur] := by
    intro cur h
    induction cur with
    | nil => rfl
    | cons c cur ih =>
      rw [Spec.splitLines.eq_def]
      simp only
      rw [if_neg (h c (by simp)), ih (fun x hx => h x (by simp [hx]))]
      cases cur <;> simp
  induction b with
  | nil =>
    intro cur hc hl
    rw [List.append_nil] at hl ⊢
    rw [hend cur hc] at hl ⊢
    rw [scanLines.eq_def]
    simp only
    split
    · next e =>
      rw [if_neg (by intro h; subst h; simp at e)] at hl
      have := hl cur (by simp)
      omega
    · split <;> rfl
  | cons c r ih =>
    intro cur hc hl
    rw [scanLines.eq_def]
    simp only
    by_cases h10 : c = 10
    · subst h10
      rw [hpre cur r hc] at hl ⊢
      have h1 := hl cur (by simp)
      rw [if_neg (by omega), if_pos rfl, ih [] (by simp) (by intro l hl'; rw [List.nil_append] at hl'; exact hl l (by simp [hl']))]
      rfl
    · have hc' : ∀ x ∈ cur ++ [c], x ≠ 10 := by
        intro x hx
        rcases List.mem_append.mp hx with hx | hx
        · exact hc x hx
        · simp only [List.mem_cons, List.not_mem_nil, or_false] at hx; subst hx; exact h10
      have e : cur ++ c :: r = (cur ++ [c]) ++ r := by simp
      rw [e] at hl ⊢
      have hlen : ¬ maxScanTokenSize ≤ cur.length := by
        intro hle
        have : ∃ l ∈ Spec.splitLines ((cur ++ [c]) ++ r), maxScanTokenSize ≤ l.length := by
          have key : ∀ (r p : Bytes), (∀ x ∈ p, x ≠ 10) → p ≠ [] → ∃ l ∈ Spec.splitLines (p ++ r), p.length ≤ l.length := by
            intro r
            induction r with
            | nil => intro p hp hne; rw [List.append_nil, hend p hp, if_neg hne]; exact ⟨p, by simp, Nat.le_refl _⟩
            | cons d r ih' =>
              intro p hp hne
              by_cases hd : d = 10
              · subst hd; rw [hpre p r hp]; exact ⟨p, by simp, Nat.le_refl _⟩
              · have e2 : p ++ d :: r = (p ++ [d]) ++ r := by simp
                rw [e2]
                obtain ⟨l, hl1, hl2⟩ := ih' (p ++ [d]) (by
                  intro x hx
                  rcases List.mem_append.mp hx with hx | hx
                  · exact hp x hx
                  · simp only [List.mem_cons, List.not_mem_nil, or_false] at hx; subst hx; exact hd) (by simp)
                exact ⟨l, hl1, by rw [List.length_append] at hl2; omega⟩
          obtain ⟨l, h1, h2⟩ := key r (cur ++ [c]) hc' (by simp)
          exact ⟨l, h1, by rw [List.length_append] at h2; omega⟩
        obtain ⟨l, h1, h2⟩ := this
        have := hl l h1
        omega
      rw [if_neg hlen, if_neg h10, ih (cur ++ [c]) hc' hl]

theorem splitLines_pre (cur r : Bytes) (h : ∀ x ∈ cur, x ≠ 10) : Spec.splitLines (cur ++ 10 :: r) = cur :: Spec.splitLines r := by
  induction cur with
  | nil => rw [List.nil_append, Spec.splitLines.eq_def]; simp
  | cons c cur ih =>
    rw [List.cons_append, Spec.splitLines.eq_def]
    simp only
    rw [if_neg (h c (by simp)), ih (fun x hx => h x (by simp [hx]))]

theorem splitLines_end (cur : Bytes) (h : ∀ x ∈ cur, x ≠ 10) : Spec.splitLines cur = if cur = [] then [] else [cur] := by
  induction cur with
  | nil => rfl
  | cons c cur ih =>
    rw [Spec.splitLines.eq_def]
    simp only
    rw [if_neg (h c (by simp)), ih (fun x hx => h x (by simp [hx]))]
    cases cur <;> simp

/-- The first line is at least as long as what is known of it. -/
theorem splitLines_first (r : Bytes) : ∀ p : Bytes, (∀ x ∈ p, x ≠ 10) → p ≠ [] → ∃ l ls, Spec.splitLines (p ++ r) = l :: ls ∧ p.length ≤ l.length := by
  induction r with
  | nil => intro p hp hne; rw [List.append_nil, splitLines_end p hp, if_neg hne]; exact ⟨p, [], rfl, Nat.le_refl _⟩
  | cons d r ih =>
    intro p hp hne
    by_cases hd : d = 10
    · subst hd; rw [splitLines_pre p r hp]; exact ⟨p, _, rfl, Nat.le_refl _⟩
    · have e2 : p ++ d :: r = (p ++ [d]) ++ r := by simp
      rw [e2]
      obtain ⟨l, ls, hl1, hl2⟩ := ih (p ++ [d]) (by
        intro x hx
        rcases List.mem_append.mp hx with hx | hx
        · exact hp x hx
        · simp only [List.mem_cons, List.not_mem_nil, or_false] at hx; subst hx; exact hd) (by simp)
      exact ⟨l, ls, hl1, by rw [List.length_append] at hl2; omega⟩

/-- The scanner finds the lines of the specification up to the first that is too long. -/
theorem scanLines_fit (b : Bytes) : ∀ cur, (∀ x ∈ cur, x ≠ 10) →
    (scanLines cur b).1 = ((Spec.splitLines (cur ++ b)).takeWhile (fun l => l.length < maxScanTokenSize)).map Spec.stripCR := by
  induction b with
  | nil =>
    intro cur hc
    rw [List.append_nil, splitLines_end cur hc, scanLines.eq_def]
    simp only
    by_cases hle : maxScanTokenSize ≤ cur.length
    · rw [if_pos hle, if_neg (by intro h; subst h; simp [maxScanTokenSize] at hle), List.takeWhile_cons_of_neg (by simp; omega)]; rfl
    · rw [if_neg hle]
      split
      · rfl
      · rw [List.takeWhile_cons_of_pos (by simp; omega)]; rfl
  | cons c r ih =>
    intro cur hc
    rw [scanLines.eq_def]
    simp only
    by_cases h10 : c = 10
    · subst h10
      rw [splitLines_pre cur r hc]
      by_cases hle : maxScanTokenSize ≤ cur.length
      · rw [if_pos hle, List.takeWhile_cons_of_neg (by simp; omega)]; rfl
      · rw [if_neg hle, if_pos rfl, List.takeWhile_cons_of_pos (by simp; omega), List.map_cons, ih [] (by simp)]
        rfl
    · have hc' : ∀ x ∈ cur ++ [c], x ≠ 10 := by
        intro x hx
        rcases List.mem_append.mp hx with hx | hx
        · exact hc x hx
        · simp only [List.mem_cons, List.not_mem_nil, or_false] at hx; subst hx; exact h10
      have e : cur ++ c :: r = (cur ++ [c]) ++ r := by simp
      by_cases hle : maxScanTokenSize ≤ cur.length
      · obtain ⟨l, ls, h1, h2⟩ := splitLines_first r (cur ++ [c]) hc' (by simp)
        rw [List.length_append] at h2
        rw [if_pos hle, e, h1, List.takeWhile_cons_of_neg (by simp; omega)]; rfl
      · rw [if_neg hle, if_neg h10, ih (cur ++ [c]) hc', e]

/-- Tokens in front of others. -/
theorem archiveTokens_append (ts us : List Bytes) (rs : List ArchivalRecord) (h : ts.map unmarshalRecord = rs.map some) :
    archiveTokens (ts ++ us) = { archiveTokens us with records := rs ++ (archiveTokens us).records } := by
  induction ts generalizing rs with
  | nil => cases rs <;> simp_all
  | cons t ts ih =>
    cases rs with
    | nil => simp at h
    | cons r rs =>
      simp only [List.map_cons, List.cons.injEq] at h
      rw [List.cons_append, archiveTokens.eq_def]
      simp only
      rw [h.1]
      simp only
      rw [ih rs h.2]
      rfl

theorem scanLines_lines (ts : List Bytes) (hn : ∀ t ∈ ts, ∀ x ∈ t, noCtl x) (hl : ∀ t ∈ ts, t.length < maxScanTokenSize) (r : Bytes) :
    scanLines [] (Spec.linesText ts ++ r) = (ts ++ (scanLines [] r).1, (scanLines [] r).2) := by
  induction ts with
  | nil => simp [Spec.linesText]
  | cons t ts ih =>
    have e : Spec.linesText (t :: ts) ++ r = t ++ 10 :: (Spec.linesText ts ++ r) := by simp [Spec.linesText]
    have hn10 : ∀ x ∈ t, x ≠ 10 := by
      intro x hx e; subst e
      have := hn t (by simp) 10 hx
      exact absurd this (by unfold noCtl; decide)
    rw [e, scanLines_line t _ hn10 [] (by simpa using hl t (by simp)), ih (fun t ht => hn t (by simp [ht])) (fun t ht => hl t (by simp [ht]))]
    rw [List.nil_append, dropCR_noCtl (hn t (by simp))]
    rfl

end TcpInfo
