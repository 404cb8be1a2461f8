import Verif.Lemmas.Archive
import Verif.Lemmas.Snapshot
/-!
# Properties C22, C23, C24: archive files
-/

namespace TcpInfo
open Spec

/-! ## C22 -/

/-- C22. A file with one line of JSON per record (times, raw messages, attribute tables and metadata arbitrary; the sequence number is a Go `int`) is loaded
back without error as records with the same contents in the same order, if no line has 64 KiB. `zone` is the time zone of each instant. -/
theorem C22_roundtrip (zone : Int → Int) (hz : ∀ t, (zone t).natAbs < 24 * 60) (rs : List ArchivalRecord) (lines : List Bytes)
    (hm : rs.map (marshalRecord zone) = lines.map some)
    (hs : ∀ r ∈ rs, ∀ m, r.metadata = some m → -2 ^ 63 ≤ m.sequence ∧ m.sequence < 2 ^ 63)
    (hl : ∀ l ∈ lines, l.length < 65536) :
    ∃ out, loadAllArchivalRecords ⟨linesText lines, .eof⟩ = (out, none) ∧ out.length = rs.length
      ∧ ∀ (i : Nat) (a b : ArchivalRecord), rs[i]? = some a → out[i]? = some b → SameContents a b := by
  have hn : ∀ t ∈ lines, ∀ x ∈ t, noCtl x := by
    intro t ht
    have : some t ∈ rs.map (marshalRecord zone) := by rw [hm]; exact List.mem_map.mpr ⟨t, ht, rfl⟩
    obtain ⟨r, _, hr⟩ := List.mem_map.mp this
    exact marshal_noCtl hr
  have hsc := scanLines_lines lines hn hl []
  rw [List.append_nil] at hsc
  have hu : lines.map unmarshalRecord = (rs.map normRecord).map some := by
    clear hsc hn hl
    induction rs generalizing lines with
    | nil => cases lines <;> simp_all
    | cons r rs ih =>
      cases lines with
      | nil => simp at hm
      | cons l lines =>
        simp only [List.map_cons, List.cons.injEq] at hm ⊢
        refine ⟨unmarshal_marshal hz (fun m hmm => ?_) hm.1, ih lines hm.2 (fun r hr => hs r (by simp [hr]))⟩
        have := hs r (by simp) m hmm
        exact ⟨this.1, by have := this.2; unfold maxInt64; omega⟩
  refine ⟨rs.map normRecord, ?_, by simp, ?_⟩
  · unfold loadAllArchivalRecords archiveStream
    simp only
    rw [hsc]
    have := archiveTokens_append lines (scanLines [] []).1 _ hu
    rw [this, show archiveTokens (scanLines [] []).1 = ⟨[], some .eof⟩ from rfl]
    simp
  · intro i a b ha hb
    rw [List.getElem?_map, ha] at hb
    obtain rfl := Option.some.inj hb
    exact normRecord_same a

/-- C22. No record's text has a newline (or another control character) in it. -/
theorem C22_one_line (zone : Int → Int) (r : ArchivalRecord) (b : Bytes) (h : marshalRecord zone r = some b) : (10 : UInt8) ∉ b ∧ ∀ x ∈ b, 32 ≤ x.toNat := by
  refine ⟨fun h10 => ?_, marshal_noCtl h⟩
  have := marshal_noCtl h 10 h10
  exact absurd this (by unfold noCtl; decide)

theorem civil_year {d : Int} (h1 : -719528 ≤ d) (h2 : d ≤ 2932896) : 0 ≤ (civil d).1 ∧ (civil d).1 ≤ 9999 := by
  constructor
  · by_cases h : d < -719468
    · have key : ∀ k : Fin 60, 0 ≤ (civil (-719528 + (k.val : Int))).1 := by decide
      have := key ⟨(d + 719528).toNat, by omega⟩
      simp only at this
      rwa [show -719528 + ((d + 719528).toNat : Int) = d by omega] at this
    · unfold civil
      simp only
      split <;> split <;> omega
  · unfold civil
    simp only
    split <;> split <;> omega

theorem fmtTime_some {off t : Int} (h1 : year0 ≤ t + off * 60 * nsPerSec) (h2 : t + off * 60 * nsPerSec < year10000) : (fmtTime off t).isSome = true := by
  unfold fmtTime
  simp only
  unfold year0 at h1
  unfold year10000 at h2
  rw [if_pos (civil_year (by unfold nsPerSec at *; omega) (by unfold nsPerSec at *; omega))]
  rfl

/-- C22. Every record whose times fall into the years 0 to 9999 (where they are written) is marshalled. -/
theorem C22_marshals (zone : Int → Int) (r : ArchivalRecord)
    (ht : ∀ t ∈ r.timestamp :: (r.metadata.map Metadata.startTime).toList,
      year0 ≤ t + zone t * 60 * 1000000000 ∧ t + zone t * 60 * 1000000000 < year10000) :
    ∃ b, marshalRecord zone r = some b := by
  have ht1 := ht r.timestamp (by simp)
  obtain ⟨ts, hts⟩ := Option.isSome_iff_exists.mp (fmtTime_some (off := zone r.timestamp) (t := r.timestamp) ht1.1 ht1.2)
  unfold marshalRecord recordToJ timeToJ
  rw [hts]
  simp only [Option.map_some, Option.bind_some]
  cases hm : r.metadata with
  | none => exact ⟨_, rfl⟩
  | some m =>
    have ht2 := ht m.startTime (by simp [hm])
    obtain ⟨st, hst⟩ := Option.isSome_iff_exists.mp (fmtTime_some (off := zone m.startTime) (t := m.startTime) ht2.1 ht2.2)
    unfold metadataToJ timeToJ
    simp only
    rw [hst]
    exact ⟨_, rfl⟩

/-- An example: times with and without fraction, a raw message, nil, empty and other attributes, metadata with a quote and a letter outside ASCII. -/
def exRecord1 : ArchivalRecord :=
  { timestamp := 1262304000123000000, rawIDM := some [1, 2, 255, 0], attributes := some [none, some ⟨[], [7]⟩, some ⟨[9, 8, 7, 6, 5], []⟩],
    metadata := none }
def exRecord2 : ArchivalRecord :=
  { timestamp := -1, rawIDM := none, attributes := none, metadata := some ⟨"a\"é\n", 7, 951782400000000000⟩ }

-- the texts, in UTC and one hour east of it
example : marshalRecord (fun _ => 0) exRecord1 =
    some (asc "{\"Timestamp\":\"2010-01-01T00:00:00.123Z\",\"RawIDM\":\"AQL/AA==\",\"Attributes\":[null,\"\",\"CQgHBgU=\"]}") := by decide +kernel
example : marshalRecord (fun _ => 60) exRecord1 =
    some (asc "{\"Timestamp\":\"2010-01-01T01:00:00.123+01:00\",\"RawIDM\":\"AQL/AA==\",\"Attributes\":[null,\"\",\"CQgHBgU=\"]}") := by decide +kernel
example : marshalRecord (fun _ => 0) exRecord2 = some (asc "{\"Timestamp\":\"1969-12-31T23:59:59.999999999Z\",\"Metadata\":{\"UUID\":\"a\\\"" ++
    [0xC3, 0xA9] ++ asc "\\n\",\"Sequence\":7,\"StartTime\":\"2000-02-29T00:00:00Z\"}}") := by decide +kernel
-- the hypotheses of C22_roundtrip are met, and what comes back
example : ∃ lines, [exRecord1, exRecord2].map (marshalRecord (fun _ => 60)) = lines.map some ∧ (∀ l ∈ lines, l.length < 65536)
    ∧ (loadAllArchivalRecords ⟨linesText lines, .eof⟩).1.map (fun r => (r.timestamp, r.rawIDM, r.attrs.map attrContents, r.metadata)) =
      [(1262304000123000000, some [1, 2, 255, 0], [none, some [], some [9, 8, 7, 6, 5]], none),
       (-1, none, [], some ⟨"a\"é\n", 7, 951782400000000000⟩)] :=
  ⟨[exRecord1, exRecord2].map (fun r => (marshalRecord (fun _ => 60) r).getD []), by decide +kernel, by decide +kernel, by decide +kernel⟩
example : year0 ≤ 1262304000123000000 ∧ (1262304000123000000 : Int) < year10000 := by decide +kernel

/-! ## C23 -/

/-- How a list of lines is loaded: the records up to the first line that is not a record, and whether there is such a line. -/
theorem loadTokens (ts : List Bytes) :
    (∃ rs, ts.map unmarshalRecord = rs.map some ∧ archiveTokens ts = ⟨rs, some .eof⟩)
    ∨ ∃ pre t post rs, ts = pre ++ t :: post ∧ pre.map unmarshalRecord = rs.map some ∧ unmarshalRecord t = none ∧ archiveTokens ts = ⟨rs, some .json⟩ := by
  induction ts with
  | nil => exact Or.inl ⟨[], rfl, rfl⟩
  | cons t ts ih =>
    rw [archiveTokens.eq_def]
    simp only
    cases hu : unmarshalRecord t with
    | none => exact Or.inr ⟨[], t, ts, [], rfl, rfl, hu, rfl⟩
    | some r =>
      rcases ih with ⟨rs, h1, h2⟩ | ⟨pre, t', post, rs, h1, h2, h3, h4⟩
      · refine Or.inl ⟨r :: rs, by simp [hu, h1], ?_⟩
        simp only; rw [h2]
      · refine Or.inr ⟨t :: pre, t', post, r :: rs, by simp [h1], by simp [hu, h2], h3, ?_⟩
        simp only; rw [h4]

/-- C23 (partial: the reader does not fail and no line has 64 KiB, see `C23_violated_*`). Loading returns one record for each line; or some line is not a
record, then an error and the records of the lines before it. -/
theorem C23_all_or_error_partial (data : Bytes) (hl : ∀ l ∈ splitLines data, l.length < 65536) :
    (∃ rs, (splitLines data).map (fun l => unmarshalRecord (stripCR l)) = rs.map some ∧ loadAllArchivalRecords ⟨data, .eof⟩ = (rs, none))
    ∨ ∃ pre bad post rs, splitLines data = pre ++ bad :: post ∧ unmarshalRecord (stripCR bad) = none
      ∧ pre.map (fun l => unmarshalRecord (stripCR l)) = rs.map some ∧ loadAllArchivalRecords ⟨data, .eof⟩ = (rs, some .json) := by
  have hsc := scanLines_split data [] (by simp) hl
  rw [List.nil_append] at hsc
  unfold loadAllArchivalRecords archiveStream
  simp only
  rw [hsc]
  rcases loadTokens ((splitLines data).map stripCR) with ⟨rs, h1, h2⟩ | ⟨pre, t, post, rs, h1, h2, h3, h4⟩
  · refine Or.inl ⟨rs, by rw [← h1, List.map_map]; rfl, ?_⟩
    rw [h2]; rfl
  · obtain ⟨pre', rest, e1, e2, e3⟩ := List.map_eq_append_iff.mp h1
    obtain ⟨t', post', e4, e5, e6⟩ := List.map_eq_cons_iff.mp e3
    refine Or.inr ⟨pre', t', post', rs, by rw [e1, e4], by rw [e5]; exact h3, by rw [← h2, ← e2, List.map_map]; rfl, ?_⟩
    rw [h4]; simp

/-- C23, exactly, for every input and every error of the reader. Let the lines be read up to the first of 64 KiB or more. If they are all records, they are
returned, and no error; otherwise those before the first that is none, and an error. What is behind a line of 64 KiB, and an error of the reader, change
nothing. -/
theorem C23_exact (src : Source) :
    (∃ rs, ((splitLines src.bytes).takeWhile (fun l => l.length < 65536)).map (fun l => unmarshalRecord (stripCR l)) = rs.map some
      ∧ loadAllArchivalRecords src = (rs, none))
    ∨ ∃ pre bad post rs, (splitLines src.bytes).takeWhile (fun l => l.length < 65536) = pre ++ bad :: post ∧ unmarshalRecord (stripCR bad) = none
      ∧ pre.map (fun l => unmarshalRecord (stripCR l)) = rs.map some ∧ loadAllArchivalRecords src = (rs, some .json) := by
  have hsc := scanLines_fit src.bytes [] (by simp)
  rw [List.nil_append] at hsc
  unfold loadAllArchivalRecords archiveStream
  simp only
  rw [hsc]
  rcases loadTokens (((splitLines src.bytes).takeWhile (fun l => l.length < 65536)).map stripCR) with ⟨rs, h1, h2⟩ | ⟨pre, t, post, rs, h1, h2, h3, h4⟩
  · refine Or.inl ⟨rs, by rw [← h1, List.map_map]; rfl, ?_⟩
    rw [show maxScanTokenSize = 65536 from rfl, h2]; rfl
  · obtain ⟨pre', rest, e1, e2, e3⟩ := List.map_eq_append_iff.mp h1
    obtain ⟨t', post', e4, e5, e6⟩ := List.map_eq_cons_iff.mp e3
    refine Or.inr ⟨pre', t', post', rs, by rw [e1, e4], by rw [e5]; exact h3, by rw [← h2, ← e2, List.map_map]; rfl, ?_⟩
    rw [show maxScanTokenSize = 65536 from rfl, h4]; simp

theorem takeWhile_split {α : Type} (p : α → Bool) (l : List α) : (∀ x ∈ l, p x = true) ∧ l.takeWhile p = l
    ∨ ∃ x post, l = l.takeWhile p ++ x :: post ∧ p x = false := by
  induction l with
  | nil => simp
  | cons a l ih =>
    cases ha : p a with
    | false => exact Or.inr ⟨a, l, by simp [ha], ha⟩
    | true =>
      rcases ih with ⟨h1, h2⟩ | ⟨x, post, h1, h2⟩
      · exact Or.inl ⟨by simpa [ha] using h1, by simp [ha, h2]⟩
      · exact Or.inr ⟨x, post, by rw [List.takeWhile_cons_of_pos ha, List.cons_append, ← h1], h2⟩

/-- C23, exactly: records are lost without an error if and only if some line has 64 KiB or more and all lines before it are records. -/
theorem C23_silent_iff (src : Source) :
    ((loadAllArchivalRecords src).2 = none ∧ (loadAllArchivalRecords src).1.length < (splitLines src.bytes).length)
    ↔ ∃ pre long post, splitLines src.bytes = pre ++ long :: post ∧ 65536 ≤ long.length
      ∧ ∀ l ∈ pre, l.length < 65536 ∧ unmarshalRecord (stripCR l) ≠ none := by
  have hfit : ∀ l ∈ (splitLines src.bytes).takeWhile (fun l => l.length < 65536), l.length < 65536 := by
    intro l hl
    have := List.all_takeWhile (p := fun l : Bytes => decide (l.length < 65536)) (l := splitLines src.bytes)
    simpa using List.all_eq_true.mp this l hl
  constructor
  · rintro ⟨h1, h2⟩
    rcases C23_exact src with ⟨rs, e1, e2⟩ | ⟨pre, bad, post, rs, _, _, _, e4⟩
    · rw [e2] at h2
      have hlen := congrArg List.length e1
      simp only [List.length_map] at hlen
      rcases takeWhile_split (fun l : Bytes => decide (l.length < 65536)) (splitLines src.bytes) with ⟨_, h4⟩ | ⟨x, post, h3, h4⟩
      · rw [h4] at hlen; simp only at h2; omega
      · refine ⟨_, x, post, h3, by simpa using h4, fun l hl => ⟨hfit l hl, ?_⟩⟩
        intro hn
        have hm : unmarshalRecord (stripCR l) ∈ rs.map some := by rw [← e1]; exact List.mem_map.mpr ⟨l, hl, rfl⟩
        rw [hn] at hm
        simp at hm
    · rw [e4] at h1; simp at h1
  · rintro ⟨pre, long, post, h1, h2, h3⟩
    have htw : (splitLines src.bytes).takeWhile (fun l => l.length < 65536) = pre := by
      rw [h1, List.takeWhile_append_of_pos (by intro l hl; simpa using (h3 l hl).1), List.takeWhile_cons_of_neg (by simpa using h2), List.append_nil]
    rcases C23_exact src with ⟨rs, e1, e2⟩ | ⟨pre', bad, post', rs, e1, e2, _, _⟩
    · have hlen := congrArg List.length e1
      rw [htw] at hlen
      simp only [List.length_map] at hlen
      rw [e2, h1]
      refine ⟨rfl, ?_⟩
      simp only [List.length_append, List.length_cons]
      omega
    · rw [htw] at e1
      exact absurd e2 (h3 bad (by rw [e1]; simp)).2

/-- `Decode` does not return `io.EOF`. -/
theorem decode_ne_eof (r : ArchivalRecord) : decode r ≠ .err .eof := by
  intro h
  unfold decode at h
  by_cases h0 : r.metadata = none ∧ r.rawIDM = none
  · rw [if_pos h0] at h; simp at h
  · rw [if_neg h0] at h
    simp only at h
    cases hr : r.rawIDM with
    | none =>
      rw [hr] at h
      simp only at h
      split at h <;> simp at h
    | some raw =>
      rw [hr] at h
      simp only at h
      have hp : parseIDM raw = .err .parseFailed ∨ ∃ m, parseIDM raw = .ok m := by
        unfold parseIDM; simp only; split
        · exact Or.inl rfl
        · exact Or.inr ⟨_, rfl⟩
      rcases hp with hp | ⟨m, hp⟩
      · rw [hp] at h; simp at h
      · rw [hp] at h
        simp only at h
        split at h <;> simp at h

/-- C23 (partial, as above), for `snapshot.LoadAll`: a line that is not a record is an error. -/
theorem C23_snapshots_partial (data : Bytes) (hl : ∀ l ∈ splitLines data, l.length < 65536) (md : Option Metadata) (snaps : List Snapshot)
    (h : loadAll (archiveStream ⟨data, .eof⟩) = .ok (md, snaps)) : snaps.length = (splitLines data).length := by
  have hsc := scanLines_split data [] (by simp) hl
  rw [List.nil_append] at hsc
  unfold archiveStream at h
  simp only at h
  rw [hsc] at h
  have hlen : ∀ (fin : Option GoErr) (rs : List ArchivalRecord) (md0 : Option Metadata) (acc : List Snapshot),
      loadAllLoop fin rs md0 acc = .ok (md, snaps) → fin = some .eof ∧ snaps.length = acc.length + rs.length := by
    intro fin rs
    induction rs with
    | nil =>
      intro md0 acc h
      rw [loadAllLoop.eq_def] at h
      simp only at h
      split at h <;> simp_all
    | cons r rs ih =>
      intro md0 acc h
      rw [loadAllLoop.eq_def] at h
      simp only at h
      split at h
      · simp at h
      · next e he =>
        split at h
        · next heq =>
          -- decoding a record does not give `io.EOF`
          subst heq
          exact absurd he (decode_ne_eof _)
        · simp at h
      · next m s he =>
        have := ih _ _ h
        refine ⟨this.1, ?_⟩
        rw [this.2]; simp; omega
  unfold loadAll at h
  obtain ⟨h1, h2⟩ := hlen _ _ _ _ h
  rcases loadTokens ((splitLines data).map stripCR) with ⟨rs, e1, e2⟩ | ⟨pre, t, post, rs, _, _, _, e4⟩
  · rw [e2] at h2
    have := congrArg List.length e1
    simp only [List.length_map] at this
    simp only [List.length_nil, Nat.zero_add] at h2
    omega
  · rw [e4] at h1; simp at h1

/-- C23 violated, in general: a line of 64 KiB or more (which `json.Marshal` may well have written) hides itself and everything behind it: the records
before it are returned, and no error, by `LoadAllArchivalRecords`; `snapshot.LoadAll` cannot tell it from the end of the file either. -/
theorem C23_violated_long (zone : Int → Int) (hz : ∀ t, (zone t).natAbs < 24 * 60) (rs : List ArchivalRecord) (lines : List Bytes)
    (hm : rs.map (marshalRecord zone) = lines.map some)
    (hs : ∀ r ∈ rs, ∀ m, r.metadata = some m → -2 ^ 63 ≤ m.sequence ∧ m.sequence < 2 ^ 63)
    (hl : ∀ l ∈ lines, l.length < 65536) (long rest : Bytes) (hlong : 65536 ≤ long.length) (hnl : 10 ∉ long) :
    loadAllArchivalRecords ⟨linesText lines ++ long ++ 10 :: rest, .eof⟩ = loadAllArchivalRecords ⟨linesText lines, .eof⟩
    ∧ loadAll (archiveStream ⟨linesText lines ++ long ++ 10 :: rest, .eof⟩) = loadAll (archiveStream ⟨linesText lines, .eof⟩)
    ∧ (loadAllArchivalRecords ⟨linesText lines ++ long ++ 10 :: rest, .eof⟩).2 = none
    ∧ (loadAllArchivalRecords ⟨linesText lines ++ long ++ 10 :: rest, .eof⟩).1.length = rs.length := by
  have hn : ∀ t ∈ lines, ∀ x ∈ t, noCtl x := by
    intro t ht
    have : some t ∈ rs.map (marshalRecord zone) := by rw [hm]; exact List.mem_map.mpr ⟨t, ht, rfl⟩
    obtain ⟨r, _, hr⟩ := List.mem_map.mp this
    exact marshal_noCtl hr
  have e1 : scanLines [] (linesText lines ++ long ++ 10 :: rest) = (lines, true) := by
    rw [List.append_assoc, scanLines_lines lines hn hl,
      scanLines_long long (10 :: rest) (fun x hx e => hnl (e ▸ hx)) [] (by simpa using hlong)]
    simp
  have e2 : scanLines [] (linesText lines) = (lines, false) := by
    have := scanLines_lines lines hn hl []
    rw [List.append_nil] at this
    rw [this]; simp [scanLines]
  have hst : archiveStream ⟨linesText lines ++ long ++ 10 :: rest, .eof⟩ = archiveStream ⟨linesText lines, .eof⟩ := by
    unfold archiveStream; rw [e1, e2]
  obtain ⟨out, h1, h2, _⟩ := C22_roundtrip zone hz rs lines hm hs hl
  have hld : loadAllArchivalRecords ⟨linesText lines ++ long ++ 10 :: rest, .eof⟩ = loadAllArchivalRecords ⟨linesText lines, .eof⟩ := by
    unfold loadAllArchivalRecords; rw [hst]
  exact ⟨hld, by rw [hst], by rw [hld, h1], by rw [hld, h1]; exact h2⟩

/-- C23 violated: an error of the reader is taken for the end of the file, wherever it happens. -/
theorem C23_violated_read_error (data : Bytes) (e : GoErr) :
    loadAllArchivalRecords ⟨data, e⟩ = loadAllArchivalRecords ⟨data, .eof⟩
    ∧ loadAll (archiveStream ⟨data, e⟩) = loadAll (archiveStream ⟨data, .eof⟩) := ⟨rfl, rfl⟩

theorem b64Enc_length (b : Bytes) : b.length ≤ (b64Enc b).length := by
  fun_induction b64Enc b <;> simp_all <;> omega

/-- C23 violated: there are three records whose file is loaded as the first of them, without error. (The second one has an attribute of 64 KiB.) -/
theorem C23_violated : ∃ a b c ta tb tc, marshalRecord (fun _ => 0) a = some ta ∧ marshalRecord (fun _ => 0) b = some tb
    ∧ marshalRecord (fun _ => 0) c = some tc
    ∧ (loadAllArchivalRecords ⟨linesText [ta, tb, tc], .eof⟩).2 = none
    ∧ (loadAllArchivalRecords ⟨linesText [ta, tb, tc], .eof⟩).1.length = 1 := by
  obtain ⟨n, hn⟩ : ∃ n, n = 65536 := ⟨_, rfl⟩
  let big : ArchivalRecord := { timestamp := 0, rawIDM := none, attributes := some [some ⟨List.replicate n 0, []⟩], metadata := none }
  obtain ⟨tb, htb⟩ := C22_marshals (fun _ => 0) big (by simp [big, year0, year10000])
  obtain ⟨ta, hta⟩ := C22_marshals (fun _ => 0) exRecord1 (by simp [exRecord1, year0, year10000])
  have hta' : ta.length < 65536 := by
    have : (marshalRecord (fun _ => 0) exRecord1).map List.length = some ta.length := by rw [hta]; rfl
    rw [show (marshalRecord (fun _ => 0) exRecord1).map List.length = some 94 by decide +kernel] at this
    have := Option.some.inj this
    omega
  have hlong : 65536 ≤ tb.length := by
    have hb : marshalRecord (fun _ => 0) big = some tb := htb
    unfold marshalRecord at hb
    obtain ⟨j, hj, rfl⟩ := Option.map_eq_some_iff.mp hb
    unfold recordToJ at hj
    obtain ⟨ts, _, hj⟩ := Option.bind_eq_some_iff.mp hj
    have hraw : big.raw = [] := rfl
    have hattr : big.attrs = [some ⟨List.replicate n 0, []⟩] := rfl
    have hmd : big.metadata = none := rfl
    simp only [hraw, hattr, hmd, if_true, List.nil_append] at hj
    rw [if_neg (by simp)] at hj
    obtain rfl := Option.some.inj hj
    have := b64Enc_length (List.replicate n 0)
    rw [List.length_replicate] at this
    simp only [J.enc, encMembers_cons, encElems_cons, List.map_cons, List.map_nil, bytesToJ, Option.map_some, List.length_cons, List.length_append]
    omega
  refine ⟨exRecord1, big, exRecord1, ta, tb, ta, hta, htb, hta, ?_⟩
  have := C23_violated_long (fun _ => 0) (fun _ => by decide) [exRecord1] [ta] (by simp [hta]) (by simp [exRecord1]) (by simpa using hta') tb (ta ++ [10])
    hlong (C22_one_line _ _ _ htb).1
  have e : linesText [ta, tb, ta] = linesText [ta] ++ tb ++ 10 :: (ta ++ [10]) := by simp [linesText]
  rw [e]
  exact ⟨this.2.2.1, this.2.2.2⟩

-- both cases of C23_all_or_error_partial occur
example : loadAllArchivalRecords ⟨asc "{}\r\nnull\n{\"rawidm\":\"AQ==\",\"x\":[1,{}]}", .eof⟩
    = ([zeroRecord, zeroRecord, { zeroRecord with rawIDM := some [1] }], none) := by decide +kernel
example : loadAllArchivalRecords ⟨asc "{}\n\n{}\n", .eof⟩ = ([zeroRecord], some .json) := by decide +kernel
example : loadAll (archiveStream ⟨asc "{\"Metadata\":{}}\n", .eof⟩) = .ok (some ⟨"", 0, goZeroTime⟩, [{ timestamp := hackTime }]) := by decide +kernel

/-! ## C24 -/

/-- C24. Cut the file anywhere: loading returns exactly the records whose text lies in what is left, and an error if and only if part of a further one
is left, too. -/
theorem C24_cut (zone : Int → Int) (hz : ∀ t, (zone t).natAbs < 24 * 60) (rs : List ArchivalRecord) (lines : List Bytes)
    (hm : rs.map (marshalRecord zone) = lines.map some)
    (hs : ∀ r ∈ rs, ∀ m, r.metadata = some m → -2 ^ 63 ≤ m.sequence ∧ m.sequence < 2 ^ 63)
    (hl : ∀ l ∈ lines, l.length < 65536) (len : Nat) (hlen : len ≤ (linesText lines).length) :
    loadAllArchivalRecords ⟨(linesText lines).take len, .eof⟩ =
      ((loadAllArchivalRecords ⟨linesText lines, .eof⟩).1.take (completeLines lines len),
        if leftover lines len = 0 then none else some .json) := by
  have key : ∀ (rs : List ArchivalRecord) (lines : List Bytes) (len : Nat), rs.map (marshalRecord zone) = lines.map some →
      (∀ r ∈ rs, ∀ m, r.metadata = some m → -2 ^ 63 ≤ m.sequence ∧ m.sequence < 2 ^ 63) → (∀ l ∈ lines, l.length < 65536) →
      len ≤ (linesText lines).length →
      loadAllArchivalRecords ⟨(linesText lines).take len, .eof⟩ =
        ((rs.map normRecord).take (completeLines lines len), if leftover lines len = 0 then none else some .json) := by
    intro rs
    induction rs with
    | nil =>
      intro lines len hm _ _ hlen
      have : lines = [] := by cases lines <;> simp_all
      subst this
      have : len = 0 := by simpa [linesText] using hlen
      subst this
      decide +kernel
    | cons r rs ih =>
      intro lines len hm hs hl hlen
      cases lines with
      | nil => simp at hm
      | cons l lines =>
        simp only [List.map_cons, List.cons.injEq] at hm
        have hn := marshal_noCtl hm.1
        have hn10 : ∀ x ∈ l, x ≠ 10 := fun x hx e => (C22_one_line zone r l hm.1).1 (e ▸ hx)
        have hll := hl l (by simp)
        have hlt : linesText (l :: lines) = l ++ 10 :: linesText lines := by simp [linesText]
        have hu : unmarshalRecord l = some (normRecord r) := unmarshal_marshal hz (fun m hmm => by
          have := hs r (by simp) m hmm
          exact ⟨this.1, by have := this.2; unfold maxInt64; omega⟩) hm.1
        rw [hlt] at hlen ⊢
        have ec : l.length ≤ len → completeLines (l :: lines) len = 1 + completeLines lines (len - (l.length + 1))
            ∧ leftover (l :: lines) len = leftover lines (len - (l.length + 1)) := by
          intro h; rw [completeLines, leftover, if_pos h, if_pos h]; exact ⟨rfl, rfl⟩
        have ec' : ¬ l.length ≤ len → completeLines (l :: lines) len = 0 ∧ leftover (l :: lines) len = len := by
          intro h; rw [completeLines, leftover, if_neg h, if_neg h]; exact ⟨rfl, rfl⟩
        by_cases h1 : l.length < len
        · -- the line and its newline
          obtain ⟨k, rfl⟩ : ∃ k, len = l.length + (k + 1) := ⟨len - l.length - 1, by omega⟩
          rw [List.take_length_add_append, List.take_succ_cons, (ec (by omega)).1, (ec (by omega)).2]
          rw [show l.length + (k + 1) - (l.length + 1) = k by omega]
          have hk : k ≤ (linesText lines).length := by simp only [List.length_append, List.length_cons] at hlen; omega
          have := ih lines k hm.2 (fun r hr => hs r (by simp [hr])) (fun t ht => hl t (by simp [ht])) hk
          unfold loadAllArchivalRecords archiveStream at this ⊢
          simp only at this ⊢
          rw [scanLines_line l _ hn10 [] (by simpa using hll), List.nil_append, dropCR_noCtl hn]
          simp only
          rw [archiveTokens.eq_def]
          simp only
          rw [hu]
          simp only
          have e1 := congrArg Prod.fst this
          have e2 := congrArg Prod.snd this
          simp only at e1 e2
          rw [e1, e2, Nat.add_comm 1, List.map_cons, List.take_succ_cons]
        · have htk : (l ++ 10 :: linesText lines).take len = l.take len := by rw [List.take_append_of_le_length (by omega)]
          rw [htk]
          have hsc := scanLines_last (l.take len) (fun x hx => hn10 x (List.mem_of_mem_take hx)) []
            (by rw [List.nil_append, List.length_take]; unfold maxScanTokenSize; omega)
          rw [List.nil_append, dropCR_noCtl (fun x hx => hn x (List.mem_of_mem_take hx))] at hsc
          unfold loadAllArchivalRecords archiveStream
          simp only
          rw [hsc]
          by_cases h2 : len = l.length
          · -- the line without its newline
            have hne := marshal_ne_nil hm.1
            rw [(ec (by omega)).1, (ec (by omega)).2, h2, List.take_length, if_neg hne]
            have hc : completeLines lines (l.length - (l.length + 1)) = 0 ∧ leftover lines (l.length - (l.length + 1)) = 0 := by
              rw [show l.length - (l.length + 1) = 0 by omega]
              cases lines with
              | nil => exact ⟨rfl, rfl⟩
              | cons l' lines' =>
                cases rs with
                | nil => simp at hm
                | cons r' rs' =>
                  simp only [List.map_cons, List.cons.injEq] at hm
                  have := marshal_ne_nil hm.2.1
                  have : ¬ l'.length ≤ 0 := by have := List.length_pos_iff.mpr this; omega
                  unfold completeLines leftover
                  rw [if_neg this, if_neg this]
                  exact ⟨rfl, rfl⟩
            rw [hc.1, hc.2, archiveTokens.eq_def]
            simp only
            rw [hu]
            simp [archiveTokens]
          · rw [(ec' (by omega)).1, (ec' (by omega)).2]
            by_cases h3 : len = 0
            · subst h3
              rw [List.take_zero, if_pos rfl, archiveTokens.eq_def]
              simp
            · have hlp : 0 < l.length := by omega
              have hp : l.take len ≠ [] := by
                intro e
                have := congrArg List.length e
                simp only [List.length_take, List.length_nil] at this; omega
              have hq : l.drop len ≠ [] := by
                intro e
                have := congrArg List.length e
                simp only [List.length_drop, List.length_nil] at this; omega
              rw [if_neg hp, archiveTokens.eq_def]
              simp only
              rw [unmarshal_prefix hm.1 (List.take_append_drop len l).symm hp hq]
              simp [h3]
  have hfull := key rs lines (linesText lines).length hm hs hl (Nat.le_refl _)
  rw [List.take_length] at hfull
  have hcl : ∀ lines : List Bytes, completeLines lines (linesText lines).length = lines.length := by
    intro lines
    induction lines with
    | nil => rfl
    | cons l lines ih =>
      have : (linesText (l :: lines)).length = l.length + 1 + (linesText lines).length := by simp [linesText]; omega
      unfold completeLines
      rw [this, if_pos (by omega), show l.length + 1 + (linesText lines).length - (l.length + 1) = (linesText lines).length by omega, ih]
      simp; omega
  rw [key rs lines len hm hs hl hlen, hfull, hcl]
  have : lines.length = (rs.map normRecord).length := by simpa using (congrArg List.length hm).symm
  rw [this, List.take_length]

/-- C24. So the records that had been written completely before the crash (with their newlines) are all returned. -/
theorem C24_written_before (zone : Int → Int) (hz : ∀ t, (zone t).natAbs < 24 * 60) (rs : List ArchivalRecord) (lines : List Bytes)
    (hm : rs.map (marshalRecord zone) = lines.map some)
    (hs : ∀ r ∈ rs, ∀ m, r.metadata = some m → -2 ^ 63 ≤ m.sequence ∧ m.sequence < 2 ^ 63)
    (hl : ∀ l ∈ lines, l.length < 65536) (n : Nat) (p q : Bytes) (hp : linesText lines = linesText (lines.take n) ++ p ++ q) :
    (loadAllArchivalRecords ⟨linesText lines, .eof⟩).1.take n <+:
      (loadAllArchivalRecords ⟨linesText (lines.take n) ++ p, .eof⟩).1 := by
  have hpre : linesText (lines.take n) ++ p = (linesText lines).take ((linesText (lines.take n)).length + p.length) := by
    rw [hp, ← List.length_append, List.take_left]
  have hle : (linesText (lines.take n)).length + p.length ≤ (linesText lines).length := by rw [hp]; simp
  rw [hpre, C24_cut zone hz rs lines hm hs hl _ hle]
  simp only
  have hge : ∀ (n : Nat) (lines : List Bytes) (k : Nat), n ≤ lines.length → n ≤ completeLines lines ((linesText (lines.take n)).length + k) := by
    intro n
    induction n with
    | zero => intros; omega
    | succ n ih =>
      intro lines k hn
      cases lines with
      | nil => simp at hn
      | cons l lines =>
        have e : (linesText ((l :: lines).take (n + 1))).length = l.length + 1 + (linesText (lines.take n)).length := by simp [linesText]; omega
        unfold completeLines
        rw [e, if_pos (by omega), show l.length + 1 + (linesText (lines.take n)).length + k - (l.length + 1) = (linesText (lines.take n)).length + k by omega]
        have := ih lines k (by simpa using hn)
        omega
  by_cases hn : n ≤ lines.length
  · have := hge n lines p.length hn
    exact List.take_prefix_take_left this
  · have hnl : lines.take n = lines := List.take_of_length_le (by omega)
    have hpq : p = [] := by
      rw [hnl] at hp
      have := congrArg List.length hp
      simp only [List.length_append] at this
      exact List.length_eq_zero_iff.mp (by omega)
    subst hpq
    have h2 := hge lines.length lines 0 (Nat.le_refl _)
    rw [List.take_length] at h2
    rw [hnl, List.length_nil]
    have hlen : (loadAllArchivalRecords ⟨linesText lines, .eof⟩).1.length = lines.length := by
      obtain ⟨out, h1, h2, _⟩ := C22_roundtrip zone hz rs lines hm hs hl
      rw [h1]; simp only; rw [h2]; simpa using congrArg List.length hm
    rw [List.take_of_length_le (by omega), List.take_of_length_le (by omega)]
    exact List.prefix_rfl

-- cuts of a file with two records: before, in and after the second line's text
def exFile : Bytes := linesText ([exRecord1, exRecord2].map (fun r => (marshalRecord (fun _ => 0) r).getD []))
def exCut (len : Nat) : Nat × Option GoErr :=
  ((loadAllArchivalRecords ⟨exFile.take len, .eof⟩).1.length, (loadAllArchivalRecords ⟨exFile.take len, .eof⟩).2)
example : [0, 50, 94, 95, 96, exFile.length - 2, exFile.length - 1, exFile.length].map exCut =
    [(0, none), (0, some .json), (1, none), (1, none), (1, some .json), (1, some .json), (2, none), (2, none)] := by decide +kernel

end TcpInfo
