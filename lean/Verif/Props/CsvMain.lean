import Verif.Model.CsvMain
import Verif.Props.Csv
import Verif.Props.ZstdReader
import Verif.Props.Path
/-!
# C93: csvtool on compressed and uncompressed files
-/

namespace TcpInfo
open Spec
open Zstd (DReachable DState DChoice newReader)

/-- What the scanner has found before it gives up does not depend on what follows. -/
theorem scanLines_stopped (p q : Bytes) : ∀ cur, (scanLines cur p).2 = true → scanLines cur (p ++ q) = scanLines cur p := by
  induction p with
  | nil =>
    intro cur h
    rw [scanLines.eq_def] at h
    simp only at h
    by_cases hl : maxScanTokenSize ≤ cur.length
    · rw [List.nil_append, scanLines.eq_def, scanLines.eq_def cur []]
      cases q <;> simp only <;> rw [if_pos hl, if_pos hl]
    · rw [if_neg hl] at h; split at h <;> simp at h
  | cons c p ih =>
    intro cur h
    rw [List.cons_append, scanLines.eq_def, scanLines.eq_def cur (c :: p)]
    rw [scanLines.eq_def] at h
    simp only at h ⊢
    by_cases hl : maxScanTokenSize ≤ cur.length
    · rw [if_pos hl, if_pos hl]
    · rw [if_neg hl] at h
      rw [if_neg hl, if_neg hl]
      by_cases h10 : c = 10
      · rw [if_pos h10] at h
        rw [if_pos h10, if_pos h10, ih [] h]
      · rw [if_neg h10] at h
        rw [if_neg h10, if_neg h10, ih _ h]

/-- Complete lines are found whatever follows. -/
theorem scanLines_prefix (p r : Bytes) : ∀ cur, (scanLines cur (p ++ [10])).2 = false →
    scanLines cur (p ++ 10 :: r) = ((scanLines cur (p ++ [10])).1 ++ (scanLines [] r).1, (scanLines [] r).2) := by
  induction p with
  | nil =>
    intro cur h
    rw [List.nil_append, scanLines.eq_def] at h
    simp only at h
    rw [List.nil_append, List.nil_append, scanLines.eq_def, scanLines.eq_def cur [10]]
    simp only
    by_cases hl : maxScanTokenSize ≤ cur.length
    · rw [if_pos hl] at h; simp at h
    · rw [if_neg hl, if_neg hl]
      simp [scanLines]
  | cons c p ih =>
    intro cur h
    rw [List.cons_append, scanLines.eq_def] at h
    simp only at h
    rw [List.cons_append, List.cons_append, scanLines.eq_def, scanLines.eq_def cur (c :: (p ++ [10]))]
    simp only
    by_cases hl : maxScanTokenSize ≤ cur.length
    · rw [if_pos hl] at h; simp at h
    · rw [if_neg hl] at h
      rw [if_neg hl, if_neg hl]
      by_cases h10 : c = 10
      · rw [if_pos h10] at h
        rw [if_pos h10, if_pos h10, ih [] h]
        rfl
      · rw [if_neg h10] at h
        rw [if_neg h10, if_neg h10, ih _ h]

/-- `LoadAll` that fails fails in the same way whatever follows. -/
theorem loadAll_stopped (ts us : List Bytes) : ∀ md snaps,
    (∀ x, loadAllLoop (archiveTokens ts).fin (archiveTokens ts).records md snaps ≠ .ok x) →
    loadAllLoop (archiveTokens (ts ++ us)).fin (archiveTokens (ts ++ us)).records md snaps
      = loadAllLoop (archiveTokens ts).fin (archiveTokens ts).records md snaps := by
  induction ts with
  | nil => intro md snaps h; exact absurd rfl (h (md, snaps))
  | cons t ts ih =>
    intro md snaps h
    rw [List.cons_append, archiveTokens.eq_def, archiveTokens.eq_def (t :: ts)]
    rw [archiveTokens.eq_def] at h
    simp only at h ⊢
    cases hu : unmarshalRecord t with
    | none => rfl
    | some r =>
      rw [hu] at h
      simp only at h ⊢
      rw [loadAllLoop.eq_def, loadAllLoop.eq_def _ (r :: _)]
      rw [loadAllLoop.eq_def] at h
      simp only at h ⊢
      cases hn : readerNext r with
      | panic => rfl
      | err e => rfl
      | ok ms =>
        obtain ⟨m, s⟩ := ms
        rw [hn] at h
        simp only at h ⊢
        exact ih _ _ h

/-- What `LoadAll` returns when it has stopped does not depend on what it has not read. -/
theorem csvtool_stopped (zone : Int → Int) (b rest : Bytes) (h : LoadStopped b false) : csvtool zone ⟨b ++ rest, .eof⟩ = csvtool zone ⟨b, .eof⟩ := by
  have key : loadAll (archiveStream ⟨b ++ rest, .eof⟩) = loadAll (archiveStream ⟨b, .eof⟩) := by
    rcases h with h | h | ⟨p, r, rfl, h⟩
    · simp at h
    · unfold archiveStream
      rw [scanLines_stopped b rest [] h]
    · unfold archiveStream at h ⊢
      cases ht : (scanLines [] (p ++ [10])).2 with
      | true =>
        have e1 := scanLines_stopped (p ++ [10]) r [] ht
        have e2 := scanLines_stopped (p ++ [10]) (r ++ rest) [] ht
        simp only [List.append_assoc, List.cons_append, List.nil_append] at e1 e2
        simp only [List.append_assoc, List.cons_append]
        rw [e1, e2]
      | false =>
        have e1 := scanLines_prefix p r [] ht
        have e2 := scanLines_prefix p (r ++ rest) [] ht
        simp only [List.append_assoc, List.cons_append]
        rw [e1, e2]
        simp only
        unfold loadAll at h ⊢
        rw [loadAll_stopped _ _ none [] h, loadAll_stopped _ _ none [] h]
  unfold csvtool
  rw [key]

/-- C93. A file is decompressed exactly if its name ends in ".zst". -/
theorem C93_suffix (name : List Char) : decompresses name = true ↔ ∃ base, name = base ++ ".zst".toList := by
  unfold decompresses
  rw [List.isPrefixOf_iff_prefix, List.reverse_prefix]
  constructor
  · rintro ⟨b, h⟩; exact ⟨b, h.symm⟩
  · rintro ⟨b, h⟩; exact ⟨b, h.symm⟩

/-- C93. Every file that the saver creates has such a name. -/
theorem C93_saved (n : FileName) : decompresses n.path = true := by
  rw [C93_suffix]
  refine ⟨n.dir.toList ++ '/' :: (n.uuid.toList ++ '.' :: (fmtPad 5 n.sequence ++ ".jsonl".toList)), ?_⟩
  unfold FileName.path
  simp only [List.append_assoc, List.cons_append]
  rfl

/-- C93. A compressed file, whatever the decompressor, the pipe and the scheduler do: the program ends as it would end when reading the decompressed data
from standard input, or it ends without a table because the decompressor has failed. -/
theorem C93_same (zone : Int → Int) (cap : Nat) (stdin : Source) (fs : List Char → Option CsvFile) (name : List Char) (f : CsvFile) (hf : fs name = some f)
    (hz : decompresses name = true) (e : CsvEnd) (h : CsvRun zone cap stdin fs [name] e) :
    CsvRun zone cap ⟨f.data, .eof⟩ fs [] e ∨ e = .fatal := by
  cases h with
  | missing _ h => rw [hf] at h; simp at h
  | plain _ _ _ h => rw [hz] at h; simp at h
  | zstFatal => exact Or.inr rfl
  | zst _ f' d hf' _ hd hs =>
    rw [hf] at hf'; injection hf' with hf'; subst hf'
    refine Or.inl ?_
    have e : csvtool zone ⟨d.received, .eof⟩ = csvtool zone ⟨f.data, .eof⟩ := by
      rcases hs with he | hs
      · rw [(C70_eof cap f.data f.good d hd he).1]
      · obtain ⟨rest, hr⟩ := C70_prefix cap f.data f.good d hd
        rw [← hr, csvtool_stopped zone d.received rest (Or.inr hs)]
    rw [e]
    exact .stdin

/-- C93. A damaged or truncated compressed file gives no table, unless the data before the damage have a line of 64 KiB or more: there the conversion ends
as if the file ended (see C23). -/
theorem C93_damaged (zone : Int → Int) (cap : Nat) (stdin : Source) (fs : List Char → Option CsvFile) (name : List Char) (f : CsvFile) (hf : fs name = some f)
    (hz : decompresses name = true) (hg : f.good = false) (hl : ∀ l ∈ splitLines f.data, l.length < 65536) (out : Bytes) :
    ¬ CsvRun zone cap stdin fs [name] (.printed out) := by
  intro h
  generalize he : CsvEnd.printed out = e at h
  cases h with
  | missing _ h => simp at he
  | plain _ _ _ h => rw [hz] at h; simp at h
  | zstFatal => simp at he
  | zst _ f' d hf' _ hd hs =>
    rw [hf] at hf'; injection hf' with hf'; subst hf'
    have hlong : (scanLines [] f.data).2 = false := by
      rw [scanLines_split f.data [] (by simp) (by simpa using hl)]
    obtain ⟨rest, hr⟩ := C70_prefix cap f.data f.good d hd
    rcases hs with h1 | h1 | ⟨p, r, hp, h1⟩
    · rw [(C70_eof cap f.data f.good d hd h1).2] at hg; simp at hg
    · have := scanLines_stopped d.received rest [] h1
      rw [hr] at this
      rw [this, h1] at hlong; simp at hlong
    · -- a line that cannot be decoded: no table
      have key : ∀ x, loadAll (archiveStream ⟨d.received, .eof⟩) ≠ .ok x := by
        have ht : (scanLines [] (p ++ [10])).2 = false := by
          cases ht : (scanLines [] (p ++ [10])).2 with
          | false => rfl
          | true =>
            have := scanLines_stopped (p ++ [10]) (r ++ rest) [] ht
            simp only [List.append_assoc, List.cons_append, List.nil_append] at this
            rw [← hr, hp] at hlong
            simp only [List.append_assoc, List.cons_append] at hlong
            rw [this, ht] at hlong; simp at hlong
        intro x
        have e1 := scanLines_prefix p r [] ht
        unfold archiveStream at h1 ⊢
        rw [hp, e1]
        simp only
        unfold loadAll at h1 ⊢
        rw [loadAll_stopped _ _ none [] h1]
        exact h1 x
      unfold csvtool at he
      cases hc : loadAll (archiveStream ⟨d.received, .eof⟩) with
      | ok x => exact key x hc
      | err e => rw [hc] at he; simp [CsvEnd.ofRes] at he
      | panic => rw [hc] at he; simp [CsvEnd.ofRes] at he

/-- Reading byte by byte. -/
theorem read_all (cap : Nat) (hcap : 0 < cap) (n : Nat) : ∀ s : DState, s.fatal = false → s.child = .running → s.pipe = [] → s.rOpen = true → s.rest.length = n →
    ∃ cs, s.exec cap cs = some { s with rest := [], received := s.received ++ s.rest } := by
  induction n with
  | zero =>
    intro s _ _ _ _ hn
    have : s.rest = [] := List.length_eq_zero_iff.1 hn
    refine ⟨[], ?_⟩
    cases s; simp_all [DState.exec]
  | succ n ih =>
    intro s hf hc hp hr hn
    cases hrest : s.rest with
    | nil => rw [hrest] at hn; simp at hn
    | cons b bs =>
      rw [hrest] at hn
      obtain ⟨cs, hcs⟩ := ih { s with rest := bs, received := s.received ++ [b] } hf hc hp hr (by simpa using hn)
      refine ⟨.write 1 :: .read 1 :: cs, ?_⟩
      have w : s.step cap (.write 1) = some { s with pipe := [b], rest := bs } := by
        unfold DState.step
        rw [hf]
        simp only [Bool.false_eq_true, if_false]
        unfold DState.childWrite
        rw [if_pos ⟨hc, by omega, by rw [hrest]; simp⟩, if_neg (by rw [hr]; simp), if_pos (by rw [hp]; simp; omega), hp, hrest, List.nil_append]
        simp only [List.take_succ_cons, List.take_zero, List.drop_succ_cons, List.drop_zero, hr, hc, hf]
      have r : DState.step cap (.read 1) { s with pipe := [b], rest := bs } = some { s with rest := bs, received := s.received ++ [b] } := by
        unfold DState.step
        simp only [hf, Bool.false_eq_true, if_false]
        unfold DState.userRead
        simp only [hr, Bool.true_eq_false, if_false]
        rw [if_pos ⟨by omega, by simp⟩]
        simp [hp]
      simp only [DState.exec, w, r, Option.bind_some]
      rw [hcs]
      simp

theorem dexec_append (cap : Nat) (cs cs' : List DChoice) : ∀ (s t u : DState), s.exec cap cs = some t → t.exec cap cs' = some u →
    s.exec cap (cs ++ cs') = some u := by
  induction cs with
  | nil => intro s t u h1 h2; simp only [DState.exec, Option.some.injEq] at h1; subst h1; exact h2
  | cons c cs ih =>
    intro s t u h1 h2
    simp only [DState.exec, List.cons_append] at h1 ⊢
    cases hs : s.step cap c with
    | none => rw [hs] at h1; simp at h1
    | some s1 => rw [hs] at h1; simp only [Option.bind_some] at h1 ⊢; exact ih s1 t u h1 h2

/-- C93. Every undamaged compressed file can be read to its end: the program can end as it ends when reading the decompressed data from standard input. -/
theorem C93_can_end (zone : Int → Int) (cap : Nat) (hcap : 0 < cap) (stdin : Source) (fs : List Char → Option CsvFile) (name : List Char) (f : CsvFile)
    (hf : fs name = some f) (hz : decompresses name = true) (hg : f.good = true) (e : CsvEnd) (h : CsvRun zone cap ⟨f.data, .eof⟩ fs [] e) :
    CsvRun zone cap stdin fs [name] e := by
  cases h
  have h0 : newReader true true f.data f.good = some { data := f.data, good := f.good, rest := f.data, child := .notStarted, gpc := .run, pipe := [], rOpen := true, wOpen := true, received := [], eof := false, fatal := false } := rfl
  obtain ⟨cs, hcs⟩ := read_all cap hcap _ { data := f.data, good := f.good, rest := f.data, child := .running, gpc := .run, pipe := [], rOpen := true, wOpen := true, received := [], eof := false, fatal := false } rfl rfl rfl rfl rfl
  have hd : DReachable cap f.data f.good { data := f.data, good := f.good, rest := [], child := .exited f.good, gpc := .finished, pipe := [], rOpen := true, wOpen := false, received := f.data, eof := true, fatal := false } := by
    refine ⟨_, .gor true :: (cs ++ [.finish, .gor true, .gor true, .read 0]), h0, ?_⟩
    simp only [DState.exec]
    rw [show DState.step cap (.gor true) { data := f.data, good := f.good, rest := f.data, child := .notStarted, gpc := .run, pipe := [], rOpen := true, wOpen := true, received := [], eof := false, fatal := false } = some { data := f.data, good := f.good, rest := f.data, child := .running, gpc := .run, pipe := [], rOpen := true, wOpen := true, received := [], eof := false, fatal := false } from rfl]
    simp only [Option.bind_some]
    refine dexec_append cap _ _ _ _ _ hcs ?_
    rw [hg]
    simp [DState.exec, DState.step, DState.gorStep, DState.userRead]
  have := CsvRun.zst (zone := zone) (stdin := stdin) name f _ hf hz hd (Or.inl rfl)
  exact this

/-- C93. The exception of `C93_damaged` is real: a damaged file whose data begin with a line of 64 KiB can be converted to a table without a row, with
success as exit status. -/
theorem C93_damaged_long (zone : Int → Int) (cap : Nat) (hcap : 0 < cap) (stdin : Source) (fs : List Char → Option CsvFile) (name : List Char) (f : CsvFile)
    (hf : fs name = some f) (hz : decompresses name = true) (hd : f.data = List.replicate 65536 120) (_hg : f.good = false) :
    ∃ out, CsvRun zone cap stdin fs [name] (.printed out) ∧ (readCsv out).map List.length = some 1 := by
  have hs : scanLines [] f.data = ([], true) := by
    have := scanLines_long f.data [] (by rw [hd]; intro x hx; rw [(List.mem_replicate.1 hx).2]; decide) []
      (by rw [hd, List.nil_append, List.length_replicate]; decide)
    simpa using this
  obtain ⟨cs, hcs⟩ := read_all cap hcap _ { data := f.data, good := f.good, rest := f.data, child := .running, gpc := .run, pipe := [], rOpen := true, wOpen := true, received := [], eof := false, fatal := false } rfl rfl rfl rfl rfl
  have hr : DReachable cap f.data f.good { data := f.data, good := f.good, rest := [], child := .running, gpc := .run, pipe := [], rOpen := true, wOpen := true, received := f.data, eof := false, fatal := false } := by
    refine ⟨_, .gor true :: cs, rfl, ?_⟩
    simp only [DState.exec]
    exact hcs
  have ht : toCSV zone [] = toCSV (fun _ => 0) [] := rfl
  have hc : csvtool zone ⟨f.data, .eof⟩ = match toCSV (fun _ => 0) [] with | none => .err .json | some out => .ok out := by
    unfold csvtool archiveStream
    simp only [hs]
    rfl
  have hrun := CsvRun.zst (zone := zone) (stdin := stdin) name f _ hf hz hr (Or.inr (Or.inl (by simp only [hs])))
  simp only at hrun
  rw [hc] at hrun
  cases h : toCSV (fun _ => 0) [] with
  | none => exact absurd h (by decide +kernel)
  | some out =>
    rw [h] at hrun
    refine ⟨out, hrun, ?_⟩
    have : ((toCSV (fun _ => 0) []).bind readCsv).map List.length = some 1 := by decide +kernel
    rw [h] at this
    exact this

/-- C93. Otherwise: no argument means standard input, a name without the suffix a file that is read as it is, several arguments or a file that cannot be
opened an error without a table. -/
theorem C93_arguments (zone : Int → Int) (cap : Nat) (stdin : Source) (fs : List Char → Option CsvFile) (e : CsvEnd) :
    (∀ args, CsvRun zone cap stdin fs args e → 2 ≤ args.length → e = .fatal)
    ∧ (∀ name, CsvRun zone cap stdin fs [name] e → fs name = none → e = .fatal)
    ∧ (∀ name f, decompresses name = false → fs name = some f → (CsvRun zone cap stdin fs [name] e ↔ CsvRun zone cap f.raw fs [] e)) := by
  refine ⟨?_, ?_, ?_⟩
  · intro args h hl
    cases h <;> first | rfl | simp at hl
  · intro name h hn
    cases h <;> simp_all
  · intro name f hz hf
    constructor
    · intro h
      cases h with
      | missing _ h => rw [hf] at h; simp at h
      | plain _ f' h _ => rw [hf] at h; injection h with h; subst h; exact .stdin
      | zst _ _ _ _ h => rw [hz] at h; simp at h
      | zstFatal _ _ _ _ h => rw [hz] at h; simp at h
    · intro h
      cases h
      exact .plain name f hf hz

/-! ## Examples -/

/-- A directory with a file as the saver writes it, the same data uncompressed, a damaged file (its first lines can be decompressed) and a file that is no archive. -/
def exCsvFiles (name : List Char) : Option CsvFile :=
  if name = "2020/11/17/u.00000.jsonl.zst".toList then some ⟨⟨[40, 181, 47, 253], .eof⟩, (exCsvSource (asc "cubic\x00")).bytes, true⟩
  else if name = "u.jsonl".toList then some ⟨exCsvSource (asc "cubic\x00"), [], false⟩
  else if name = "damaged.zst".toList then some ⟨⟨[40, 181, 47, 253], .eof⟩, (exCsvSource (asc "cubic\x00")).bytes, false⟩
  else if name = "other.zst".toList then some ⟨⟨[40, 181, 47, 253], .eof⟩, asc "hello\n{", true⟩
  else none

example : (⟨"2020/11/17", "u", 0⟩ : FileName).path = "2020/11/17/u.00000.jsonl.zst".toList := by decide +kernel
example : ∃ out, csvtool (fun _ => 120) (exCsvSource (asc "cubic\x00")) = .ok out ∧ (readCsv out).map List.length = some 3 := by
  have : (match csvtool (fun _ => 120) (exCsvSource (asc "cubic\x00")) with | .ok out => (readCsv out).map List.length | _ => none) = some 3 := by decide +kernel
  generalize csvtool (fun _ => 120) (exCsvSource (asc "cubic\x00")) = r at this ⊢
  cases r with
  | ok out => exact ⟨out, rfl, this⟩
  | err e => simp at this
  | panic => simp at this
example (out : Bytes) (h : csvtool (fun _ => 120) (exCsvSource (asc "cubic\x00")) = .ok out) :
    CsvRun (fun _ => 120) 65536 ⟨[], .eof⟩ exCsvFiles ["2020/11/17/u.00000.jsonl.zst".toList] (.printed out) ∧
    CsvRun (fun _ => 120) 65536 ⟨[], .eof⟩ exCsvFiles ["u.jsonl".toList] (.printed out) := by
  have e : CsvRun (fun _ => 120) 65536 (exCsvSource (asc "cubic\x00")) exCsvFiles [] (.printed out) := by
    have := CsvRun.stdin (zone := fun _ => 120) (cap := 65536) (stdin := exCsvSource (asc "cubic\x00")) (fs := exCsvFiles)
    rw [h] at this
    exact this
  exact ⟨C93_can_end _ _ (by decide) _ exCsvFiles _ ⟨⟨[40, 181, 47, 253], .eof⟩, (exCsvSource (asc "cubic\x00")).bytes, true⟩ rfl (by decide +kernel) rfl _ e,
    ((C93_arguments _ _ _ exCsvFiles _).2.2 _ ⟨exCsvSource (asc "cubic\x00"), [], false⟩ (by decide +kernel) rfl).2 e⟩
example (out : Bytes) : ¬ CsvRun (fun _ => 120) 65536 ⟨[], .eof⟩ exCsvFiles ["damaged.zst".toList] (.printed out) :=
  C93_damaged _ _ _ exCsvFiles _ ⟨⟨[40, 181, 47, 253], .eof⟩, (exCsvSource (asc "cubic\x00")).bytes, false⟩ rfl (by decide +kernel) rfl (by decide +kernel) out
/-- a first line that is no record is reported before the file has been read -/
example : LoadStopped (asc "hello\n{") false := by
  refine Or.inr (Or.inr ⟨asc "hello", asc "{", by decide +kernel, ?_⟩)
  have : (match loadAll (archiveStream ⟨asc "hello" ++ [10], .eof⟩) with | .ok _ => false | _ => true) = true := by decide +kernel
  intro x hx
  rw [hx] at this
  simp at this

end TcpInfo
