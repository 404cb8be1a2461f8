import Verif.Model.Csv
import Verif.Spec.Csv
import Verif.Props.Snapshot
/-!
# Lemmas for C76 to C79
-/

namespace TcpInfo
open Spec

/-! ## Reading what was written -/

theorem read_quoted (f : Bytes) (cell : Bytes) (row : List Bytes) (rows : List (List Bytes)) (r : Bytes) :
    readCsvLoop .quoted cell row rows (f.flatMap (fun x => if x = 34 then [34, 34] else [x]) ++ 34 :: r) = readCsvLoop .afterQuote (cell ++ f) row rows r := by
  induction f generalizing cell with
  | nil => simp [readCsvLoop]
  | cons x f ih =>
    rw [List.flatMap_cons]
    by_cases hx : x = 34
    · subst hx
      simp only [if_true, List.cons_append, List.nil_append, readCsvLoop]
      rw [ih]; simp
    · simp only [hx, if_false, List.cons_append, List.nil_append, readCsvLoop]
      rw [ih]; simp

theorem read_plain (f : Bytes) (hf : ∀ x ∈ f, x ≠ 44 ∧ x ≠ 34 ∧ x ≠ 13 ∧ x ≠ 10) (cell : Bytes) (row : List Bytes) (rows : List (List Bytes)) (r : Bytes) :
    readCsvLoop .plain cell row rows (f ++ r) = readCsvLoop .plain (cell ++ f) row rows r := by
  induction f generalizing cell with
  | nil => simp
  | cons x f ih =>
    obtain ⟨h1, h2, h3, h4⟩ := hf x (by simp)
    rw [List.cons_append, readCsvLoop.eq_def]
    simp only [h1, h2, h3, h4, if_false]
    rw [ih (fun y hy => hf y (by simp [hy]))]
    simp

theorem plain_of_not_quoted {f : Bytes} (h : needsQuotes f = false) : ∀ x ∈ f, x ≠ 44 ∧ x ≠ 34 ∧ x ≠ 13 ∧ x ≠ 10 := by
  intro x hx
  cases f with
  | nil => simp at hx
  | cons b r =>
    simp only [needsQuotes, Bool.or_eq_false_iff] at h
    have := List.any_eq_false.1 h.1.2 x hx
    simp only [Bool.or_eq_true, not_or, beq_iff_eq] at this
    exact ⟨this.1.1.1, this.1.1.2, this.1.2, this.2⟩

theorem read_field (p : CsvPos) (hp : p = .start ∨ p = .plain) (f : Bytes) (row : List Bytes) (rows : List (List Bytes)) (r : Bytes) :
    readCsvLoop p [] row rows (writeField f ++ 44 :: r) = readCsvLoop .plain [] (row ++ [f]) rows r
    ∧ readCsvLoop p [] row rows (writeField f ++ 10 :: r) = readCsvLoop .start [] [] (rows ++ [row ++ [f]]) r := by
  unfold writeField
  split
  · have key : ∀ t, readCsvLoop p [] row rows (34 :: (f.flatMap (fun x => if x = 34 then [34, 34] else [x]) ++ [34]) ++ t) = readCsvLoop .afterQuote f row rows t := by
      intro t
      have := read_quoted f [] row rows t
      rw [List.nil_append] at this
      rw [← this]
      rcases hp with rfl | rfl <;> simp [readCsvLoop]
    rw [key, key]
    simp [readCsvLoop]
  · rename_i hq
    have hf := plain_of_not_quoted (by simpa using hq)
    rcases hp with rfl | rfl
    · cases f with
      | nil => simp [readCsvLoop]
      | cons x f =>
        obtain ⟨h1, h2, h3, h4⟩ := hf x (by simp)
        have key : ∀ t, readCsvLoop .start [] row rows (x :: f ++ t) = readCsvLoop .plain (x :: f) row rows t := by
          intro t
          rw [List.cons_append, readCsvLoop.eq_def]
          simp only [h1, h2, h3, h4, if_false]
          rw [read_plain f (fun y hy => hf y (by simp [hy]))]
          simp
        rw [key, key]
        simp [readCsvLoop]
    · have key := read_plain f hf [] row rows
      rw [key, key]
      simp [readCsvLoop]

theorem read_row (fs : List Bytes) (hne : fs ≠ []) (p : CsvPos) (hp : p = .start ∨ p = .plain) (row : List Bytes) (rows : List (List Bytes)) (r : Bytes) :
    readCsvLoop p [] row rows (writeRow fs ++ r) = readCsvLoop .start [] [] (rows ++ [row ++ fs]) r := by
  induction fs generalizing p row with
  | nil => exact absurd rfl hne
  | cons f fs ih =>
    cases fs with
    | nil =>
      simp only [writeRow, List.append_assoc, List.singleton_append]
      exact (read_field p hp f row rows r).2
    | cons g fs =>
      simp only [writeRow, List.append_assoc, List.cons_append]
      rw [(read_field p hp f row rows _).1, ih (by simp) .plain (Or.inr rfl)]
      simp

theorem read_rows (rs : List (List Bytes)) (hne : ∀ r ∈ rs, r ≠ []) (rows : List (List Bytes)) :
    readCsvLoop .start [] [] rows (rs.flatMap writeRow) = some (rows ++ rs) := by
  induction rs generalizing rows with
  | nil => simp [readCsvLoop]
  | cons r rs ih =>
    rw [List.flatMap_cons, read_row r (hne r (by simp)) .start (Or.inl rfl), ih (fun r hr => hne r (by simp [hr]))]
    simp

theorem readCsv_write (rs : List (List Bytes)) (hne : ∀ r ∈ rs, r ≠ []) : readCsv (rs.flatMap writeRow) = some rs := by
  unfold readCsv
  rw [read_rows rs hne]; simp

/-! ## Columns -/

/-- The names of the columns. -/
def columnNames : List String :=
  ["Timestamp", "Observed", "NotFullyParsed"] ++ idmColumns.map (·.1) ++ ["CongestionAlgorithm", "TOS", "TClass", "ClassID", "Shutdown", "Protocol", "Mark"]
    ++ tcpTags.map (·.1) ++ memTags.map (·.1) ++ skmemTags.map (·.1) ++ vegasTags.map (·.1) ++ dctcpTags.map (·.1) ++ bbrTags.map (·.1)

theorem columns_names (zone : Int → Int) : (columns zone).map (·.1) = columnNames := rfl

theorem header_names (zone : Int → Int) : csvHeader zone = columnNames.map asc := by
  rw [← columns_names zone, List.map_map]; rfl

theorem mapM_get {α β : Type} {l : List α} {f : α → Option β} {o : List β} (h : l.mapM f = some o) : o.length = l.length ∧ ∀ (i : Nat) a, l[i]? = some a → ∃ b, o[i]? = some b ∧ f a = some b := by
  induction l generalizing o with
  | nil => simp at h; subst h; simp
  | cons a l ih =>
    rw [List.mapM_cons] at h
    simp only [Option.bind_eq_bind, Option.pure_def, Option.bind_eq_some_iff] at h
    obtain ⟨b, hb, o', ho, h⟩ := h
    injection h with h; subst h
    obtain ⟨h1, h2⟩ := ih ho
    refine ⟨by simp [h1], ?_⟩
    intro i x hx
    cases i with
    | zero => simp at hx; subst hx; exact ⟨b, rfl, hb⟩
    | succ i => simp at hx; simpa using h2 i x hx

theorem row_length {zone : Int → Int} {s : Snapshot} {row : List Bytes} (h : csvRow zone s = some row) : row.length = (csvHeader zone).length := by
  rw [(mapM_get h).1]; simp [csvHeader]

theorem row_ne {zone : Int → Int} {s : Snapshot} {row : List Bytes} (h : csvRow zone s = some row) : row ≠ [] := by
  have := row_length h
  rw [header_names, List.length_map, show columnNames.length = 105 by decide +kernel] at this
  intro e; subst e; simp at this

/-- The cell in the column at a given place. -/
theorem row_cell {zone : Int → Int} {s : Snapshot} {row : List Bytes} (h : csvRow zone s = some row) {c : Column} (hc : c ∈ columns zone) :
    ∃ i : Nat, (csvHeader zone)[i]? = some (asc c.1) ∧ ∃ b, row[i]? = some b ∧ c.2 s = some b := by
  obtain ⟨i, hi⟩ := List.mem_iff_getElem?.1 hc
  obtain ⟨b, hb, he⟩ := (mapM_get h).2 i c hi
  exact ⟨i, by unfold csvHeader; rw [List.getElem?_map, hi]; rfl, b, hb, he⟩

theorem csvNat_decimal (n : Nat) : csvNat n = decimal n := by
  unfold csvNat decimal ascL fmtNat
  have : toString (n : Int) = Nat.repr n := rfl
  rw [this]; simp [Nat.repr]

theorem csvInt_decimal (i : Int) : csvInt i = decimal i := by
  cases i with
  | ofNat n =>
    have := csvNat_decimal n
    unfold csvNat at this
    unfold csvInt fmtInt
    rw [if_neg (by simp)]
    exact this
  | negSucc n =>
    unfold csvInt decimal ascL fmtInt fmtNat
    rw [if_pos (Int.negSucc_lt_zero n)]
    have : toString (Int.negSucc n) = "-" ++ Nat.repr (n + 1) := rfl
    rw [this]
    simp [Nat.repr]

theorem decimal_ne_nil (i : Int) : decimal i ≠ [] := by
  rw [← csvInt_decimal]
  unfold csvInt ascL fmtInt fmtNat
  have : Nat.toDigits 10 i.natAbs ≠ [] := by
    have := Nat.length_toDigits_pos (b := 10) (n := i.natAbs)
    intro e; rw [e] at this; simp at this
  split <;> simp [this]

/-- Tags, names of the Go fields and of the kernel's fields fit together. -/
def tagsOK (g : GoStruct) (c : CStruct) (names : List (String × String)) (tags : List (String × String × Bool)) (t : Nat) : Bool :=
  decide (∀ k ∈ kernelColumns, k.2.1 = t → k.2.2.1 = c ∧ ∃ x ∈ tags, x.1 = k.1 ∧ x.2.2 = k.2.2.2.2 ∧ (x.2.1, k.2.2.2.1) ∈ names
    ∧ (goOffsetof g x.2.1).map (·.2) = c.lookup k.2.2.2.1 ∧ (c.lookup k.2.2.2.1).isSome)

theorem struct_cell {g : GoStruct} {c : CStruct} {names : List (String × String)} {mem a : Option Bytes} (h : FieldsAgree mem a g c names)
    {gf cf : String} (hn : (gf, cf) ∈ names) (signed : Bool) (hsz : (goOffsetof g gf).map (·.2) = c.lookup cf) (hl : (c.lookup cf).isSome) :
    some (structCell g gf signed mem) = kernelCell c cf signed a := by
  obtain ⟨-, -, h⟩ := h
  cases mem with
  | none =>
    cases a with
    | none => rfl
    | some a => exact absurd h id
  | some mem =>
    cases a with
    | none => exact absurd h id
    | some a =>
      obtain ⟨h1, h2⟩ := h (gf, cf) hn
      simp only at h1 h2
      obtain ⟨sz, hsz'⟩ := Option.isSome_iff_exists.1 hl
      rw [hsz'] at hsz
      obtain ⟨⟨off, sz'⟩, ho, e⟩ := Option.map_eq_some_iff.1 hsz
      simp only at e; subst e
      unfold goField at h1
      rw [ho] at h1
      simp only [Option.map_some] at h1
      unfold structCell kernelCell
      simp only [ho, ← h1, hsz', Option.bind_some, Option.map_some]
      congr 1
      generalize leNat (sub off sz' mem) = n
      cases signed with
      | false => simpa using csvNat_decimal n
      | true =>
        simp only [if_true, Bool.true_and, decide_eq_true_eq]
        rw [csvInt_decimal]
        unfold toSigned
        by_cases hlt : n < 2 ^ (8 * sz' - 1)
        · rw [if_pos hlt, if_neg (by omega)]
        · rw [if_neg hlt, if_pos (by omega)]

end TcpInfo
