import Verif.Lemmas.Csv
import Verif.Props.Process
import Verif.Props.Header
import Verif.Props.AddressText
import Verif.Props.Strings
/-!
# C76 to C79: csvtool
-/

namespace TcpInfo
open Spec

theorem loadAllLoop_inv (fin : Option GoErr) : ∀ (rs : List ArchivalRecord) md0 acc md snaps, loadAllLoop fin rs md0 acc = .ok (md, snaps) →
    fin = some .eof ∧ ∃ outs : List (Option Metadata × Snapshot), rs.map readerNext = outs.map .ok ∧ snaps = acc ++ outs.map (·.2) := by
  intro rs
  induction rs with
  | nil =>
    intro md0 acc md snaps h
    rw [loadAllLoop.eq_def] at h
    simp only at h
    split at h
    · simp at h
    · injection h with h; injection h with h1 h2; exact ⟨rfl, [], rfl, by simp [h2]⟩
    · simp at h
  | cons r rs ih =>
    intro md0 acc md snaps h
    rw [loadAllLoop.eq_def] at h
    simp only at h
    split at h
    · simp at h
    · next e he =>
      split at h
      · next heq => subst heq; exact absurd he (decode_ne_eof _)
      · simp at h
    · next m s he =>
      obtain ⟨h1, outs, h2, h3⟩ := ih _ _ _ _ h
      exact ⟨h1, (m, s) :: outs, by simp [he, h2], by simp [h3]⟩

/-- The rows and where they come from. -/
theorem csvtool_inv {zone : Int → Int} {src : Source} {out : Bytes} (h : csvtool zone src = .ok out) :
    ∃ rs rows, loadAllArchivalRecords src = (rs, none) ∧ readCsv out = some (csvHeader zone :: rows) ∧ rows.length = rs.length
      ∧ ∀ (i : Nat) r, rs[i]? = some r → ∃ row s, rows[i]? = some row ∧ row.length = (csvHeader zone).length
          ∧ decode { r with timestamp := snapTime r } = .ok (r.metadata, s) ∧ s.timestamp = snapTime r ∧ csvRow zone s = some row := by
  unfold csvtool at h
  split at h
  · simp at h
  · simp at h
  · next md snaps hl =>
    split at h
    · simp at h
    · next out' ht =>
      injection h with h; subst h
      unfold toCSV at ht
      obtain ⟨rows, hrows, ho⟩ := Option.map_eq_some_iff.1 ht
      obtain ⟨hf, outs, h1, h2⟩ := loadAllLoop_inv _ _ _ _ _ _ hl
      rw [List.nil_append] at h2
      obtain ⟨hlen, hget⟩ := mapM_get hrows
      have hlen' : (archiveStream src).records.length = outs.length := by simpa using congrArg List.length h1
      have hrow : ∀ row ∈ rows, ∃ s, csvRow zone s = some row := by
        intro row hr
        obtain ⟨i, hi⟩ := List.mem_iff_getElem?.1 hr
        have : i < snaps.length := by
          have := (List.getElem?_eq_some_iff.1 hi).1; omega
        obtain ⟨b, hb, he⟩ := hget i _ (List.getElem?_eq_getElem this)
        rw [hi] at hb; injection hb with hb; subst hb
        exact ⟨_, he⟩
      refine ⟨(archiveStream src).records, rows, ?_, ?_, by rw [hlen, h2]; simp [hlen'], ?_⟩
      · unfold loadAllArchivalRecords; simp [hf]
      · rw [← ho]
        apply readCsv_write
        intro r hr
        rcases List.mem_cons.1 hr with rfl | hr
        · rw [header_names]; decide +kernel
        · obtain ⟨s, hs⟩ := hrow r hr; exact row_ne hs
      · intro i r hr
        have hi : i < outs.length := by
          have := (List.getElem?_eq_some_iff.1 hr).1; omega
        have e1 : ((archiveStream src).records.map readerNext)[i]? = (outs.map Res.ok)[i]? := by rw [h1]
        rw [List.getElem?_map, List.getElem?_map, hr, List.getElem?_eq_getElem hi] at e1
        simp only [Option.map_some, Option.some.injEq] at e1
        obtain ⟨a1, a2, a3⟩ := readerNext_ok (m := outs[i].1) (s := outs[i].2) e1
        obtain ⟨row, b1, b2⟩ := hget i outs[i].2 (by rw [h2, List.getElem?_map, List.getElem?_eq_getElem hi]; rfl)
        exact ⟨row, outs[i].2, b1, row_length b2, by rw [a1] at a2; exact a2, a3, b2⟩

/-! ## C76 -/

theorem names_spec : columnNames = csvColumns := by decide +kernel

/-- C76. Whatever csvtool writes without failing is a CSV table (RFC 4180): the header, then one row for each record of the archive, in order, all of the
same width. Each row depends only on its record: two archives with the same record somewhere have the same row there. -/
theorem C76_table (zone : Int → Int) (src : Source) (out : Bytes) (h : csvtool zone src = .ok out) :
    ∃ header rs rows, loadAllArchivalRecords src = (rs, none) ∧ readCsv out = some (header :: rows) ∧ rows.length = rs.length
      ∧ header = csvColumns.map asc ∧ ∀ row ∈ rows, row.length = header.length := by
  obtain ⟨rs, rows, h1, h2, h3, h4⟩ := csvtool_inv h
  refine ⟨_, rs, rows, h1, h2, h3, (header_names zone).trans (by rw [names_spec]), ?_⟩
  intro row hr
  obtain ⟨i, hi⟩ := List.mem_iff_getElem?.1 hr
  have : i < rs.length := by
    have := (List.getElem?_eq_some_iff.1 hi).1; omega
  obtain ⟨row', s, a1, a2, -⟩ := h4 i _ (List.getElem?_eq_getElem this)
  rw [hi] at a1; injection a1 with a1; subst a1; exact a2

/-- C76. A row depends only on its record. -/
theorem C76_row_independent (zone : Int → Int) (src src' : Source) (out out' : Bytes) (h : csvtool zone src = .ok out) (h' : csvtool zone src' = .ok out')
    (rs rs' : List ArchivalRecord) (hrs : loadAllArchivalRecords src = (rs, none)) (hrs' : loadAllArchivalRecords src' = (rs', none))
    (hd hd' : List Bytes) (rows rows' : List (List Bytes)) (hc : readCsv out = some (hd :: rows)) (hc' : readCsv out' = some (hd' :: rows'))
    (i i' : Nat) (hi : i < rs.length) (e : rs[i]? = rs'[i']?) : hd = hd' ∧ rows[i]? = rows'[i']? := by
  obtain ⟨xs, ys, a1, a2, a3, a4⟩ := csvtool_inv h
  obtain ⟨xs', ys', b1, b2, b3, b4⟩ := csvtool_inv h'
  rw [hrs] at a1; rw [hrs'] at b1; rw [hc] at a2; rw [hc'] at b2
  injection a1 with a1 _; injection b1 with b1 _
  injection a2 with a2; injection b2 with b2
  injection a2 with a2 a2'; injection b2 with b2 b2'
  subst a1 b1 a2' b2'
  refine ⟨by rw [a2, b2], ?_⟩
  have hr := List.getElem?_eq_getElem hi
  obtain ⟨row, s, c1, -, c3, -, c4⟩ := a4 i _ hr
  obtain ⟨row', s', d1, -, d3, -, d4⟩ := b4 i' _ (by rw [← e]; exact hr)
  rw [c3] at d3
  injection d3 with d3; injection d3 with _ d3
  subst d3
  rw [c4] at d4
  rw [c1, d1, d4]

/-! ## C77 -/

/-- The names in `l` are in the header once. -/
theorem unique_of_count {zone : Int → Int} {name : String} (h : (columnNames.map asc).count (asc name) = 1) {j j' : Nat}
    (hj : (csvHeader zone)[j]? = some (asc name)) (hj' : (csvHeader zone)[j']? = some (asc name)) : j' = j := by
  rw [header_names] at hj hj'
  generalize columnNames.map asc = l at *
  generalize asc name = x at *
  clear zone
  induction l generalizing j j' with
  | nil => simp at hj
  | cons a l ih =>
    have key : ∀ (k : Nat), l[k]? = some x → l.count x ≠ 0 := by
      intro k hk
      have := List.count_pos_iff.2 (List.mem_of_getElem? hk)
      omega
    rw [List.count_cons] at h
    cases j with
    | zero =>
      cases j' with
      | zero => rfl
      | succ j' =>
        simp at hj hj'
        subst hj
        simp at h
        exact absurd h (key _ hj')
    | succ j =>
      cases j' with
      | zero =>
        simp at hj hj'
        subst hj'
        simp at h
        exact absurd h (key _ hj)
      | succ j' =>
        simp at hj hj'
        have := key _ hj
        split at h
        · omega
        · exact congrArg (· + 1) (ih h hj hj')

/-- The cell of a column. -/
theorem hasCell {zone : Int → Int} {s : Snapshot} {row : List Bytes} (hr : csvRow zone s = some row) {c : Column} (hc : c ∈ columns zone)
    (hu : (columnNames.map asc).count (asc c.1) = 1) {v : Bytes} (hv : c.2 s = some v) : HasCell (csvHeader zone) row c.1 v := by
  obtain ⟨i, hi, b, hb, he⟩ := row_cell hr hc
  rw [hv] at he; injection he with he; subst he
  exact ⟨i, hi, hb, fun j' hj' => unique_of_count hu hi hj'⟩

theorem mem_structColumns {g : GoStruct} {get : Snapshot → Option Bytes} {tags : List (String × String × Bool)} {x : String × String × Bool} (h : x ∈ tags) :
    (x.1, fun s => some (structCell g x.2.1 x.2.2 (get s))) ∈ structColumns g get tags := List.mem_map.2 ⟨x, h, rfl⟩

/-- The rest of what `FieldsAgree` gives: for all columns of a struct. -/
theorem struct_has {zone : Int → Int} {s : Snapshot} {row : List Bytes} (hr : csvRow zone s = some row) {r : ArchivalRecord}
    {g : GoStruct} {c : CStruct} {names : List (String × String)} {get : Snapshot → Option Bytes} {tags : List (String × String × Bool)} {t : Nat}
    (hf : FieldsAgree (get s) (attr r t) g c names) (ht : tagsOK g c names tags t = true) (hc : ∀ x ∈ structColumns g get tags, x ∈ columns zone)
    (k : String × Nat × CStruct × String × Bool) (hk : k ∈ kernelColumns) (hkt : k.2.1 = t) (hu : (columnNames.map asc).count (asc k.1) = 1) :
    ∃ v, kernelCell k.2.2.1 k.2.2.2.1 k.2.2.2.2 (attr r k.2.1) = some v ∧ HasCell (csvHeader zone) row k.1 v := by
  unfold tagsOK at ht
  rw [decide_eq_true_eq] at ht
  obtain ⟨e1, x, hx, e2, e3, e4, e5, e6⟩ := ht k hk hkt
  have := struct_cell hf e4 x.2.2 e5 e6
  rw [e1, hkt, ← e3, ← this]
  refine ⟨_, rfl, ?_⟩
  rw [← e2] at hu ⊢
  exact hasCell hr (hc _ (mem_structColumns hx)) hu rfl

theorem kernel_unique : ∀ k ∈ kernelColumns, (columnNames.map asc).count (asc k.1) = 1 := by decide +kernel
theorem kernel_types : ∀ k ∈ kernelColumns, k.2.1 = 1 ∨ k.2.1 = 2 ∨ k.2.1 = 3 ∨ k.2.1 = 7 ∨ k.2.1 = 9 ∨ k.2.1 = 16 := by decide +kernel

theorem kernel_cells {zone : Int → Int} {s : Snapshot} {row : List Bytes} (hr : csvRow zone s = some row) {r : ArchivalRecord} {md : Option Metadata}
    (hd : decode r = .ok (md, s)) (k : String × Nat × CStruct × String × Bool) (hk : k ∈ kernelColumns) :
    ∃ v, kernelCell k.2.2.1 k.2.2.2.1 k.2.2.2.2 (attr r k.2.1) = some v ∧ HasCell (csvHeader zone) row k.1 v := by
  obtain ⟨f1, f2, f3, f4, f5, f6⟩ := C26_structs r md s hd
  have hu := kernel_unique k hk
  rcases kernel_types k hk with ht | ht | ht | ht | ht | ht
  · exact struct_has hr (get := (·.memInfo)) (tags := memTags) f1 (by decide +kernel) (by intro x hx; simp only [columns, List.mem_append]; simp [hx]) k hk ht hu
  · exact struct_has hr (get := (·.tcpInfo)) (tags := tcpTags) f2 (by decide +kernel) (by intro x hx; simp only [columns, List.mem_append]; simp [hx]) k hk ht hu
  · exact struct_has hr (get := (·.vegasInfo)) (tags := vegasTags) f3 (by decide +kernel) (by intro x hx; simp only [columns, List.mem_append]; simp [hx]) k hk ht hu
  · exact struct_has hr (get := (·.socketMem)) (tags := skmemTags) f4 (by decide +kernel) (by intro x hx; simp only [columns, List.mem_append]; simp [hx]) k hk ht hu
  · exact struct_has hr (get := (·.dctcpInfo)) (tags := dctcpTags) f5 (by decide +kernel) (by intro x hx; simp only [columns, List.mem_append]; simp [hx]) k hk ht hu
  · exact struct_has hr (get := (·.bbrInfo)) (tags := bbrTags) f6 (by decide +kernel) (by intro x hx; simp only [columns, List.mem_append]; simp [hx]) k hk ht hu

/-- Row `i` of the output of csvtool is the row for the record `r`. -/
def RowFor (zone : Int → Int) (src : Source) (i : Nat) (r : ArchivalRecord) (header row : List Bytes) : Prop :=
  ∃ out rs rows, csvtool zone src = .ok out ∧ loadAllArchivalRecords src = (rs, none) ∧ rs[i]? = some r
    ∧ readCsv out = some (header :: rows) ∧ rows[i]? = some row

theorem rowFor_inv {zone : Int → Int} {src : Source} {i : Nat} {r : ArchivalRecord} {header row : List Bytes} (h : RowFor zone src i r header row) :
    header = csvHeader zone ∧ ∃ s, decode { r with timestamp := snapTime r } = .ok (r.metadata, s) ∧ s.timestamp = snapTime r ∧ csvRow zone s = some row := by
  obtain ⟨out, rs, rows, h1, h2, h3, h4, h5⟩ := h
  obtain ⟨rs', rows', a1, a2, -, a4⟩ := csvtool_inv h1
  rw [h2] at a1; injection a1 with a1 _; subst a1
  rw [h4] at a2; injection a2 with a2; injection a2 with a2 a2'; subst a2'
  obtain ⟨row', s, b1, -, b3, b4, b5⟩ := a4 i r h3
  rw [h5] at b1; injection b1 with b1; subst b1
  exact ⟨a2, s, b3, b4, b5⟩

/-- C77 (partial: `kernelColumns` lacks the fields whose column has a wrong name, see `C77_violated_duplicate`; signed columns are wrong for large values,
see `C77_violated_sign`). For each of the 76 columns: it occurs exactly once in the header, and the cell is the decimal text of the kernel's field in the
attribute of the record, empty if the record does not have the attribute. -/
theorem C77_kernel_partial (zone : Int → Int) (src : Source) (i : Nat) (r : ArchivalRecord) (header row : List Bytes) (h : RowFor zone src i r header row)
    (k : String × Nat × CStruct × String × Bool) (hk : k ∈ kernelColumns) :
    ∃ v, kernelCell k.2.2.1 k.2.2.2.1 k.2.2.2.2 (attr r k.2.1) = some v ∧ HasCell header row k.1 v := by
  obtain ⟨h1, s, h2, -, h3⟩ := rowFor_inv h
  rw [h1]
  exact kernel_cells (r := { r with timestamp := snapTime r }) h3 h2 k hk

/-- Decoding keeps the inet_diag header. -/
theorem decode_header {r : ArchivalRecord} {md : Option Metadata} {s : Snapshot} (h : decode r = .ok (md, s)) :
    match r.rawIDM with
    | none => s.inetDiagMsg = none
    | some raw => ∃ idm, parseIDM raw = .ok idm ∧ s.inetDiagMsg = some idm := by
  obtain ⟨-, idm, hl, hi⟩ := decode_ok h
  have ht : ∀ as t s s', decodeLoop t as s = some s' → s'.inetDiagMsg = s.inetDiagMsg := by
    intro as
    induction as with
    | nil => intro t s s' h; injection h with h; rw [h]
    | cons a as ih =>
      intro t s s' h
      cases a with
      | none => exact ih _ _ _ h
      | some raw =>
        rw [decodeLoop] at h
        cases hs : decodeSwitch t raw.val s with
        | none => rw [hs] at h; simp at h
        | some x =>
          obtain ⟨s1, ok⟩ := x
          rw [hs] at h
          rw [ih _ _ _ h]
          exact (decodeSwitch_ok t raw.val s s1 ok hs).2.2.2.2
  have := ht _ _ _ _ hl
  simp only at this
  rw [this]
  cases hr : r.rawIDM with
  | none => rw [hr] at hi; simpa using hi
  | some raw => rw [hr] at hi; obtain ⟨m, h1, h2⟩ := hi; exact ⟨m, h1, h2⟩

theorem diag_unique : ∀ c ∈ idmColumns.map (·.1), (columnNames.map asc).count (asc c) = 1 := by decide +kernel

theorem idm_mem {zone : Int → Int} {c : Column} (h : c ∈ idmColumns) : c ∈ columns zone := by simp only [columns, List.mem_append]; simp [h]

theorem idm_has {zone : Int → Int} {s : Snapshot} {row : List Bytes} (hr : csvRow zone s = some row) {idm : InetDiagMsg} (hs : s.inetDiagMsg = some idm)
    {name : String} {f : InetDiagMsg → Bytes} (hc : (name, idmCell f) ∈ idmColumns) : HasCell (csvHeader zone) row name (f idm) :=
  hasCell (c := (name, idmCell f)) hr (idm_mem hc) (diag_unique _ (List.mem_map.2 ⟨_, hc, rfl⟩)) (by simp [idmCell, hs])

theorem parse_lengths {raw : Bytes} {idm : InetDiagMsg} (hp : parseIDM raw = .ok idm) :
    idm.id.sport.length = 2 ∧ idm.id.dport.length = 2 ∧ idm.id.cookie.length = 8 := by
  have hlen : 72 ≤ raw.length := by
    apply Classical.byContradiction; intro hlt
    rw [parseIDM_short (by omega)] at hp; simp at hp
  have e := Res.ok.inj (hp.symm.trans (parseIDM_ok hlen))
  rw [e, parseSockID_sub]
  exact ⟨sub_length _ _ _ (by omega), sub_length _ _ _ (by omega), sub_length _ _ _ (by omega)⟩

/-- C77 (partial: without the interface index, whose bytes are reversed, see `C02_violated_interface`). The cells for the kernel's inet_diag_msg `m` (the
first 72 bytes of the record's raw message): numbers in decimal, the cookie in hexadecimal, the addresses as `C63_csv_partial` says. -/
theorem C77_diag_partial (zone : Int → Int) (src : Source) (i : Nat) (r : ArchivalRecord) (header row : List Bytes) (h : RowFor zone src i r header row)
    (m : DiagMsg) (rest : Bytes) (hm : r.rawIDM = some (m.wire ++ rest)) :
    (∀ k ∈ diagColumns, HasCell header row k.1 (decimal (k.2 m)))
    ∧ (∃ t, HasCell header row "IDM.SockID.Cookie" (ascL t) ∧ readNat 16 t = m.cookie.toNat)
    ∧ HasCell header row "IDM.SockID.Src" (ascL (ipCSV m.src.val)) ∧ HasCell header row "IDM.SockID.Dst" (ascL (ipCSV m.dst.val)) := by
  obtain ⟨h1, s, h2, -, h3⟩ := rowFor_inv h
  subst h1
  have hd := decode_header h2
  simp only [hm] at hd
  obtain ⟨idm, hp, hs⟩ := hd
  obtain ⟨idm', hp', ha⟩ := C02_parse_wire_partial m rest
  have e : idm = idm' := Res.ok.inj (hp.symm.trans hp')
  subst e
  have hid := parse_lengths hp
  obtain ⟨a1, a2, a3, a4, a5, a6, a7, a8, -, a9, b1, b2, b3, b4, b5⟩ := ha
  have port : ∀ (p : Bytes) (x : UInt16), p.length = 2 → UInt16.ofNat (beNat p) = x → ascL (portCSV p) = decimal x.toNat := by
    intro p x hl hx
    have hb : beNat p < 65536 := by
      have := leNat_lt p.reverse
      rw [← beNat_reverse, List.reverse_reverse, List.length_reverse, hl] at this
      exact this
    rw [← hx, UInt16.toNat_ofNat', Nat.mod_eq_of_lt hb]
    exact csvNat_decimal _
  refine ⟨?_, ⟨cookieCSV idm.id.cookie, idm_has h3 hs (f := fun m => ascL (cookieCSV m.id.cookie)) (by simp [idmColumns]), ?_⟩, ?_, ?_⟩
  · intro k hk
    simp only [diagColumns, List.mem_cons, List.not_mem_nil, or_false] at hk
    rcases hk with rfl | rfl | rfl | rfl | rfl | rfl | rfl | rfl | rfl | rfl | rfl
    · simp only [← a1, ← csvNat_decimal]; exact idm_has h3 hs (f := fun m => csvNat m.family.toNat) (by simp [idmColumns])
    · simp only [← a2, ← csvNat_decimal]; exact idm_has h3 hs (f := fun m => csvNat m.state.toNat) (by simp [idmColumns])
    · simp only [← a3, ← csvNat_decimal]; exact idm_has h3 hs (f := fun m => csvNat m.timer.toNat) (by simp [idmColumns])
    · simp only [← a4, ← csvNat_decimal]; exact idm_has h3 hs (f := fun m => csvNat m.retrans.toNat) (by simp [idmColumns])
    · simp only [← port _ _ hid.1 a5]; exact idm_has h3 hs (f := fun m => ascL (portCSV m.id.sport)) (by simp [idmColumns])
    · simp only [← port _ _ hid.2.1 a6]; exact idm_has h3 hs (f := fun m => ascL (portCSV m.id.dport)) (by simp [idmColumns])
    · simp only [← b1, ← csvNat_decimal]; exact idm_has h3 hs (f := fun m => csvNat m.expires.toNat) (by simp [idmColumns])
    · simp only [← b2, ← csvNat_decimal]; exact idm_has h3 hs (f := fun m => csvNat m.rqueue.toNat) (by simp [idmColumns])
    · simp only [← b3, ← csvNat_decimal]; exact idm_has h3 hs (f := fun m => csvNat m.wqueue.toNat) (by simp [idmColumns])
    · simp only [← b4, ← csvNat_decimal]; exact idm_has h3 hs (f := fun m => csvNat m.uid.toNat) (by simp [idmColumns])
    · simp only [← b5, ← csvNat_decimal]; exact idm_has h3 hs (f := fun m => csvNat m.inode.toNat) (by simp [idmColumns])
  · rw [C60_cookie_csv idm.id hid.2.2, a9]
  · rw [← a7]; exact idm_has h3 hs (f := fun m => ascL (ipCSV m.id.src)) (by simp [idmColumns])
  · rw [← a8]; exact idm_has h3 hs (f := fun m => ascL (ipCSV m.id.dst)) (by simp [idmColumns])

theorem scalar_has {zone : Int → Int} {s : Snapshot} {row : List Bytes} (hr : csvRow zone s = some row) {c : Column} (hc : c ∈ columns zone)
    (hn : c.1 ∈ ["Timestamp", "Observed", "NotFullyParsed", "CongestionAlgorithm", "TOS", "TClass", "ClassID", "Shutdown", "Protocol", "Mark"]) {v : Bytes}
    (hv : c.2 s = some v) : HasCell (csvHeader zone) row c.1 v := by
  have : ∀ n ∈ ["Timestamp", "Observed", "NotFullyParsed", "CongestionAlgorithm", "TOS", "TClass", "ClassID", "Shutdown", "Protocol", "Mark"],
      (columnNames.map asc).count (asc n) = 1 := by decide +kernel
  exact hasCell hr hc (this _ hn) hv

/-- C77. The other cells: the time of the record (reading the text gives it back, in whatever zone it is shown), the one-byte values (zero if absent), the
mark (zero unless it has four bytes) and the name of the congestion algorithm (empty if absent). -/
theorem C77_other (zone : Int → Int) (hz : ∀ t, (zone t).natAbs < 24 * 60) (src : Source) (i : Nat) (r : ArchivalRecord) (header row : List Bytes)
    (h : RowFor zone src i r header row) :
    (∃ t, HasCell header row "Timestamp" t ∧ parseTime t = some (snapTime r))
    ∧ (∀ k ∈ byteColumns, HasCell header row k.1 (decimal (((attr r k.2).map (fun a => Spec.byte a 0)).getD 0).toNat))
    ∧ HasCell header row "Mark" (decimal (match attr r 15 with | some a => if a.length = 4 then leNat a else 0 | none => 0 : Nat))
    ∧ HasCell header row "CongestionAlgorithm" (match attr r 4 with | some a => a.dropLast | none => []) := by
  obtain ⟨h1, s, h2, h4, h3⟩ := rowFor_inv h
  subst h1
  obtain ⟨a1, a2, a3, a4, a5, a6, a7⟩ := C26_scalars _ _ _ h2
  have hmem : ("Timestamp", fun (s : Snapshot) => fmtTime (zone s.timestamp) s.timestamp) ∈ columns zone := by simp [columns]
  refine ⟨?_, ?_, ?_, ?_⟩
  · obtain ⟨j, hj, b, hb, he⟩ := row_cell h3 hmem
    refine ⟨b, scalar_has h3 hmem (by simp) he, ?_⟩
    simp only at he
    rw [parseTime_fmtTime (by have := hz s.timestamp; omega) he, h4]
  · intro k hk
    simp only [byteColumns, List.mem_cons, List.not_mem_nil, or_false] at hk
    rcases hk with rfl | rfl | rfl | rfl | rfl
    · simp only [← csvNat_decimal]
      exact scalar_has (c := ("TOS", fun s => some (csvNat s.tos.toNat))) h3 (by simp [columns]) (by simp) (by simp only [a1]; rfl)
    · simp only [← csvNat_decimal]
      exact scalar_has (c := ("TClass", fun s => some (csvNat s.tclass.toNat))) h3 (by simp [columns]) (by simp) (by simp only [a2]; rfl)
    · simp only [← csvNat_decimal]
      exact scalar_has (c := ("Shutdown", fun s => some (csvNat s.shutdown.toNat))) h3 (by simp [columns]) (by simp) (by simp only [a3]; rfl)
    · simp only [← csvNat_decimal]
      exact scalar_has (c := ("Protocol", fun s => some (csvNat s.protocol.toNat))) h3 (by simp [columns]) (by simp) (by simp only [a4]; rfl)
    · simp only [← csvNat_decimal]
      exact scalar_has (c := ("ClassID", fun s => some (csvNat s.classID.toNat))) h3 (by simp [columns]) (by simp) (by simp only [a5]; rfl)
  · rw [← csvNat_decimal]
    exact scalar_has (c := ("Mark", fun s => some (csvNat s.mark.toNat))) h3 (by simp [columns]) (by simp) (by simp only [a6]; rfl)
  · exact scalar_has (c := ("CongestionAlgorithm", fun s => some s.congestionAlgorithm)) h3 (by simp [columns]) (by simp) (by simp only [a7]; rfl)

/-- C77. Exactly the number the kernel gave, unless its column is signed and the highest bit set. -/
theorem C77_exact_partial (zone : Int → Int) (src : Source) (i : Nat) (r : ArchivalRecord) (header row : List Bytes) (h : RowFor zone src i r header row)
    (name : String) (t : Nat) (c : CStruct) (f : String) (signed : Bool) (hk : (name, t, c, f, signed) ∈ kernelColumns)
    (a : Bytes) (ha : attr r t = some a) (n sz : Nat) (hn : fieldOf c f a = some n) (hsz : c.lookup f = some sz) (hs : signed = true → n < 2 ^ (8 * sz - 1)) :
    HasCell header row name (decimal n) := by
  obtain ⟨v, h1, h2⟩ := C77_kernel_partial zone src i r header row h _ hk
  simp only [kernelCell, ha, hn, hsz, Option.bind_some, Option.map_some, Option.some.injEq] at h1
  rw [← h1] at h2
  have : (signed && decide (2 ^ (8 * sz - 1) ≤ n)) = false := by
    cases signed with
    | false => rfl
    | true => have := hs rfl; simp; omega
  rw [this] at h2
  simpa using h2

/-- C77 violated: the number of segments sent is an unsigned 32-bit number in the kernel; from 2^31 on the table shows it as negative. (The same for the
other columns with `signed`; those of 64 bits do not get that large in practice.) -/
theorem C77_violated_sign (zone : Int → Int) (src : Source) (i : Nat) (r : ArchivalRecord) (header row : List Bytes) (h : RowFor zone src i r header row)
    (a : Bytes) (ha : attr r 2 = some a) (n : Nat) (hn : fieldOf tcp_info "tcpi_segs_out" a = some n) (hbig : 2 ^ 31 ≤ n) :
    HasCell header row "TCP.SegsOut" (decimal ((n : Int) - 2 ^ 32)) := by
  have hk : ("TCP.SegsOut", 2, tcp_info, "tcpi_segs_out", true) ∈ kernelColumns := by decide +kernel
  obtain ⟨v, h1, h2⟩ := C77_kernel_partial zone src i r header row h _ hk
  simp only [kernelCell, ha, hn, show tcp_info.lookup "tcpi_segs_out" = some 4 by decide +kernel, Option.bind_some, Option.map_some, Option.some.injEq] at h1
  rw [← h1] at h2
  have : (true && decide (2 ^ (8 * 4 - 1) ≤ n)) = true := by simpa using hbig
  rw [this] at h2
  simpa using h2

/-- C77 violated: two columns are called TCP.LastDataRecv (the second one is the kernel's tcpi_last_ack_recv), no column TCP.LastAckRecv; the size of the send
buffer is in a column SKMemInfo.Sndbug. -/
theorem C77_violated_duplicate (zone : Int → Int) : (csvHeader zone).count (asc "TCP.LastDataRecv") = 2 ∧ asc "TCP.LastAckRecv" ∉ csvHeader zone
    ∧ asc "SKMemInfo.Sndbuf" ∉ csvHeader zone ∧ asc "SKMemInfo.Sndbug" ∈ csvHeader zone := by
  rw [header_names]; decide +kernel

/-! ## C78 -/

/-- C78. A cell for a field of a kernel struct is empty exactly if the record lacks the attribute: an absent attribute is not shown as zeros. -/
theorem C78_absent (zone : Int → Int) (src : Source) (i : Nat) (r : ArchivalRecord) (header row : List Bytes) (h : RowFor zone src i r header row)
    (k : String × Nat × CStruct × String × Bool) (hk : k ∈ kernelColumns) : HasCell header row k.1 [] ↔ attr r k.2.1 = none := by
  obtain ⟨v, h1, h2⟩ := C77_kernel_partial zone src i r header row h k hk
  constructor
  · rintro ⟨j, e1, e2, e3⟩
    obtain ⟨j', f1, f2, f3⟩ := h2
    have := e3 j' f1
    subst this
    rw [e2] at f2; injection f2 with f2; subst f2
    cases ha : attr r k.2.1 with
    | none => rfl
    | some a =>
      rw [ha] at h1
      simp only [kernelCell] at h1
      obtain ⟨n, -, h1⟩ := Option.bind_eq_some_iff.1 h1
      obtain ⟨sz, -, h1⟩ := Option.map_eq_some_iff.1 h1
      exact absurd h1 (decimal_ne_nil _)
  · intro ha
    rw [ha] at h1
    simp only [kernelCell, Option.some.injEq] at h1
    subst h1; exact h2

/-- C78. For every attribute (so also for those whose cell says 0 if they are absent) the column Observed tells whether the record has it, for records with
at most 257 slots. -/
theorem C78_observed (zone : Int → Int) (src : Source) (i : Nat) (r : ArchivalRecord) (header row : List Bytes) (h : RowFor zone src i r header row)
    (hn : (r.attributes.getD []).length ≤ 257) :
    ∃ n : Nat, HasCell header row "Observed" (decimal n) ∧ ∀ t, 1 ≤ t → t ≤ 32 → (n.testBit (t - 1) = true ↔ attr r t ≠ none) := by
  obtain ⟨h1, s, h2, h4, h3⟩ := rowFor_inv h
  subst h1
  refine ⟨s.observed.toNat, ?_, fun t ht ht' => C25_observed_partial _ _ _ h2 hn t ht ht'⟩
  rw [← csvNat_decimal]
  exact scalar_has (c := ("Observed", fun s => some (csvNat s.observed.toNat))) h3 (by simp [columns]) (by simp) rfl

/-! ## C79 -/

/-- C79 (partial: see `C79_violated_header`). The rows that are observations of a connection are recognizable: their cells of the inet_diag header are not
empty. -/
theorem C79_observation_partial (zone : Int → Int) (src : Source) (i : Nat) (r : ArchivalRecord) (header row : List Bytes) (h : RowFor zone src i r header row) :
    (r.rawIDM = none → ∀ name ∈ idmColumns.map (·.1), HasCell header row name [])
    ∧ (r.rawIDM ≠ none → ∃ n : Nat, HasCell header row "IDM.Family" (decimal n)) := by
  obtain ⟨h1, s, h2, h4, h3⟩ := rowFor_inv h
  subst h1
  have hd := decode_header h2
  constructor
  · intro hn name hname
    simp only [hn] at hd
    obtain ⟨c, hc, rfl⟩ := List.mem_map.1 hname
    refine hasCell h3 (idm_mem hc) (diag_unique _ (List.mem_map.2 ⟨_, hc, rfl⟩)) ?_
    have : ∀ c ∈ idmColumns, ∃ f, c.2 = idmCell f := by
      intro c hc
      simp only [idmColumns, List.mem_cons, List.not_mem_nil, or_false] at hc
      rcases hc with rfl | rfl | rfl | rfl | rfl | rfl | rfl | rfl | rfl | rfl | rfl | rfl | rfl | rfl | rfl <;> exact ⟨_, rfl⟩
    obtain ⟨f, hf⟩ := this c hc
    rw [hf]; simp [idmCell, hd]
  · intro hn
    cases hr : r.rawIDM with
    | none => exact absurd hr hn
    | some raw =>
      simp only [hr] at hd
      obtain ⟨idm, -, hs⟩ := hd
      refine ⟨idm.family.toNat, ?_⟩
      rw [← csvNat_decimal]
      exact idm_has h3 hs (f := fun m => csvNat m.family.toNat) (by simp [idmColumns])

/-- C79 violated: the header record of a file (metadata, the zero time, no message) becomes a row like any other, dated 29 May 2009, without any value. -/
theorem C79_violated_header (zone : Int → Int) (hz : ∀ t, (zone t).natAbs < 24 * 60) (src : Source) (i : Nat) (r : ArchivalRecord) (header row : List Bytes)
    (h : RowFor zone src i r header row) (ht : r.timestamp = zeroTime) (hr : r.rawIDM = none) (ha : r.attributes = none) :
    (∃ t, HasCell header row "Timestamp" t ∧ parseTime t = some (1243641599 * 1000000000))
    ∧ (∀ name ∈ idmColumns.map (·.1), HasCell header row name []) ∧ ∀ k ∈ kernelColumns, HasCell header row k.1 [] := by
  refine ⟨?_, (C79_observation_partial zone src i r header row h).1 hr, fun k hk => (C78_absent zone src i r header row h k hk).2 ?_⟩
  · obtain ⟨t, h1, h2⟩ := (C77_other zone hz src i r header row h).1
    refine ⟨t, h1, ?_⟩
    rw [h2]; unfold snapTime; rw [ht]; rfl
  · simp [attr, ha]

/-! ## C80 -/

theorem mapM_some {α β : Type} {l : List α} {f : α → Option β} (h : ∀ a ∈ l, (f a).isSome) : ∃ o, l.mapM f = some o := by
  induction l with
  | nil => exact ⟨[], rfl⟩
  | cons a l ih =>
    obtain ⟨b, hb⟩ := Option.isSome_iff_exists.1 (h a (by simp))
    obtain ⟨o, ho⟩ := ih (fun x hx => h x (by simp [hx]))
    exact ⟨b :: o, by simp [List.mapM_cons, hb, ho]⟩

theorem csvRow_some {zone : Int → Int} {s : Snapshot} (h : (fmtTime (zone s.timestamp) s.timestamp).isSome) : ∃ row, csvRow zone s = some row := by
  apply mapM_some
  intro c hc
  have hst : ∀ g get tags, c ∈ structColumns g get tags → (c.2 s).isSome := by
    intro g get tags hx
    obtain ⟨t, -, rfl⟩ := List.mem_map.1 hx
    rfl
  simp only [columns, List.mem_append] at hc
  rcases hc with (((((((hc | hc) | hc) | hc) | hc) | hc) | hc) | hc) | hc
  · simp only [List.mem_cons, List.not_mem_nil, or_false] at hc
    rcases hc with rfl | rfl | rfl
    · exact h
    · rfl
    · rfl
  · simp only [idmColumns, List.mem_cons, List.not_mem_nil, or_false] at hc
    rcases hc with rfl | rfl | rfl | rfl | rfl | rfl | rfl | rfl | rfl | rfl | rfl | rfl | rfl | rfl | rfl <;>
      (simp only [idmCell]; split <;> rfl)
  · simp only [List.mem_cons, List.not_mem_nil, or_false] at hc
    rcases hc with rfl | rfl | rfl | rfl | rfl | rfl | rfl <;> rfl
  · exact hst _ _ _ hc
  · exact hst _ _ _ hc
  · exact hst _ _ _ hc
  · exact hst _ _ _ hc
  · exact hst _ _ _ hc
  · exact hst _ _ _ hc

theorem archiveTokens_fin (ts : List Bytes) : (archiveTokens ts).fin ≠ none := by
  induction ts with
  | nil => simp [archiveTokens]
  | cons t ts ih =>
    rw [archiveTokens]
    split
    · exact ih
    · simp

/-- C80. An archive of records each of which has metadata or a complete message, a congestion algorithm attribute that is not empty, and a year with four
digits, is converted. -/
theorem C80_converts (zone : Int → Int) (src : Source) (rs : List ArchivalRecord) (h : loadAllArchivalRecords src = (rs, none))
    (hr : ∀ r ∈ rs, (r.metadata ≠ none ∨ r.rawIDM ≠ none) ∧ (∀ raw, r.rawIDM = some raw → 72 ≤ raw.length) ∧ attr r 4 ≠ some []
      ∧ year0 ≤ snapTime r + zone (snapTime r) * 60 * 1000000000 ∧ snapTime r + zone (snapTime r) * 60 * 1000000000 < year10000) :
    ∃ out, csvtool zone src = .ok out := by
  have hfin : (archiveStream src).records = rs ∧ (archiveStream src).fin = some .eof := by
    unfold loadAllArchivalRecords at h
    simp only [Prod.mk.injEq] at h
    refine ⟨h.1, ?_⟩
    have := archiveTokens_fin (scanLines [] src.bytes).1
    have h2 := h.2
    split at h2
    · assumption
    · exact absurd h2 this
  have hdec : ∀ r ∈ rs, ∃ s, readerNext r = .ok (r.metadata, s) ∧ s.timestamp = snapTime r := by
    intro r hm
    obtain ⟨h1, h2, h3, -⟩ := hr r hm
    have herr : ∀ e, decode { r with timestamp := snapTime r } ≠ .err e := by
      intro e he
      rcases (C27_error_iff _).1 ⟨e, he⟩ with ⟨a, b⟩ | ⟨raw, a, b⟩
      · rcases h1 with h1 | h1
        · exact h1 a
        · exact h1 b
      · have := h2 raw a; omega
    have hpan : decode { r with timestamp := snapTime r } ≠ .panic := C27_no_crash_partial _ h3
    have e : readerNext r = decode { r with timestamp := snapTime r } := by
      unfold readerNext snapTime goZeroTime hackTime
      split <;> rfl
    cases hd : decode { r with timestamp := snapTime r } with
    | err e => exact absurd hd (herr e)
    | panic => exact absurd hd hpan
    | ok x =>
      obtain ⟨m, s⟩ := x
      rw [hd] at e
      have := readerNext_ok e
      exact ⟨s, by rw [e, this.1], this.2.2⟩
  have houts : ∃ outs : List (Option Metadata × Snapshot), rs.map readerNext = outs.map .ok ∧ ∀ o ∈ outs, ∃ r ∈ rs, o.2.timestamp = snapTime r := by
    clear h hfin hr
    induction rs with
    | nil => exact ⟨[], rfl, by simp⟩
    | cons r rs ih =>
      obtain ⟨outs, h1, h2⟩ := ih (fun r hr => hdec r (by simp [hr]))
      obtain ⟨s, h3, h4⟩ := hdec r (by simp)
      refine ⟨(r.metadata, s) :: outs, by simp [h1, h3], ?_⟩
      intro o ho
      rcases List.mem_cons.1 ho with rfl | ho
      · exact ⟨r, by simp, h4⟩
      · obtain ⟨r', hr', e⟩ := h2 o ho; exact ⟨r', by simp [hr'], e⟩
  obtain ⟨outs, h1, h2⟩ := houts
  have hl := (C28_all rs outs h1).1
  have hstream : archiveStream src = ⟨rs, some .eof⟩ := by
    cases hs : archiveStream src with
    | mk a b => rw [hs] at hfin; simp only at hfin; rw [hfin.1, hfin.2]
  obtain ⟨rows, hrows⟩ := mapM_some (l := outs.map (·.2)) (f := csvRow zone) (by
    intro s hs
    obtain ⟨o, ho, rfl⟩ := List.mem_map.1 hs
    obtain ⟨r, hm, e⟩ := h2 o ho
    obtain ⟨-, -, -, h5, h6⟩ := hr r hm
    obtain ⟨row, hrow⟩ := csvRow_some (zone := zone) (s := o.2) (by rw [e]; exact fmtTime_some h5 h6)
    rw [hrow]; rfl)
  unfold csvtool
  rw [hstream, hl]
  simp only [toCSV, hrows, Option.map_some]
  exact ⟨_, rfl⟩

theorem snapTime_modern {zone : Int → Int} (hz : ∀ t, (zone t).natAbs < 24 * 60) {r : ArchivalRecord} (h : r.timestamp = zeroTime ∨ ModernTime r.timestamp) :
    year0 ≤ snapTime r + zone (snapTime r) * 60 * 1000000000 ∧ snapTime r + zone (snapTime r) * 60 * 1000000000 < year10000 := by
  apply modern_shift hz
  unfold snapTime
  split
  · unfold ModernTime year0 year10000; omega
  · rcases h with h | h
    · rename_i hn; exact absurd h hn
    · exact h

theorem attr_same {a b : ArchivalRecord} (h : SameContents a b) (t : Nat) : attr b t = attr a t := by
  obtain ⟨-, -, h, -⟩ := h
  have e : ∀ r : ArchivalRecord, attr r t = (((r.attributes.getD []).map attrContents)[t]?).join := by
    intro r
    unfold attr
    rw [List.getElem?_map]
    cases (r.attributes.getD [])[t]? <;> rfl
  rw [e, e, h]

/-- C80. From the kernel's messages to the table: `main` has returned after the polls `bs`, under any schedule of everything in it. Then csvtool, in any time
zone, converts every file (read through the decompressor, under any schedule) if none of its records has an empty congestion algorithm attribute. The table
has a first row for the file's header record, then one row for each record of the file, in order, made from a record with exactly its contents (addresses
anonymized). -/
theorem C80_archive (zone zone' : Int → Int) (hz : ∀ t, (zone t).natAbs < 24 * 60) (hz' : ∀ t, (zone' t).natAbs < 24 * 60) (anon : Anonymizer) (env : Env)
    (bs : List MessageBlock) (hi : ShortInput env bs) (hm : 0 < env.marshallers) (hm' : env.marshallers < 2 ^ 64) (cs : List PChoice) (p : Proc)
    (hr : runProc (jsonEnv zone anon) env bs cs = some p) (hp : p.pc = .returned) :
    ∃ s, runSaver env bs = some s ∧ ∀ w, (fileEvents w s.trace = [] ∧ p.m.files w = [])
      ∨ ∃ n hd, ∃ ws : List ArchivalRecord, ∃ q, fileEvents w s.trace = .opened n hd :: ws.map (.wrote q) ++ [.closed q]
        ∧ ((∀ r ∈ ws, attr r 4 ≠ some []) →
          ∀ cap z, Zstd.Reachable cap (zCalls (p.m.files w)) z → .closed true ∈ z.rets → z.child ≠ .exited false →
            ∃ data, z.disk = some data ∧ ∀ cap' d, Zstd.DReachable cap' data true d → d.eof = true →
              ∃ out header rows, csvtool zone' ⟨d.received, .eof⟩ = .ok out ∧ readCsv out = some (header :: rows)
                ∧ rows.length = 1 + (ws.filterMap (anonymized anon.f)).length
                ∧ ∀ (i : Nat) (a : ArchivalRecord), (hd :: ws.filterMap (anonymized anon.f))[i]? = some a →
                    ∃ b row, SameContents a b ∧ RowFor zone' ⟨d.received, .eof⟩ i b header row ∧ rows[i]? = some row) := by
  obtain ⟨s, h, hall⟩ := C74_archive zone hz anon env bs hi hm hm' cs p hr hp
  refine ⟨s, h, fun w => ?_⟩
  rcases hall w with he | ⟨n, hd, ws, q, he, hc⟩
  · exact Or.inl he
  · refine Or.inr ⟨n, hd, ws, q, he, fun hcong cap z z1 z2 z3 => ?_⟩
    obtain ⟨data, hdata, hload⟩ := hc cap z z1 z2 z3
    refine ⟨data, hdata, fun cap' d d1 d2 => ?_⟩
    obtain ⟨rs, hrs, hlen, hsame⟩ := hload cap' d d1 d2
    obtain ⟨k, n', hd', st, ws', q', he', -, hh, -⟩ := C37_contents env bs s h w (by rw [he]; simp)
    have hhd : hd = hd' := by
      rw [he] at he'
      simp only [List.cons_append, List.cons.injEq, FileEvent.opened.injEq] at he'
      exact he'.1.2
    rw [← hhd] at hh
    obtain ⟨out, hout⟩ := C80_converts zone' ⟨d.received, .eof⟩ rs hrs (by
      intro b hb
      obtain ⟨i, hi'⟩ := List.mem_iff_getElem?.1 hb
      have hlt : i < (hd :: ws.filterMap (anonymized anon.f)).length := by
        rw [← hlen]; exact (List.getElem?_eq_some_iff.1 hi').1
      have hget := List.getElem?_eq_getElem hlt
      have hs := hsame i _ b hget hi'
      have hmem := List.getElem_mem hlt
      generalize (hd :: ws.filterMap (anonymized anon.f))[i] = a at hs hmem
      rw [attr_same hs]
      obtain ⟨s1, s2, -, s4⟩ := hs
      rcases List.mem_cons.1 hmem with rfl | hmem
      · rw [hh] at s1 s2 s4
        simp only [reduceCtorEq, if_false] at s1 s2 s4
        refine ⟨Or.inl (by rw [← s4]; simp), by rw [s2]; simp, by rw [hh]; simp [attr], ?_⟩
        exact snapTime_modern hz' (Or.inl s1.symm)
      · obtain ⟨r0, hr0, ha⟩ := List.mem_filterMap.1 hmem
        have hrep : r0 ∈ bs.flatMap (reports env.exclude) := by
          refine (C37_order env bs s h w).subset ?_
          unfold fileRecords
          rw [he]
          simp only [List.cons_append, List.mem_filterMap]
          exact ⟨.wrote q r0, by simp [hr0], rfl⟩
        have ht := (short_report hi hrep).1
        obtain ⟨a1, a2, a3, -⟩ := anonymized_size ha
        have hraw : ∃ raw, a.rawIDM = some raw ∧ 72 ≤ raw.length := by
          have h72 : 72 ≤ (r0.rawIDM.getD []).length := by
            unfold anonymized at ha
            simp only at ha
            split at ha
            · simp at ha
            · omega
          have h72' : 72 ≤ (a.rawIDM.getD []).length := by
            have : a.raw.length = r0.raw.length := a2
            unfold ArchivalRecord.raw at this
            omega
          cases hx : a.rawIDM with
          | none => rw [hx] at h72'; simp at h72'
          | some raw => rw [hx] at h72'; exact ⟨raw, rfl, h72'⟩
        obtain ⟨raw, hraw, h72⟩ := hraw
        have e : b.rawIDM = some raw := by
          rw [s2, hraw, if_neg]
          intro e; injection e with e; subst e; simp at h72
        refine ⟨Or.inr (by rw [e]; simp), ?_, ?_, snapTime_modern hz' (Or.inr (by rw [← s1, a1]; exact ht))⟩
        · intro raw' h'; rw [e] at h'; injection h' with h'; subst h'; exact h72
        · have : attr a 4 = attr r0 4 := by
            have : a.attributes.getD [] = r0.attributes.getD [] := a3
            unfold attr; rw [this]
          rw [this]; exact hcong r0 hr0)
    obtain ⟨rs', rows, b1, b2, b3, b4⟩ := csvtool_inv hout
    rw [hrs] at b1; injection b1 with b1 _; subst b1
    refine ⟨out, _, rows, hout, b2, by rw [b3, hlen]; simp; omega, ?_⟩
    intro i a hia
    have hlt : i < rs.length := by rw [hlen]; exact (List.getElem?_eq_some_iff.1 hia).1
    have hget := List.getElem?_eq_getElem hlt
    obtain ⟨row, s', c1, -⟩ := b4 i _ hget
    exact ⟨rs[i], row, hsame i a _ hia hget, ⟨out, rs, rows, hout, hrs, hget, b2, c1⟩, c1⟩

/-- C80 violated: one record with an empty congestion algorithm attribute, and csvtool crashes; the other records of the file are not converted either. -/
theorem C80_violated (zone : Int → Int) (src : Source) (rs : List ArchivalRecord) (h : loadAllArchivalRecords src = (rs, none)) (pre post : List ArchivalRecord)
    (r : ArchivalRecord) (hrs : rs = pre ++ r :: post) (outs : List (Option Metadata × Snapshot)) (hpre : pre.map readerNext = outs.map .ok)
    (hr : r.rawIDM = some (exampleMsg.wire)) (h4 : attr r 4 = some []) : csvtool zone src = .panic := by
  have hrec : (archiveStream src).records = rs := by
    unfold loadAllArchivalRecords at h
    simp only [Prod.mk.injEq] at h
    exact h.1
  have hp : readerNext r = .panic := by
    have e : readerNext r = decode { r with timestamp := snapTime r } := by
      unfold readerNext snapTime goZeroTime hackTime
      split <;> rfl
    rw [e, C27_panic_iff]
    refine ⟨h4, ?_⟩
    rw [C27_error_iff]
    rintro (⟨-, a⟩ | ⟨raw, a, b⟩)
    · rw [hr] at a; simp at a
    · simp only [hr] at a
      injection a with a
      subst a
      exact absurd b (by decide)
  unfold csvtool loadAll
  rw [hrec, hrs, loadAllLoop_ok _ (r :: post) outs pre _ _ hpre]
  simp only [loadAllLoop, hp]

/-! ## Examples -/

/-- The header record of a file. -/
def exCsvHeader : ArchivalRecord :=
  { timestamp := zeroTime, rawIDM := none, attributes := none, metadata := some ⟨"host_1_2_3", 0, 1600000000 * 1000000000⟩ }
/-- Slots: a congestion algorithm with characters that have to be quoted, 5 as TOS, and `tcp` as tcp_info. -/
def exCsvRecord (cong tcp : Bytes) : ArchivalRecord :=
  { timestamp := 1600000000123456789, rawIDM := some exampleMsg.wire,
    attributes := some [none, none, some ⟨tcp, []⟩, none, some ⟨cong, []⟩, some ⟨[5], []⟩], metadata := none }
/-- tcpi_segs_out is at offset 136: 2^32 - 2; the attribute ends before tcpi_data_segs_in. -/
def exCsvTcp : Bytes := List.replicate 136 1 ++ [254, 255, 255, 255] ++ List.replicate 8 0
/-- The archive. -/
def exCsvSource (cong : Bytes) : Source :=
  ⟨linesText ([exCsvHeader, exCsvRecord cong exCsvTcp].map (fun r => (marshalRecord (fun _ => 0) r).getD [])), .eof⟩
/-- The table. -/
def exCsvTable (cong : Bytes) : Option (List (List Bytes)) :=
  match csvtool (fun _ => 120) (exCsvSource cong) with
  | .ok out => readCsv out
  | _ => none
/-- Cell in row `i` (0: header) under the first column of this name. -/
def exCell (t : Option (List (List Bytes))) (i : Nat) (name : String) : Option Bytes :=
  t.bind (fun t => (t[0]?).bind (fun h => (t[i]?).bind (fun row => (h.findIdx? (· == asc name)).bind (fun j => row[j]?))))

example : (exCsvTable (asc "a,\"b\n\x00")).map (fun t => (t.length, t.map List.length)) = some (3, [105, 105, 105]) := by decide +kernel
example : ["TCP.SegsOut", "TCP.RTT", "TCP.DataSegsIn", "TOS", "IDM.SockID.SPort", "IDM.SockID.Cookie", "IDM.SockID.Dst", "Vegas.RTT", "CongestionAlgorithm",
      "Timestamp", "Observed"].map (exCell (exCsvTable (asc "a,\"b\n\x00")) 2)
    = ["-2", "16843009", "0", "5", "443", "FEDCBA9876543210", "2001:db8::2", "", "a,\"b\n", "2020-09-13T14:26:40.123456789+02:00", "26"].map (fun x => some (asc x)) := by
  decide +kernel
example : ["Timestamp", "IDM.Family", "TCP.RTT", "TOS", "CongestionAlgorithm"].map (exCell (exCsvTable (asc "a,\"b\n\x00")) 1)
    = ["2009-05-30T01:59:59+02:00", "", "", "0", ""].map (fun x => some (asc x)) := by decide +kernel
example : fieldOf tcp_info "tcpi_segs_out" exCsvTcp = some (2 ^ 32 - 2) := by decide +kernel
-- the hypothesis of the theorems about rows
theorem exRowFor : ∃ r header row, RowFor (fun _ => 120) (exCsvSource (asc "cubic\x00")) 1 r header row ∧ attr r 2 = some exCsvTcp ∧ r.rawIDM = some exampleMsg.wire := by
  have hok : (match csvtool (fun _ => 120) (exCsvSource (asc "cubic\x00")) with | .ok _ => true | _ => false) = true := by decide +kernel
  split at hok
  · next out ho =>
    obtain ⟨rs, rows, h1, h2, h3, h4⟩ := csvtool_inv ho
    have hlen : (loadAllArchivalRecords (exCsvSource (asc "cubic\x00"))).1.length = 2 := by decide +kernel
    have hrec : ((loadAllArchivalRecords (exCsvSource (asc "cubic\x00"))).1[1]?).map (fun r => (attr r 2, r.rawIDM)) = some (some exCsvTcp, some exampleMsg.wire) := by
      decide +kernel
    rw [h1] at hlen hrec
    have hlt : 1 < rs.length := by simp only at hlen; omega
    have hget := List.getElem?_eq_getElem hlt
    obtain ⟨row, s, a1, -⟩ := h4 1 _ hget
    simp only at hrec
    rw [hget] at hrec
    simp only [Option.map_some, Option.some.injEq, Prod.mk.injEq] at hrec
    exact ⟨rs[1], _, row, ⟨out, rs, rows, ho, h1, hget, h2, a1⟩, hrec.1, hrec.2⟩
  · simp at hok
-- an empty congestion algorithm attribute
example : csvtool (fun _ => 120) (exCsvSource []) = .panic := by decide +kernel
example : decompresses "/data/x.00001.jsonl.zst".toList = true ∧ decompresses "/data/x.zst.jsonl".toList = false := by decide +kernel

end TcpInfo
