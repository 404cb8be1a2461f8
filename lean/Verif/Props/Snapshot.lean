import Verif.Lemmas.Snapshot
import Verif.Props.Header
/-!
# C25, C26, C27, C28: snapshots
-/

namespace TcpInfo
open Spec

theorem attr_eq (r : ArchivalRecord) (t : Nat) : attr r t = ((r.attrs[t]?).join.map (·.val)) := rfl

theorem attr_some {r : ArchivalRecord} {t : Nat} {a : Bytes} : attr r t = some a ↔ ∃ raw : GoSlice, r.attrs[t]? = some (some raw) ∧ raw.val = a := by
  rw [attr_eq]
  cases h : r.attrs[t]? with
  | none => simp
  | some o => cases o with
    | none => simp
    | some raw => simp

/-! ## C25 -/

theorem okOf_understood (t : Nat) (a : Bytes) (h4 : t = 4 → a ≠ []) (h1 : t ∈ [5, 6, 8, 10, 17] → a.length ≤ 1)
    (hb : t = 16 → ¬ (20 < a.length ∧ a.length ≤ 24)) : okOf t a = true ↔ understood t a := by
  have hs : ∀ (g : GoStruct) (f : Bytes → Snapshot), (putStruct a g f).2 = true ↔ a.length ≤ goSizeof g := by
    intro g f
    unfold putStruct maybeCopy
    split
    · simp; omega
    · simp; omega
  have hu : a.length ≤ 1 → ((toUint8 a).2 = true ↔ a.length = 1) := by
    intro h
    cases a with
    | nil => simp [toUint8]
    | cons x xs => simp at h; subst h; simp [toUint8]
  unfold okOf understood decodeSwitch
  split
  case h_1 => simp only [Option.map_some, Option.getD_some, hs]; exact Iff.rfl
  case h_2 => simp only [Option.map_some, Option.getD_some, hs]; rw [show goSizeof goTCPInfo = Spec.sizeOf tcp_info by decide +kernel]
  case h_3 => simp only [Option.map_some, Option.getD_some, hs]; exact Iff.rfl
  case h_4 =>
    have : a.length ≠ 0 := fun h => h4 rfl (List.length_eq_zero_iff.1 h)
    simp [congestionAlgorithm, this]
  case h_5 => simp only [Option.map_some, Option.getD_some]; exact hu (h1 (by simp))
  case h_6 => simp only [Option.map_some, Option.getD_some]; exact hu (h1 (by simp))
  case h_7 => simp only [Option.map_some, Option.getD_some, hs]; exact Iff.rfl
  case h_8 => simp only [Option.map_some, Option.getD_some]; exact hu (h1 (by simp))
  case h_9 => simp only [Option.map_some, Option.getD_some, hs]; exact Iff.rfl
  case h_10 => simp only [Option.map_some, Option.getD_some]; exact hu (h1 (by simp))
  case h_11 =>
    simp only [Option.map_some, Option.getD_some, toMark]
    split <;> simp_all
  case h_12 =>
    simp only [Option.map_some, Option.getD_some, hs]
    have e1 : goSizeof goBBRInfo = 24 := by decide +kernel
    have e2 : Spec.sizeOf tcp_bbr_info = 20 := by decide +kernel
    rw [e1, e2]
    have := hb rfl
    omega
  case h_13 => simp only [Option.map_some, Option.getD_some]; exact hu (h1 (by simp))
  case h_14 => simp

/-- C25 (partial: at most 257 attribute slots). Bit `t - 1` of `Observed`, `1 ≤ t ≤ 32`, is set exactly if attribute `t` was present. -/
theorem C25_observed_partial (r : ArchivalRecord) (md : Option Metadata) (s : Snapshot) (h : decode r = .ok (md, s))
    (hn : (r.attributes.getD []).length ≤ 257) (t : Nat) (h1 : 1 ≤ t) (h32 : t ≤ 32) :
    s.observed.toNat.testBit (t - 1) = true ↔ attr r t ≠ none := by
  obtain ⟨-, idm, hl, -⟩ := decode_ok h
  rw [(decodeLoop_bits (t - 1) _ _ _ _ hl).1]
  simp only [UInt32.toNat_zero, Nat.zero_testBit, Bool.false_or, hasBit_iff]
  constructor
  · rintro ⟨j, raw, hj, -, h2, h3⟩
    have hlt : j < r.attrs.length := by
      rcases Nat.lt_or_ge j r.attrs.length with h | h
      · exact h
      · rw [List.getElem?_eq_none h] at hj; simp at hj
    have hlen : r.attrs.length ≤ 257 := hn
    have : j = t := by omega
    subst this
    rw [attr_some.2 ⟨raw, hj, rfl⟩]; simp
  · intro hne
    obtain ⟨a, ha⟩ := Option.ne_none_iff_exists'.1 hne
    obtain ⟨raw, hj, -⟩ := attr_some.1 ha
    exact ⟨t, raw, hj, trivial, by omega, by omega⟩

/-- C25 (partial: at most 257 attribute slots, no 8-bit attribute longer than one byte, no BBR attribute of 21 to 24 bytes). Bit `t - 1` of
`NotFullyParsed`, `1 ≤ t ≤ 32`, is set exactly if attribute `t` was present and not completely understood. -/
theorem C25_not_fully_parsed_partial (r : ArchivalRecord) (md : Option Metadata) (s : Snapshot) (h : decode r = .ok (md, s))
    (hn : (r.attributes.getD []).length ≤ 257) (hu : ∀ t ∈ [5, 6, 8, 10, 17], ∀ a, attr r t = some a → a.length ≤ 1)
    (hb : ∀ a, attr r 16 = some a → ¬ (20 < a.length ∧ a.length ≤ 24)) (t : Nat) (h1 : 1 ≤ t) (h32 : t ≤ 32) :
    s.notFullyParsed.toNat.testBit (t - 1) = true ↔ ∃ a, attr r t = some a ∧ ¬ understood t a := by
  obtain ⟨-, idm, hl, -⟩ := decode_ok h
  rw [(decodeLoop_bits (t - 1) _ _ _ _ hl).2]
  simp only [UInt32.toNat_zero, Nat.zero_testBit, Bool.false_or, hasBit_iff]
  have hcong : attr r 4 ≠ some [] := by
    intro hc
    have := (decodeLoop_none r.attrs 0 { timestamp := r.timestamp, inetDiagMsg := idm }).2 ⟨by omega, hc⟩
    rw [this] at hl; simp at hl
  have key : ∀ a, attr r t = some a → (okOf t a = true ↔ understood t a) := by
    intro a ha
    refine okOf_understood t a ?_ ?_ ?_
    · intro e e2; subst e; subst e2; exact hcong ha
    · intro hm; exact hu t hm a ha
    · intro e; subst e; exact hb a ha
  constructor
  · rintro ⟨j, raw, hj, hP, h2, h3⟩
    have hlt : j < r.attrs.length := by
      rcases Nat.lt_or_ge j r.attrs.length with h | h
      · exact h
      · rw [List.getElem?_eq_none h] at hj; simp at hj
    have hlen : r.attrs.length ≤ 257 := hn
    have : j = t := by omega
    subst this
    have ha := attr_some.2 ⟨raw, hj, rfl⟩
    refine ⟨raw.val, ha, ?_⟩
    rw [← key _ ha]
    simpa using hP
  · rintro ⟨a, ha, hnu⟩
    obtain ⟨raw, hj, rfl⟩ := attr_some.1 ha
    refine ⟨t, raw, hj, ?_, by omega, by omega⟩
    rw [← key _ ha] at hnu
    simpa using hnu

theorem okOf_exact (t : Nat) (a : Bytes) (h4 : t = 4 → a ≠ []) : okOf t a = false ↔ ¬ understood t a ∧ ¬ passedOver t a := by
  by_cases hp : passedOver t a
  · refine ⟨fun h => absurd h ?_, fun h => absurd hp h.2⟩
    have hu : 1 < a.length → (toUint8 a).2 = true := by
      intro h
      cases a with
      | nil => simp at h
      | cons x xs => simp [toUint8]
    rcases hp with ⟨ht, hl⟩ | ⟨rfl, hl⟩
    · simp only [List.mem_cons, List.not_mem_nil, or_false] at ht
      rcases ht with rfl | rfl | rfl | rfl | rfl <;> simp [okOf, decodeSwitch, hu hl]
    · have e1 : goSizeof goBBRInfo = 24 := by decide +kernel
      simp only [okOf, decodeSwitch, Option.map_some, Option.getD_some, putStruct, maybeCopy, e1]
      split
      · simp
      · simp; omega
  · have := okOf_understood t a h4 (fun ht => by
      rcases Nat.lt_or_ge 1 a.length with h | h
      · exact absurd (Or.inl ⟨ht, h⟩) hp
      · exact h) (fun ht hl => hp (Or.inr ⟨ht, hl⟩))
    rw [← this]
    simp [hp]

/-- C25, exactly, for every record that is decoded, however many attribute slots it has. Bit `t - 1` of `Observed`, `1 ≤ t ≤ 32`, is set if and only if some
attribute whose type is `t` modulo 256 was present. The bit of `NotFullyParsed` is set if and only if some such attribute was not completely understood,
except for 8-bit attributes longer than a byte and BBR attributes of 21 to 24 bytes. -/
theorem C25_exact (r : ArchivalRecord) (md : Option Metadata) (s : Snapshot) (h : decode r = .ok (md, s)) (t : Nat) (h1 : 1 ≤ t) (h32 : t ≤ 32) :
    (s.observed.toNat.testBit (t - 1) = true ↔ ∃ j, j % 256 = t ∧ attr r j ≠ none)
    ∧ (s.notFullyParsed.toNat.testBit (t - 1) = true ↔ ∃ j a, j % 256 = t ∧ attr r j = some a ∧ ¬ understood j a ∧ ¬ passedOver j a) := by
  obtain ⟨-, idm, hl, -⟩ := decode_ok h
  have hcong : attr r 4 ≠ some [] := by
    intro hc
    have := (decodeLoop_none r.attrs 0 { timestamp := r.timestamp, inetDiagMsg := idm }).2 ⟨by omega, hc⟩
    rw [this] at hl; simp at hl
  have key : ∀ j a, attr r j = some a → (okOf j a = false ↔ ¬ understood j a ∧ ¬ passedOver j a) := by
    intro j a ha
    refine okOf_exact j a ?_
    intro e e2; subst e; subst e2; exact hcong ha
  rw [(decodeLoop_bits (t - 1) _ _ _ _ hl).1, (decodeLoop_bits (t - 1) _ _ _ _ hl).2]
  simp only [UInt32.toNat_zero, Nat.zero_testBit, Bool.false_or, hasBit_iff]
  refine ⟨⟨?_, ?_⟩, ⟨?_, ?_⟩⟩
  · rintro ⟨j, raw, hj, -, h2, h3⟩
    exact ⟨j, by omega, by rw [attr_some.2 ⟨raw, hj, rfl⟩]; simp⟩
  · rintro ⟨j, hm, hne⟩
    obtain ⟨a, ha⟩ := Option.ne_none_iff_exists'.1 hne
    obtain ⟨raw, hj, -⟩ := attr_some.1 ha
    exact ⟨j, raw, hj, trivial, by omega, by omega⟩
  · rintro ⟨j, raw, hj, hP, h2, h3⟩
    have ha := attr_some.2 ⟨raw, hj, rfl⟩
    exact ⟨j, raw.val, by omega, ha, (key _ _ ha).1 (by simpa using hP)⟩
  · rintro ⟨j, a, hm, ha, hnu⟩
    obtain ⟨raw, hj, rfl⟩ := attr_some.1 ha
    exact ⟨j, raw, hj, by simpa using (key _ _ ha).2 hnu, by omega, by omega⟩

/-- A 72-byte message and some attributes. -/
def snapRec (attrs : List (Option GoSlice)) : ArchivalRecord :=
  { timestamp := 5, rawIDM := some ([2, 1] ++ List.replicate 70 0), attributes := some attrs, metadata := none }

/-- Attributes CONG "cubic", CLASS_ID 7, PAD (14), and a tcp_info of 8 bytes. -/
def snapExample : ArchivalRecord :=
  snapRec [none, none, some ⟨[1, 2, 3, 4, 5, 6, 7, 8], []⟩, none, some ⟨[99, 117, 98, 105, 99, 0], []⟩, none, none, none, none, none, none, none,
    none, none, some ⟨[0], []⟩, none, none, some ⟨[7], []⟩]

-- non-vacuity: bits 1 (INFO), 3 (CONG), 13 (PAD), 16 (CLASS_ID) observed, 13 not parsed
example : (match decode snapExample with | .ok (_, s) => some (s.observed, s.notFullyParsed, s.congestionAlgorithm, s.classID) | _ => none)
    = some (0x1200A, 0x2000, [99, 117, 98, 105, 99], 7) := by decide +kernel
example : (snapExample.attributes.getD []).length ≤ 257 ∧ (∀ t ∈ [5, 6, 8, 10, 17], ∀ a, attr snapExample t = some a → a.length ≤ 1)
    ∧ attr snapExample 16 = none ∧ attr snapExample 17 = some [7] := by
  refine ⟨by decide, ?_, rfl, rfl⟩
  intro t ht a ha
  simp only [List.mem_cons, List.not_mem_nil, or_false] at ht
  rcases ht with rfl | rfl | rfl | rfl | rfl <;> first | (injection ha with ha; subst ha; decide) | (simp [attr, snapExample, snapRec] at ha)

/-- For concrete records. -/
theorem of_decode (r : ArchivalRecord) (f : Snapshot → Bool) (h : (match decode r with | .ok (_, s) => f s | _ => false) = true) :
    ∃ md s, decode r = .ok (md, s) ∧ f s = true := by
  split at h
  · rename_i md s hd; exact ⟨md, s, hd, h⟩
  · simp at h

/-- C25 violated: the kernel's class id has four bytes; only the lowest is kept and nothing says so. -/
theorem C25_violated_class_id :
    ∃ r md s, decode r = .ok (md, s) ∧ attr r 17 = some [7, 1, 0, 0] ∧ s.classID = 7 ∧ s.notFullyParsed = 0 ∧ ¬ understood 17 [7, 1, 0, 0] := by
  obtain ⟨md, s, h1, h2⟩ := of_decode (snapRec (List.replicate 17 none ++ [some ⟨[7, 1, 0, 0], []⟩]))
    (fun s => s.classID == 7 && s.notFullyParsed == 0) (by decide +kernel)
  simp only [Bool.and_eq_true, beq_iff_eq] at h2
  exact ⟨_, md, s, h1, by decide +kernel, h2.1, h2.2, by simp [understood]⟩

/-- C25 violated: a BBR attribute with one more 32-bit field than the known struct is not flagged, because Go pads the struct to 24 bytes. -/
theorem C25_violated_bbr :
    ∃ r md s, decode r = .ok (md, s) ∧ attr r 16 = some (List.replicate 24 9) ∧ s.notFullyParsed = 0 ∧ ¬ understood 16 (List.replicate 24 9) := by
  obtain ⟨md, s, h1, h2⟩ := of_decode (snapRec (List.replicate 16 none ++ [some ⟨List.replicate 24 9, []⟩]))
    (fun s => s.notFullyParsed == 0) (by decide +kernel)
  exact ⟨_, md, s, h1, by decide +kernel, by simpa using h2, by simp [understood]; decide +kernel⟩

/-- C25 violated: an attribute in slot 257 sets the bit of attribute 1. (Only in archive files; records made from netlink messages have at most 39
slots.) -/
theorem C25_violated_alias :
    ∃ r md s, decode r = .ok (md, s) ∧ attr r 1 = none ∧ s.observed.toNat.testBit 0 = true := by
  obtain ⟨md, s, h1, h2⟩ := of_decode (snapRec (List.replicate 257 none ++ [some ⟨[0], []⟩]))
    (fun s => s.observed.toNat.testBit 0) (by decide +kernel)
  exact ⟨_, md, s, h1, by decide +kernel, h2⟩

/-- C25. Records made from netlink messages have at most 39 attribute slots, so `Observed` is exact for them. -/
theorem C25_observed_netlink (m : NetlinkMessage) (ex : Option ExcludeConfig) (r : ArchivalRecord) (hm : makeArchivalRecord m ex = .ok (some r))
    (md : Option Metadata) (s : Snapshot) (h : decode r = .ok (md, s)) (t : Nat) (h1 : 1 ≤ t) (h32 : t ≤ 32) :
    s.observed.toNat.testBit (t - 1) = true ↔ attr r t ≠ none := by
  have hfill : ∀ (as : List RouteAttr) (mx : Nat) (tbl : List (Option GoSlice)), (fillAttrs as mx tbl).length = tbl.length := by
    intro as mx
    induction as with
    | nil => intro tbl; rfl
    | cons a as ih =>
      intro tbl
      unfold fillAttrs
      split
      · exact ih _
      · rw [ih, List.length_set]
  have hmr : ∀ raw ab sp, makeRecord raw ab sp = .ok (some r) → (r.attributes.getD []).length ≤ 257 := by
    intro raw ab sp h
    unfold makeRecord at h
    split at h
    · simp at h
    · simp at h
    · simp at h
    · rename_i as _
      simp only [Res.ok.injEq, Option.some.injEq] at h
      subst h
      simp only [Option.getD_some, hfill, List.length_replicate]
      simp only [INET_DIAG_MAX]
      split <;> omega
  refine C25_observed_partial r md s h ?_ t h1 h32
  unfold makeArchivalRecord at hm
  split at hm
  · simp at hm
  · split at hm
    · simp at hm
    · rename_i raw ab _
      cases ex with
      | none => exact hmr raw ab _ hm
      | some ex =>
        simp only at hm
        split at hm
        · simp at hm
        · simp at hm
        · split at hm
          · simp at hm
          · exact hmr raw ab _ hm

/-! ## C26 -/

theorem struct_field {r : ArchivalRecord} {md : Option Metadata} {s : Snapshot} (h : decode r = .ok (md, s)) {α : Type} (π : Snapshot → α) (k : Nat)
    (g : Bytes → α)
    (hk : ∀ raw s s1 ok, decodeSwitch k raw s = some (s1, ok) → π s1 = g raw)
    (hne : ∀ t raw s s1 ok, t ≠ k → decodeSwitch t raw s = some (s1, ok) → π s1 = π s)
    (hbits : ∀ s o n, π { s with observed := o, notFullyParsed := n } = π s)
    (d : α) (hd : ∀ ts i, π { timestamp := ts, inetDiagMsg := i } = d) :
    π s = ((attr r k).map g).getD d := by
  obtain ⟨-, idm, hl, -⟩ := decode_ok h
  have := decodeLoop_field π k g hk hne hbits _ _ _ _ hl
  rw [this, if_pos (Nat.zero_le _), attr_eq, Nat.sub_zero]
  cases (r.attrs[k]?).join with
  | none => simp [hd]
  | some raw => simp

/-- The decoded fields as functions of their own attribute alone. -/
theorem decode_fields (r : ArchivalRecord) (md : Option Metadata) (s : Snapshot) (h : decode r = .ok (md, s)) :
    s.memInfo = (attr r 1).map (fun a => (maybeCopy a (goSizeof goMemInfo)).1)
    ∧ s.tcpInfo = (attr r 2).map (fun a => (maybeCopy a (goSizeof goTCPInfo)).1)
    ∧ s.vegasInfo = (attr r 3).map (fun a => (maybeCopy a (goSizeof goVegasInfo)).1)
    ∧ s.socketMem = (attr r 7).map (fun a => (maybeCopy a (goSizeof goSocketMemInfo)).1)
    ∧ s.dctcpInfo = (attr r 9).map (fun a => (maybeCopy a (goSizeof goDCTCPInfo)).1)
    ∧ s.bbrInfo = (attr r 16).map (fun a => (maybeCopy a (goSizeof goBBRInfo)).1)
    ∧ s.tos = ((attr r 5).map (fun a => (toUint8 a).1)).getD 0
    ∧ s.tclass = ((attr r 6).map (fun a => (toUint8 a).1)).getD 0
    ∧ s.shutdown = ((attr r 8).map (fun a => (toUint8 a).1)).getD 0
    ∧ s.protocol = ((attr r 10).map (fun a => (toUint8 a).1)).getD 0
    ∧ s.classID = ((attr r 17).map (fun a => (toUint8 a).1)).getD 0
    ∧ s.mark = ((attr r 15).map (fun a => (toMark a).1)).getD 0
    ∧ s.congestionAlgorithm = ((attr r 4).map (fun a => a.take (a.length - 1))).getD [] := by
  have hopt : ∀ {α β : Type} (o : Option α) (f : α → β), (o.map (fun a => some (f a))).getD none = o.map f := by
    intro α β o f; cases o <;> rfl
  refine ⟨?_, ?_, ?_, ?_, ?_, ?_, ?_, ?_, ?_, ?_, ?_, ?_, ?_⟩
  · rw [← hopt]
    exact struct_field h (·.memInfo) 1 _ (by intro raw s s1 ok h; injection h with h; injection h with h1 h2; subst h1; rfl) (fun t raw s s1 ok hne h => (decodeSwitch_frame t raw s s1 ok h).1 hne)
      (fun _ _ _ => rfl) _ (fun _ _ => rfl)
  · rw [← hopt]
    exact struct_field h (·.tcpInfo) 2 _ (by intro raw s s1 ok h; simp only [decodeSwitch, putStruct, Option.some.injEq, Prod.mk.injEq] at h; rw [← h.1]) (fun t raw s s1 ok hne h => (decodeSwitch_frame t raw s s1 ok h).2.1 hne)
      (fun _ _ _ => rfl) _ (fun _ _ => rfl)
  · rw [← hopt]
    exact struct_field h (·.vegasInfo) 3 _ (by intro raw s s1 ok h; injection h with h; injection h with h1 h2; subst h1; rfl) (fun t raw s s1 ok hne h => (decodeSwitch_frame t raw s s1 ok h).2.2.1 hne)
      (fun _ _ _ => rfl) _ (fun _ _ => rfl)
  · rw [← hopt]
    exact struct_field h (·.socketMem) 7 _ (by intro raw s s1 ok h; injection h with h; injection h with h1 h2; subst h1; rfl) (fun t raw s s1 ok hne h => (decodeSwitch_frame t raw s s1 ok h).2.2.2.2.2.2.1 hne)
      (fun _ _ _ => rfl) _ (fun _ _ => rfl)
  · rw [← hopt]
    exact struct_field h (·.dctcpInfo) 9 _ (by intro raw s s1 ok h; injection h with h; injection h with h1 h2; subst h1; rfl) (fun t raw s s1 ok hne h => (decodeSwitch_frame t raw s s1 ok h).2.2.2.2.2.2.2.2.1 hne)
      (fun _ _ _ => rfl) _ (fun _ _ => rfl)
  · rw [← hopt]
    exact struct_field h (·.bbrInfo) 16 _ (by intro raw s s1 ok h; injection h with h; injection h with h1 h2; subst h1; rfl) (fun t raw s s1 ok hne h => (decodeSwitch_frame t raw s s1 ok h).2.2.2.2.2.2.2.2.2.2.2.1 hne)
      (fun _ _ _ => rfl) _ (fun _ _ => rfl)
  · exact struct_field h (·.tos) 5 _ (by intro raw s s1 ok h; injection h with h; injection h with h1 h2; subst h1; rfl) (fun t raw s s1 ok hne h => (decodeSwitch_frame t raw s s1 ok h).2.2.2.2.1 hne)
      (fun _ _ _ => rfl) _ (fun _ _ => rfl)
  · exact struct_field h (·.tclass) 6 _ (by intro raw s s1 ok h; injection h with h; injection h with h1 h2; subst h1; rfl) (fun t raw s s1 ok hne h => (decodeSwitch_frame t raw s s1 ok h).2.2.2.2.2.1 hne)
      (fun _ _ _ => rfl) _ (fun _ _ => rfl)
  · exact struct_field h (·.shutdown) 8 _ (by intro raw s s1 ok h; injection h with h; injection h with h1 h2; subst h1; rfl) (fun t raw s s1 ok hne h => (decodeSwitch_frame t raw s s1 ok h).2.2.2.2.2.2.2.1 hne)
      (fun _ _ _ => rfl) _ (fun _ _ => rfl)
  · exact struct_field h (·.protocol) 10 _ (by intro raw s s1 ok h; injection h with h; injection h with h1 h2; subst h1; rfl) (fun t raw s s1 ok hne h => (decodeSwitch_frame t raw s s1 ok h).2.2.2.2.2.2.2.2.2.1 hne)
      (fun _ _ _ => rfl) _ (fun _ _ => rfl)
  · exact struct_field h (·.classID) 17 _ (by intro raw s s1 ok h; injection h with h; injection h with h1 h2; subst h1; rfl) (fun t raw s s1 ok hne h => (decodeSwitch_frame t raw s s1 ok h).2.2.2.2.2.2.2.2.2.2.2.2 hne)
      (fun _ _ _ => rfl) _ (fun _ _ => rfl)
  · exact struct_field h (·.mark) 15 _ (by intro raw s s1 ok h; injection h with h; injection h with h1 h2; subst h1; rfl) (fun t raw s s1 ok hne h => (decodeSwitch_frame t raw s s1 ok h).2.2.2.2.2.2.2.2.2.2.1 hne)
      (fun _ _ _ => rfl) _ (fun _ _ => rfl)
  · refine struct_field h (·.congestionAlgorithm) 4 _ ?_ (fun t raw s s1 ok hne h => (decodeSwitch_frame t raw s s1 ok h).2.2.2.1 hne) (fun _ _ _ => rfl) _ (fun _ _ => rfl)
    intro raw s s1 ok h
    simp only [decodeSwitch, congestionAlgorithm] at h
    split at h
    · simp at h
    · simp at h; rw [← h.1]

/-- A decoded struct against the attribute it came from: absent exactly if the attribute is; otherwise every field is the little-endian value at the
field's offset in the kernel's struct, bytes beyond the end of the attribute counting as zero (`fieldOf` takes what is there). -/
def FieldsAgree (mem a : Option Bytes) (g : GoStruct) (c : CStruct) (names : List (String × String)) : Prop :=
  g.map (·.1) = names.map (·.1) ∧ c.map (·.1) = names.map (·.2)
  ∧ match mem, a with
    | none, none => True
    | some mem, some a => ∀ n ∈ names, goField g n.1 mem = fieldOf c n.2 a ∧ fieldOf c n.2 a ≠ none
    | _, _ => False

theorem fieldsAgree {g : GoStruct} {c : CStruct} {names : List (String × String)} (h : SameLayout g c names = true) (a : Option Bytes) :
    FieldsAgree (a.map (fun a => (maybeCopy a (goSizeof g)).1)) a g c names := by
  have h' := h
  unfold SameLayout at h'
  rw [Bool.and_eq_true, Bool.and_eq_true, decide_eq_true_eq, decide_eq_true_eq] at h'
  refine ⟨h'.1.1, h'.1.2, ?_⟩
  cases a with
  | none => exact trivial
  | some a =>
    intro n hn
    obtain ⟨h1, h2⟩ := goField_fieldOf h a n hn
    refine ⟨h1, ?_⟩
    rw [← h1]
    unfold goField at h2 ⊢
    cases hg : goOffsetof g n.1 with
    | none => rw [hg] at h2; simp at h2
    | some x => simp

/-- C26. The six struct attributes, for attributes of every length: each named field of the decoded Go struct has the value of the corresponding kernel
field of its own attribute. -/
theorem C26_structs (r : ArchivalRecord) (md : Option Metadata) (s : Snapshot) (h : decode r = .ok (md, s)) :
    FieldsAgree s.memInfo (attr r 1) goMemInfo inet_diag_meminfo memInfoNames
    ∧ FieldsAgree s.tcpInfo (attr r 2) goTCPInfo tcp_info tcpInfoNames
    ∧ FieldsAgree s.vegasInfo (attr r 3) goVegasInfo tcpvegas_info vegasNames
    ∧ FieldsAgree s.socketMem (attr r 7) goSocketMemInfo sk_meminfo socketMemNames
    ∧ FieldsAgree s.dctcpInfo (attr r 9) goDCTCPInfo tcp_dctcp_info dctcpNames
    ∧ FieldsAgree s.bbrInfo (attr r 16) goBBRInfo tcp_bbr_info bbrNames := by
  obtain ⟨h1, h2, h3, h4, h5, h6, -⟩ := decode_fields r md s h
  rw [h1, h2, h3, h4, h5, h6]
  exact ⟨fieldsAgree (by decide +kernel) _, fieldsAgree (by decide +kernel) _, fieldsAgree (by decide +kernel) _, fieldsAgree (by decide +kernel) _,
    fieldsAgree (by decide +kernel) _, fieldsAgree (by decide +kernel) _⟩

/-- The memory of a struct of `n` bytes filled from an attribute: absent exactly if the attribute is, otherwise the attribute's bytes, cut off after `n` or
followed by zeros. -/
def ImageOf (n : Nat) (mem a : Option Bytes) : Prop := mem = a.map (fun a => (a ++ List.replicate (n - a.length) 0).take n)

theorem imageOf {g : GoStruct} {n : Nat} (h : goSizeof g = n) (a : Option Bytes) : ImageOf n (a.map (fun a => (maybeCopy a (goSizeof g)).1)) a := by
  subst h
  unfold ImageOf
  cases a with
  | none => rfl
  | some a =>
    simp only [Option.map_some, Option.some.injEq]
    unfold maybeCopy
    split
    · rw [List.take_of_length_le (by simp; omega)]
    · rw [List.take_append_of_le_length (by omega)]

/-- C26. The whole memory of the six structs, not only their named fields: the bytes of the attribute followed by zeros if it is shorter than the struct, its
leading bytes if it is longer. -/
theorem C26_image (r : ArchivalRecord) (md : Option Metadata) (s : Snapshot) (h : decode r = .ok (md, s)) :
    ImageOf 16 s.memInfo (attr r 1) ∧ ImageOf 232 s.tcpInfo (attr r 2) ∧ ImageOf 16 s.vegasInfo (attr r 3) ∧ ImageOf 36 s.socketMem (attr r 7)
    ∧ ImageOf 16 s.dctcpInfo (attr r 9) ∧ ImageOf 24 s.bbrInfo (attr r 16) := by
  obtain ⟨h1, h2, h3, h4, h5, h6, -⟩ := decode_fields r md s h
  rw [h1, h2, h3, h4, h5, h6]
  exact ⟨imageOf (by decide +kernel) _, imageOf (by decide +kernel) _, imageOf (by decide +kernel) _, imageOf (by decide +kernel) _,
    imageOf (by decide +kernel) _, imageOf (by decide +kernel) _⟩

/-- C26. The 8-bit values, the mark and the name of the congestion algorithm (without its final NUL); zero, or empty, if the attribute is absent, the mark
also if its attribute does not have four bytes. -/
theorem C26_scalars (r : ArchivalRecord) (md : Option Metadata) (s : Snapshot) (h : decode r = .ok (md, s)) :
    s.tos = ((attr r 5).map (fun a => byte a 0)).getD 0 ∧ s.tclass = ((attr r 6).map (fun a => byte a 0)).getD 0
    ∧ s.shutdown = ((attr r 8).map (fun a => byte a 0)).getD 0 ∧ s.protocol = ((attr r 10).map (fun a => byte a 0)).getD 0
    ∧ s.classID = ((attr r 17).map (fun a => byte a 0)).getD 0
    ∧ s.mark.toNat = (match attr r 15 with | some a => if a.length = 4 then leNat a else 0 | none => 0)
    ∧ s.congestionAlgorithm = (match attr r 4 with | some a => a.dropLast | none => []) := by
  obtain ⟨-, -, -, -, -, -, h1, h2, h3, h4, h5, h6, h7⟩ := decode_fields r md s h
  have hb : (fun a : Bytes => (toUint8 a).1) = (fun a => byte a 0) := by
    funext a; cases a <;> rfl
  rw [hb] at h1 h2 h3 h4 h5
  refine ⟨h1, h2, h3, h4, h5, ?_, ?_⟩
  · rw [h6]
    cases attr r 15 with
    | none => rfl
    | some a =>
      simp only [Option.map_some, Option.getD_some, toMark]
      by_cases hl : a.length = 4
      · rw [if_neg (show ¬ a.length ≠ 4 by omega), if_pos hl]
        simp only [UInt32.toNat_ofNat']
        have := leNat_lt a
        rw [hl] at this
        exact Nat.mod_eq_of_lt this
      · rw [if_pos hl, if_neg hl]; rfl
  · rw [h7]
    cases attr r 4 with
    | none => rfl
    | some a => simp [List.dropLast_eq_take]

/-- C26. Attributes do not influence each other: a record that has the same attribute `t` decodes to the same value of the field for `t`, whatever the
other attributes, the header and the timestamp are. -/
theorem C26_independent (r r' : ArchivalRecord) (md md' : Option Metadata) (s s' : Snapshot) (h : decode r = .ok (md, s)) (h' : decode r' = .ok (md', s')) :
    (attr r 1 = attr r' 1 → s.memInfo = s'.memInfo) ∧ (attr r 2 = attr r' 2 → s.tcpInfo = s'.tcpInfo)
    ∧ (attr r 3 = attr r' 3 → s.vegasInfo = s'.vegasInfo) ∧ (attr r 4 = attr r' 4 → s.congestionAlgorithm = s'.congestionAlgorithm)
    ∧ (attr r 5 = attr r' 5 → s.tos = s'.tos) ∧ (attr r 6 = attr r' 6 → s.tclass = s'.tclass) ∧ (attr r 7 = attr r' 7 → s.socketMem = s'.socketMem)
    ∧ (attr r 8 = attr r' 8 → s.shutdown = s'.shutdown) ∧ (attr r 9 = attr r' 9 → s.dctcpInfo = s'.dctcpInfo)
    ∧ (attr r 10 = attr r' 10 → s.protocol = s'.protocol) ∧ (attr r 15 = attr r' 15 → s.mark = s'.mark)
    ∧ (attr r 16 = attr r' 16 → s.bbrInfo = s'.bbrInfo) ∧ (attr r 17 = attr r' 17 → s.classID = s'.classID) := by
  obtain ⟨a1, a2, a3, a4, a5, a6, a7, a8, a9, a10, a11, a12, a13⟩ := decode_fields r md s h
  obtain ⟨b1, b2, b3, b4, b5, b6, b7, b8, b9, b10, b11, b12, b13⟩ := decode_fields r' md' s' h'
  refine ⟨?_, ?_, ?_, ?_, ?_, ?_, ?_, ?_, ?_, ?_, ?_, ?_, ?_⟩ <;> intro e <;> simp only [*]

-- non-vacuity: the tcp_info of 8 bytes of `snapExample`: State 1, AppLimited 8, RTT 0
example : (match decode snapExample with | .ok (_, s) => s.tcpInfo.map (fun m => (goField goTCPInfo "State" m, goField goTCPInfo "AppLimited" m, goField goTCPInfo "RTT" m)) | _ => none)
    = some (some 1, some 8, some 0) := by decide +kernel

/-! ## C27 -/

/-- C27. Which records are errors. -/
theorem C27_error_iff (r : ArchivalRecord) :
    (∃ e, decode r = .err e) ↔ (r.metadata = none ∧ r.rawIDM = none) ∨ ∃ raw, r.rawIDM = some raw ∧ raw.length < 72 := by
  unfold decode
  by_cases h0 : r.metadata = none ∧ r.rawIDM = none
  · rw [if_pos h0]; simp [h0]
  · rw [if_neg h0]
    simp only [h0, false_or]
    cases hr : r.rawIDM with
    | none =>
      simp only
      split <;> simp
    | some raw =>
      simp only
      by_cases hs : raw.length < 72
      · rw [parseIDM_short hs]; simp [hs]
      · rw [parseIDM_ok (by omega)]
        simp only
        split <;> simp <;> omega

/-- C27. When it crashes: exactly if the congestion algorithm attribute is present and empty (and the record is not an error). -/
theorem C27_panic_iff (r : ArchivalRecord) : decode r = .panic ↔ attr r 4 = some [] ∧ ¬ ∃ e, decode r = .err e := by
  constructor
  · intro h
    refine ⟨?_, by rintro ⟨e, he⟩; rw [h] at he; simp at he⟩
    unfold decode at h
    split at h
    · simp at h
    · simp only at h
      split at h
      · simp at h
      · rename_i hp
        split at hp
        · simp at hp
        · rename_i raw hraw
          by_cases hs : raw.length < 72
          · rw [parseIDM_short hs] at hp; simp at hp
          · rw [parseIDM_ok (by omega)] at hp; simp at hp
      · split at h
        · rename_i hl
          exact ((decodeLoop_none _ _ _).1 hl).2
        · simp at h
  · rintro ⟨h4, hne⟩
    cases hd : decode r with
    | panic => rfl
    | err e => exact absurd ⟨e, hd⟩ hne
    | ok x =>
      obtain ⟨md, s⟩ := x
      obtain ⟨-, idm, hl, -⟩ := decode_ok hd
      have := (decodeLoop_none r.attrs 0 { timestamp := r.timestamp, inetDiagMsg := idm }).2 ⟨by omega, h4⟩
      rw [this] at hl; simp at hl

/-- C27 (partial: the congestion algorithm attribute, if present, is not empty). Never a crash. -/
theorem C27_no_crash_partial (r : ArchivalRecord) (h : attr r 4 ≠ some []) : decode r ≠ .panic := fun hp => h ((C27_panic_iff r).1 hp).1

/-- C27 violated: an empty congestion algorithm attribute. -/
theorem C27_violated : ∃ r, decode r = .panic := ⟨snapRec [none, none, none, none, some ⟨[], []⟩], by decide +kernel⟩

example : attr snapExample 4 ≠ some [] := by simp [attr, snapExample, snapRec]
example : decode { timestamp := 0, rawIDM := some [1], attributes := none, metadata := none } = .err .parseFailed := by decide +kernel

/-! ## C28 -/

/-- The timestamp a snapshot gets: that of its record, except that a record without timestamp gets 2009-05-29 23:59:59 UTC. -/
def snapTime (r : ArchivalRecord) : Int := if r.timestamp = -62135596800 * 1000000000 then 1243641599 * 1000000000 else r.timestamp

theorem readerNext_ok {r : ArchivalRecord} {m : Option Metadata} {s : Snapshot} (h : readerNext r = .ok (m, s)) :
    m = r.metadata ∧ decode { r with timestamp := snapTime r } = .ok (m, s) ∧ s.timestamp = snapTime r := by
  have e : readerNext r = decode { r with timestamp := snapTime r } := by
    unfold readerNext snapTime goZeroTime hackTime
    split
    · rfl
    · rfl
  rw [e] at h
  obtain ⟨h1, idm, hl, -⟩ := decode_ok h
  refine ⟨h1, h, ?_⟩
  have ht : ∀ as t s s', decodeLoop t as s = some s' → s'.timestamp = s.timestamp := by
    intro as
    induction as with
    | nil => intro t s s' h; injection h with h; rw [h]
    | cons a as ih =>
      intro t s s' h
      cases a with
      | none => exact ih _ _ _ h
      | some raw =>
        rw [decodeLoop] at h
        cases hs : decodeSwitch t raw.val s with
        | none => rw [hs] at h; simp at h
        | some x =>
          obtain ⟨s1, ok⟩ := x
          rw [hs] at h
          have := ih _ _ _ h
          rw [this]
          exact (decodeSwitch_ok t raw.val s s1 ok hs).2.2.2.1
  exact ht _ _ _ _ hl

theorem loadAllLoop_ok (fin : Option GoErr) (rest : List ArchivalRecord) (outs : List (Option Metadata × Snapshot)) : ∀ (rs : List ArchivalRecord) md snaps,
    rs.map readerNext = outs.map .ok →
    loadAllLoop fin (rs ++ rest) md snaps
      = loadAllLoop fin rest (((rs.filterMap (·.metadata)).getLast?).or md) (snaps ++ outs.map (·.2)) := by
  induction outs with
  | nil => intro rs md snaps h; cases rs with
    | nil => simp
    | cons _ _ => simp at h
  | cons o outs ih =>
    intro rs md snaps h
    cases rs with
    | nil => simp at h
    | cons r rs =>
      simp only [List.map_cons, List.cons.injEq] at h
      obtain ⟨m, s⟩ := o
      simp only [List.cons_append, loadAllLoop, h.1]
      rw [ih rs _ _ h.2]
      have hm := (readerNext_ok h.1).1
      subst hm
      congr 1
      · cases hmd : r.metadata with
        | none => simp [hmd]
        | some x =>
          simp only [List.filterMap_cons, hmd, reduceCtorEq, if_false]
          cases hrs : rs.filterMap (·.metadata) with
          | nil => simp
          | cons y ys => rw [List.getLast?_cons_cons]; simp [List.getLast?_cons]
      · simp

/-- C28. If every record decodes and the file ends regularly: one snapshot per record, in order, and the last metadata present, if any. Each
snapshot is what `Decode` makes of its record, with the timestamp filled in if there is none. -/
theorem C28_all (rs : List ArchivalRecord) (outs : List (Option Metadata × Snapshot)) (h : rs.map readerNext = outs.map .ok) :
    loadAll ⟨rs, some .eof⟩ = .ok ((rs.filterMap (·.metadata)).getLast?, outs.map (·.2))
    ∧ (outs.map (·.2)).length = rs.length
    ∧ ∀ (i : Nat) r s, rs[i]? = some r → (outs.map (·.2))[i]? = some s →
        decode { r with timestamp := snapTime r } = .ok (r.metadata, s) ∧ s.timestamp = snapTime r := by
  refine ⟨?_, ?_, ?_⟩
  · unfold loadAll
    have := loadAllLoop_ok (some .eof) [] outs rs none [] h
    rw [List.append_nil] at this
    rw [this]
    simp [loadAllLoop]
  · have := congrArg List.length h
    simpa using this.symm
  · intro i r s hr hs
    have h1 : (rs.map readerNext)[i]? = (outs.map Res.ok)[i]? := by rw [h]
    rw [List.getElem?_map, List.getElem?_map, hr] at h1
    rw [List.getElem?_map] at hs
    cases ho : outs[i]? with
    | none => rw [ho] at hs; simp at hs
    | some o =>
      obtain ⟨m, s'⟩ := o
      rw [ho] at hs h1
      simp at hs; subst hs
      simp at h1
      obtain ⟨h2, h3, h4⟩ := readerNext_ok h1
      subst h2
      exact ⟨h3, h4⟩

/-- C28. If some record does not decode, only that error is returned. -/
theorem C28_bad_record (rs : List ArchivalRecord) (outs : List (Option Metadata × Snapshot)) (h : rs.map readerNext = outs.map .ok)
    (r : ArchivalRecord) (e : GoErr) (hr : decode r = .err e) (rest : List ArchivalRecord) (fin : Option GoErr) :
    loadAll ⟨rs ++ r :: rest, fin⟩ = .err e := by
  have hcond := (C27_error_iff r).1 ⟨e, hr⟩
  have he : e = .emptyRecord ∨ e = .parseFailed := by
    unfold decode at hr
    split at hr
    · injection hr with hr; exact Or.inl hr.symm
    · simp only at hr
      split at hr
      · rename_i e' hp
        injection hr with hr; subst hr
        right
        split at hp
        · simp at hp
        · rename_i raw hraw
          by_cases hs : raw.length < 72
          · rw [parseIDM_short hs] at hp; simp at hp; exact hp.symm
          · rw [parseIDM_ok (by omega)] at hp; simp at hp
      · simp at hr
      · split at hr <;> simp at hr
  have hn : readerNext r = .err e := by
    unfold readerNext
    split
    · unfold decode at hr ⊢
      simp only at hr ⊢
      split at hr
      · rename_i h0; rw [if_pos h0]; exact hr
      · rename_i h0; rw [if_neg h0]
        split at hr
        · exact hr
        · simp at hr
        · split at hr <;> simp at hr
    · exact hr
  unfold loadAll
  rw [loadAllLoop_ok fin (r :: rest) outs rs none [] h]
  simp only [loadAllLoop, hn]
  rw [if_neg (by rcases he with rfl | rfl <;> simp)]

/-- C28. If the reader fails (not at the end of the file) only that error is returned. -/
theorem C28_reader_error (rs : List ArchivalRecord) (outs : List (Option Metadata × Snapshot)) (h : rs.map readerNext = outs.map .ok)
    (e : GoErr) (he : e ≠ .eof) : loadAll ⟨rs, some e⟩ = .err e := by
  unfold loadAll
  have := loadAllLoop_ok (some e) [] outs rs none [] h
  rw [List.append_nil] at this
  rw [this]
  cases e <;> simp [loadAllLoop] at he ⊢

-- non-vacuity: a header record, a snapshot, another header, another snapshot
example : (match loadAll ⟨[{ timestamp := goZeroTime, rawIDM := none, attributes := none, metadata := some ⟨"a", 0, 7⟩ }, snapExample,
      { timestamp := 3, rawIDM := none, attributes := none, metadata := some ⟨"b", 1, 7⟩ }, snapExample], some .eof⟩ with
    | .ok (m, l) => some (m, l.map (fun s => (s.timestamp, s.classID))) | _ => none)
    = some (some ⟨"b", 1, 7⟩, [(1243641599000000000, 0), (5, 7), (3, 0), (5, 7)]) := by decide +kernel

end TcpInfo
