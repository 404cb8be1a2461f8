import Verif.Model.SetBytes
import Verif.Lemmas.Snapshot
import Verif.Props.Record
import Verif.Spec.Stats
/-!
# C97: setting a byte counter
-/

namespace TcpInfo
open Spec

/-- How many bytes of tcp_info reach to the end of the counter. -/
def Spec.counterEnd : Dir → Nat
  | .sent => 208
  | .received => 136

/-- The setter of a direction. -/
def Spec.setter : Dir → Bool → ArchivalRecord → UInt64 → Option (ArchivalRecord × UInt64)
  | .sent => setBytesSent
  | .received => setBytesReceived

theorem u64Bytes_length (v : UInt64) : (u64Bytes v).length = 8 := rfl

theorem leNat_u64Bytes (v : UInt64) : leNat (u64Bytes v) = v.toNat := by
  have h := v.toNat_lt
  simp only [u64Bytes, leNat, UInt64.toNat_toUInt8, UInt64.toNat_shiftRight]
  simp [Nat.shiftRight_eq_div_pow]
  omega

theorem putU64_length (off : Nat) (v : UInt64) (b : Bytes) (h : off + 8 ≤ b.length) : (putU64 off v b).length = b.length := by
  simp [putU64, u64Bytes_length]; omega

theorem putU64_here (off : Nat) (v : UInt64) (b : Bytes) (h : off + 8 ≤ b.length) : leNat (sub off 8 (putU64 off v b)) = v.toNat := by
  have : sub off 8 (putU64 off v b) = u64Bytes v := by
    unfold sub putU64
    rw [List.append_assoc, List.drop_left' (by simp; omega), List.take_left' (u64Bytes_length v)]
  rw [this, leNat_u64Bytes]

theorem putU64_before (off : Nat) (v : UInt64) (b : Bytes) (h : off + 8 ≤ b.length) (o n : Nat) (ho : o + n ≤ off) :
    sub o n (putU64 off v b) = sub o n b := by
  unfold sub putU64
  have e : (b.take off ++ u64Bytes v ++ b.drop (off + 8)).take (o + n) = b.take (o + n) := by
    rw [List.append_assoc, List.take_append_of_le_length (by simp; omega), List.take_take, Nat.min_eq_left ho]
  have : ∀ x : Bytes, (x.drop o).take n = (x.take (o + n)).drop o := by intro x; rw [List.drop_take]; congr 1; omega
  rw [this, this, e]

theorem putU64_drop (off : Nat) (v : UInt64) (b : Bytes) (h : off + 8 ≤ b.length) (o : Nat) (ho : off + 8 ≤ o) :
    (putU64 off v b).drop o = b.drop o := by
  unfold putU64
  obtain ⟨k, rfl⟩ := Nat.exists_eq_add_of_le ho
  rw [← List.drop_drop, List.drop_left' (by simp [u64Bytes_length]; omega), List.drop_drop]

theorem putU64_after (off : Nat) (v : UInt64) (b : Bytes) (h : off + 8 ≤ b.length) (o n : Nat) (ho : off + 8 ≤ o) :
    sub o n (putU64 off v b) = sub o n b := by
  unfold sub
  rw [putU64_drop off v b h o ho]

theorem counterOffset (d : Dir) : counterEnd d = (match d with | .sent => bytesSentOffset | .received => bytesReceivedOffset) + 8 := by
  cases d
  · rw [bytesSentOffset_eq]; rfl
  · rw [bytesReceivedOffset_eq]; rfl

/-- Fields of tcp_info other than the one at `[off, off+8)` lie before or after it. -/
def apart (off : Nat) (name : String) : Bool := (cOffsets tcp_info 0).all (fun f => f.1 == name || decide (f.2.1 + f.2.2 ≤ off) || decide (off + 8 ≤ f.2.1))

theorem fieldOf_put (off : Nat) (own : String) (hap : apart off own = true) (v : UInt64) (b : Bytes) (h : off + 8 ≤ b.length) (name : String) (hn : name ≠ own) :
    fieldOf tcp_info name (putU64 off v b) = fieldOf tcp_info name b := by
  have e1 := fieldOf_offsets tcp_info name (putU64 off v b) 0
  have e2 := fieldOf_offsets tcp_info name b 0
  rw [List.drop_zero] at e1 e2
  rw [e1, e2]
  cases hf : (cOffsets tcp_info 0).find? (fun f => f.1 == name) with
  | none => rfl
  | some f =>
    have hm := List.mem_of_find?_eq_some hf
    have hnm : f.1 = name := by simpa using List.find?_some hf
    have := List.all_eq_true.1 hap f hm
    simp only [Bool.or_eq_true, decide_eq_true_eq] at this
    simp only [Option.map_some]
    rcases this with (h1 | h1) | h1
    · exact absurd (hnm.symm.trans (by simpa using h1)) hn
    · rw [putU64_before off v b h _ _ h1]
    · rw [putU64_after off v b h _ _ h1]

/-- C97. Outside test binaries both setters panic, whatever the record. -/
theorem C97_tests_only (d : Dir) (r : ArchivalRecord) (v : UInt64) : setter d false r v = none := by
  cases d <;> rfl

/-- C97. In a test binary a setter puts the value into the kernel's field for its direction and returns what was there; every other field of tcp_info, the
length of the attribute, the other attributes and the rest of the record stay as they were. -/
theorem C97_set (d : Dir) (r : ArchivalRecord) (v : UInt64) (s : GoSlice) (hs : (r.attributes.getD [])[2]? = some (some s)) (hl : counterEnd d ≤ s.val.length) :
    ∃ r' prev s', setter d true r v = some (r', prev)
      ∧ (r'.attributes.getD []) = (r.attributes.getD []).set 2 (some s') ∧ s'.val.length = s.val.length ∧ s'.spare = s.spare
      ∧ fieldOf tcp_info d.field s.val = some prev.toNat ∧ fieldOf tcp_info d.field s'.val = some v.toNat
      ∧ (∀ name, name ≠ d.field → fieldOf tcp_info name s'.val = fieldOf tcp_info name s.val)
      ∧ s'.val.drop 232 = s.val.drop 232
      ∧ r'.timestamp = r.timestamp ∧ r'.rawIDM = r.rawIDM ∧ r'.metadata = r.metadata := by
  have h2 : 2 < r.attrs.length := by
    apply Classical.byContradiction; intro hn
    rw [show (r.attributes.getD []) = r.attrs from rfl, List.getElem?_eq_none (by omega)] at hs; simp at hs
  have hg : r.attrs.getD INET_DIAG_INFO none = some s := by
    simp only [INET_DIAG_INFO, List.getD_eq_getElem?_getD]
    rw [show r.attrs[2]? = some (some s) from hs]; rfl
  have key : ∀ off, off + 8 ≤ s.val.length → setCounter off true r v
      = some ({ r with attributes := some (r.attrs.set 2 (some { s with val := putU64 off v s.val })) }, u64At off s.val) := by
    intro off ho
    rw [setCounter_def]
    rw [if_neg (by simp), if_neg (by simp only [INET_DIAG_INFO]; omega), hg]
    simp only
    rw [if_neg (by omega)]
  cases d with
  | sent =>
    have hl' : 200 + 8 ≤ s.val.length := hl
    refine ⟨{ r with attributes := some (r.attrs.set 2 (some { s with val := putU64 200 v s.val })) }, u64At 200 s.val, { s with val := putU64 200 v s.val },
      by show setCounter bytesSentOffset true r v = _; rw [bytesSentOffset_eq]; exact key 200 hl', rfl, putU64_length _ _ _ hl', rfl, ?_, ?_, ?_, ?_, rfl, rfl, rfl⟩
    · show fieldOf tcp_info "tcpi_bytes_sent" _ = _
      rw [fieldOf_bytes_sent, u64At_toNat]
    · show fieldOf tcp_info "tcpi_bytes_sent" _ = _
      rw [fieldOf_bytes_sent, putU64_here _ _ _ hl']
    · intro name hn; exact fieldOf_put 200 "tcpi_bytes_sent" (by decide) v s.val hl' name hn
    · exact putU64_drop 200 v s.val hl' 232 (by omega)
  | received =>
    have hl' : 128 + 8 ≤ s.val.length := hl
    refine ⟨{ r with attributes := some (r.attrs.set 2 (some { s with val := putU64 128 v s.val })) }, u64At 128 s.val, { s with val := putU64 128 v s.val },
      by show setCounter bytesReceivedOffset true r v = _; rw [bytesReceivedOffset_eq]; exact key 128 hl', rfl, putU64_length _ _ _ hl', rfl, ?_, ?_, ?_, ?_, rfl, rfl, rfl⟩
    · show fieldOf tcp_info "tcpi_bytes_received" _ = _
      rw [fieldOf_bytes_received, u64At_toNat]
    · show fieldOf tcp_info "tcpi_bytes_received" _ = _
      rw [fieldOf_bytes_received, putU64_here _ _ _ hl']
    · intro name hn; exact fieldOf_put 128 "tcpi_bytes_received" (by decide) v s.val hl' name hn
    · exact putU64_drop 128 v s.val hl' 232 (by omega)

/-- C97. Without tcp_info, or when it ends before the counter, a setter changes nothing and returns 0. -/
theorem C97_too_short (d : Dir) (r : ArchivalRecord) (v : UInt64) (h : ∀ b, attrVal r 2 = some b → b.length < counterEnd d) :
    setter d true r v = some (r, 0) := by
  have hb : ∀ s, r.attrs.getD 2 none = some s → s.val.length < counterEnd d := by
    intro s hs
    exact h s.val (by unfold attrVal; rw [show (r.attributes.getD []).getD 2 none = some s from hs]; rfl)
  have : ∀ off, counterEnd d = off + 8 → setCounter off true r v = some (r, 0) := by
    intro off ho
    rw [setCounter_def]
    rw [if_neg (by simp)]
    split
    · rfl
    · simp only [INET_DIAG_INFO]
      split
      · rfl
      · rename_i s hs
        rw [if_pos (by have := hb s hs; omega)]
  cases d
  · exact this _ (counterOffset .sent)
  · exact this _ (counterOffset .received)

/-- C97. What is set is what `GetStats` (C19) then returns, and the other direction's value does not change, as soon as tcp_info has both counters. -/
theorem C97_stats (r : ArchivalRecord) (v : UInt64) (b : Bytes) (hb : attrVal r 2 = some b) (hl : 208 ≤ b.length) :
    (∃ r', setBytesSent true r v = some (r', (getStats r).1) ∧ getStats r' = (v, (getStats r).2))
    ∧ (∃ r', setBytesReceived true r v = some (r', (getStats r).2) ∧ getStats r' = ((getStats r).1, v)) := by
  obtain ⟨s, hs, rfl⟩ : ∃ s, (r.attributes.getD [])[2]? = some (some s) ∧ s.val = b := by
    unfold attrVal at hb
    rw [List.getD_eq_getElem?_getD] at hb
    cases h : (r.attributes.getD [])[2]? with
    | none => rw [h] at hb; simp at hb
    | some o =>
      cases o with
      | none => rw [h] at hb; simp at hb
      | some s => rw [h] at hb; exact ⟨s, rfl, by simpa using hb⟩
  have h2 : 2 < (r.attributes.getD []).length := by
    apply Classical.byContradiction; intro hn
    rw [List.getElem?_eq_none (by omega)] at hs; simp at hs
  obtain ⟨g1, g2⟩ := C19_stats r s hs hl
  have fin : ∀ (r' : ArchivalRecord) (s' : GoSlice), (r'.attributes.getD []) = (r.attributes.getD []).set 2 (some s') → s'.val.length = s.val.length →
      some (getStats r').1.toNat = fieldOf tcp_info "tcpi_bytes_sent" s'.val ∧ some (getStats r').2.toNat = fieldOf tcp_info "tcpi_bytes_received" s'.val := by
    intro r' s' h1 h3
    refine C19_stats r' s' ?_ (by omega)
    show (r'.attributes.getD [])[2]? = _
    rw [h1]
    simp [h2]
  have inj : ∀ a b : UInt64, some a.toNat = some b.toNat → a = b := by
    intro a b h; injection h with h; exact UInt64.toNat_inj.1 h
  constructor
  · obtain ⟨r', prev, s', e1, e2, e3, -, e5, e6, e7, -⟩ := C97_set .sent r v s hs (show 208 ≤ _ by omega)
    obtain ⟨f1, f2⟩ := fin r' s' e2 e3
    have p : prev = (getStats r).1 := inj _ _ (e5.symm.trans g1.symm)
    refine ⟨r', by rw [← p]; exact e1, ?_⟩
    have a : (getStats r').1 = v := inj _ _ (f1.trans e6)
    have c : (getStats r').2 = (getStats r).2 := inj _ _ (f2.trans ((e7 _ (by simp [Dir.field])).trans g2.symm))
    rw [← a, ← c]
  · obtain ⟨r', prev, s', e1, e2, e3, -, e5, e6, e7, -⟩ := C97_set .received r v s hs (show 136 ≤ _ by omega)
    obtain ⟨f1, f2⟩ := fin r' s' e2 e3
    have p : prev = (getStats r).2 := inj _ _ (e5.symm.trans g2.symm)
    refine ⟨r', by rw [← p]; exact e1, ?_⟩
    have a : (getStats r').2 = v := inj _ _ (f2.trans e6)
    have c : (getStats r').1 = (getStats r).1 := inj _ _ (f1.trans ((e7 _ (by simp [Dir.field])).trans g1.symm))
    rw [← a, ← c]

example : (setBytesReceived true exampleRec 77).map (fun x => (getStats x.1, x.2)) = some ((0x0102, 77), 0) := by decide +kernel
example : (setBytesSent true exampleRec 0xFFFEFDFCFBFAF9F8).map (fun x => (getStats x.1, x.2)) = some ((0xFFFEFDFCFBFAF9F8, 0), 0x0102) := by decide +kernel

/-- A tcp_info of 192 bytes (Linux 4.9 to 4.18: with `tcpi_bytes_received`, without `tcpi_bytes_sent`). -/
def midRec : ArchivalRecord := { exampleRec with attributes := some [none, none, some ⟨List.replicate 192 0, []⟩] }

/-- C97 violated between the lengths: with 136 to 207 bytes of tcp_info the received counter can be set, but `GetStats` still returns zeros. -/
theorem C97_violated_mid : (setBytesReceived true midRec 77).map (fun x => (x.2, getStats x.1)) = some (0, (0, 0))
    ∧ (setBytesReceived true midRec 77).bind (fun x => (attrVal x.1 2).bind (fieldOf tcp_info "tcpi_bytes_received")) = some 77 := by decide +kernel

end TcpInfo
