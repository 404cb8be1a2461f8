import Verif.Model.RawReader
import Verif.Spec.Wire
import Verif.Lemmas.Bytes
/-!
# C20, C21: files of naked netlink messages
-/

namespace TcpInfo
open Spec

/-- A netlink message as it is stored: `struct nlmsghdr` (length, type, flags, sequence number, port id), then the data. -/
def Spec.encodeMsg (m : NetlinkMessage) : Bytes :=
  le 4 m.header.len.toNat ++ le 2 m.header.type.toNat ++ le 2 m.header.flags.toNat ++ le 4 m.header.seq.toNat ++ le 4 m.header.pid.toNat ++ m.data

/-- The length field is right (and so the message is shorter than 4 GiB). `spare` is not part of a stored message. -/
def Spec.WellFormed (m : NetlinkMessage) : Prop := m.header.len.toNat = 16 + m.data.length ∧ m.spare = []

theorem encodeMsg_length (m : NetlinkMessage) : (encodeMsg m).length = 16 + m.data.length := by
  simp [encodeMsg]; omega

theorem readFull_ok (src : Source) (a b : Bytes) (h : src.bytes = a ++ b) : src.readFull a.length = .ok (a, { src with bytes := b }) := by
  unfold Source.readFull
  rw [if_pos (by rw [h]; simp)]
  simp [h]

/-- The 16 header bytes. -/
def hdrBytes (m : NetlinkMessage) : Bytes :=
  le 4 m.header.len.toNat ++ le 2 m.header.type.toNat ++ le 2 m.header.flags.toNat ++ le 4 m.header.seq.toNat ++ le 4 m.header.pid.toNat

theorem hdrBytes_length (m : NetlinkMessage) : (hdrBytes m).length = 16 := by simp [hdrBytes]

theorem leNat_le_u32 (x : UInt32) : UInt32.ofNat (leNat (le 4 x.toNat)) = x := by
  rw [leNat_le, Nat.mod_eq_of_lt (by have := x.toNat_lt; simpa using this)]; simp
theorem leNat_le_u16 (x : UInt16) : UInt16.ofNat (leNat (le 2 x.toNat)) = x := by
  rw [leNat_le, Nat.mod_eq_of_lt (by have := x.toNat_lt; simpa using this)]; simp

theorem parse_hdr (m : NetlinkMessage) :
    (⟨u32At 0 (hdrBytes m), u16At 4 (hdrBytes m), u16At 6 (hdrBytes m), u32At 8 (hdrBytes m), u32At 12 (hdrBytes m)⟩ : NlMsghdr) = m.header := by
  obtain ⟨⟨l, t, f, s, p⟩, d, sp⟩ := m
  have h1 : sub 0 4 (hdrBytes ⟨⟨l, t, f, s, p⟩, d, sp⟩) = le 4 l.toNat := by
    simp only [hdrBytes, List.append_assoc]; exact sub_append_here _ _ _ (by simp)
  have h2 : sub 4 2 (hdrBytes ⟨⟨l, t, f, s, p⟩, d, sp⟩) = le 2 t.toNat := by
    simp only [hdrBytes, List.append_assoc]
    rw [sub_append_skip _ _ _ _ (by simp)]
    simp only [le_length]; exact sub_append_here _ _ _ (by simp)
  have h3 : sub 6 2 (hdrBytes ⟨⟨l, t, f, s, p⟩, d, sp⟩) = le 2 f.toNat := by
    simp only [hdrBytes, List.append_assoc]
    rw [sub_append_skip _ _ _ _ (by simp), sub_append_skip _ _ _ _ (by simp)]
    simp only [le_length]; exact sub_append_here _ _ _ (by simp)
  have h4 : sub 8 4 (hdrBytes ⟨⟨l, t, f, s, p⟩, d, sp⟩) = le 4 s.toNat := by
    simp only [hdrBytes, List.append_assoc]
    rw [sub_append_skip _ _ _ _ (by simp), sub_append_skip _ _ _ _ (by simp), sub_append_skip _ _ _ _ (by simp)]
    simp only [le_length]; exact sub_append_here _ _ _ (by simp)
  have h5 : sub 12 4 (hdrBytes ⟨⟨l, t, f, s, p⟩, d, sp⟩) = le 4 p.toNat := by
    simp only [hdrBytes, List.append_assoc]
    rw [sub_append_skip _ _ _ _ (by simp), sub_append_skip _ _ _ _ (by simp), sub_append_skip _ _ _ _ (by simp), sub_append_skip _ _ _ _ (by simp)]
    have := sub_append_here (le 4 p.toNat) [] 4 (by simp)
    simpa using this
  simp only [u32At, u16At, h1, h2, h3, h4, h5, leNat_le_u32, leNat_le_u16]

theorem len_sub (m : NetlinkMessage) (h : WellFormed m) : (m.header.len - 16).toNat = m.data.length := by
  rw [UInt32.toNat_sub_of_le _ _ (by rw [UInt32.le_iff_toNat_le, h.1]; simp)]
  rw [h.1]; simp

theorem hdr_len (m : NetlinkMessage) : u32At 0 (hdrBytes m) = m.header.len := congrArg NlMsghdr.len (parse_hdr m)

theorem load_one (m : NetlinkMessage) (h : WellFormed m) (rest : Bytes) (fin : GoErr) :
    loadRawNetlinkMessage ⟨encodeMsg m ++ rest, fin⟩ = .ok (m, ⟨rest, fin⟩) := by
  have e : encodeMsg m ++ rest = hdrBytes m ++ (m.data ++ rest) := by simp [encodeMsg, hdrBytes]
  unfold loadRawNetlinkMessage
  have r1 := readFull_ok ⟨encodeMsg m ++ rest, fin⟩ (hdrBytes m) (m.data ++ rest) e
  rw [hdrBytes_length] at r1
  rw [r1]
  simp only [Res.bind, parse_hdr]
  rw [hdr_len, len_sub m h]
  rw [readFull_ok ⟨m.data ++ rest, fin⟩ m.data rest rfl]
  obtain ⟨hd, d, sp⟩ := m
  have := h.2
  simp only at this
  subst this
  rfl

theorem load_many (ms : List NetlinkMessage) (h : ∀ m ∈ ms, WellFormed m) (rest : Bytes) (fin : GoErr) : ∀ acc fuel,
    loadRawLoop (ms.length + fuel) ⟨ms.flatMap encodeMsg ++ rest, fin⟩ acc = loadRawLoop fuel ⟨rest, fin⟩ (acc ++ ms) := by
  induction ms with
  | nil => intro acc fuel; simp
  | cons m ms ih =>
    intro acc fuel
    rw [show (m :: ms).length + fuel = (ms.length + fuel) + 1 by simp; omega]
    rw [loadRawLoop]
    have e : (m :: ms).flatMap encodeMsg ++ rest = encodeMsg m ++ (ms.flatMap encodeMsg ++ rest) := by simp
    rw [e, load_one m (h m (by simp))]
    simp only
    rw [ih (fun m hm => h m (by simp [hm]))]
    simp

theorem flatMap_length (ms : List NetlinkMessage) : ms.length ≤ (ms.flatMap encodeMsg).length := by
  induction ms with
  | nil => simp
  | cons m ms ih => simp only [List.flatMap_cons, List.length_append, encodeMsg_length, List.length_cons]; omega

/-- After the messages `ms`, the outcome is decided by one more call. -/
theorem load_all (ms : List NetlinkMessage) (h : ∀ m ∈ ms, WellFormed m) (rest : Bytes) (fin e : GoErr)
    (he : loadRawNetlinkMessage ⟨rest, fin⟩ = .err e) : loadRawAll ⟨ms.flatMap encodeMsg ++ rest, fin⟩ = some (ms, e) := by
  unfold loadRawAll
  have hl := flatMap_length ms
  obtain ⟨k, hk⟩ : ∃ k, (ms.flatMap encodeMsg ++ rest).length + 1 = ms.length + (k + 1) :=
    ⟨(ms.flatMap encodeMsg ++ rest).length - ms.length, by rw [List.length_append]; omega⟩
  rw [hk, load_many ms h]
  rw [loadRawLoop, he]
  rfl

/-- C20. Any list of messages, stored one after the other, is read back exactly, then `io.EOF`. -/
theorem C20_roundtrip (ms : List NetlinkMessage) (h : ∀ m ∈ ms, WellFormed m) :
    loadRawAll ⟨ms.flatMap encodeMsg, .eof⟩ = some (ms, .eof) := by
  have := load_all ms h [] .eof .eof rfl
  rwa [List.append_nil] at this

/-- C20. A failing reader: all messages delivered before, then its error. -/
theorem C20_read_error (ms : List NetlinkMessage) (h : ∀ m ∈ ms, WellFormed m) (e : GoErr) :
    loadRawAll ⟨ms.flatMap encodeMsg, e⟩ = some (ms, e) := by
  have := load_all ms h [] e e (by simp [loadRawNetlinkMessage, Source.readFull, Res.bind])
  rwa [List.append_nil] at this

theorem loadRaw_consumes {src src' : Source} {m : NetlinkMessage} (h : loadRawNetlinkMessage src = .ok (m, src')) :
    src'.bytes.length + 16 ≤ src.bytes.length := by
  unfold loadRawNetlinkMessage Source.readFull at h
  by_cases h1 : 16 ≤ src.bytes.length
  · rw [if_pos h1] at h
    simp only [Res.bind] at h
    split at h
    · rename_i a heq
      split at heq
      · injection heq with heq
        subst heq
        injection h with h
        injection h with h2 h3
        subst h3
        simp; omega
      · split at heq <;> simp at heq
    · simp at h
    · simp at h
  · rw [if_neg h1] at h
    split at h <;> simp [Res.bind] at h

theorem loadRaw_no_panic (src : Source) : loadRawNetlinkMessage src ≠ .panic := by
  have hr : ∀ (s : Source) n, s.readFull n ≠ .panic := by
    intro s n; unfold Source.readFull; split
    · simp
    · split <;> simp
  unfold loadRawNetlinkMessage
  cases h : src.readFull 16 with
  | panic => exact absurd h (hr _ _)
  | err e => simp [Res.bind]
  | ok x =>
    simp only [Res.bind]
    cases h2 : x.2.readFull _ with
    | panic => exact absurd h2 (hr _ _)
    | err e => simp
    | ok y => simp

/-- C20. Reading ends for every input whatsoever (also garbage), with an error, after at most one message per 16 bytes. -/
theorem C20_complete (src : Source) : ∃ ms e, loadRawAll src = some (ms, e) ∧ 16 * ms.length ≤ src.bytes.length := by
  have key : ∀ fuel src acc, src.bytes.length < fuel → ∃ ms e, loadRawLoop fuel src acc = some (acc ++ ms, e) ∧ 16 * ms.length ≤ src.bytes.length := by
    intro fuel
    induction fuel with
    | zero => intro src acc h; omega
    | succ fuel ih =>
      intro src acc h
      rw [loadRawLoop]
      cases hl : loadRawNetlinkMessage src with
      | panic => exact absurd hl (loadRaw_no_panic src)
      | err e => exact ⟨[], e, by simp, by simp⟩
      | ok x =>
        obtain ⟨m, src'⟩ := x
        have hc := loadRaw_consumes hl
        obtain ⟨ms, e, h1, h2⟩ := ih src' (acc ++ [m]) (by omega)
        exact ⟨m :: ms, e, by simp [h1], by simp; omega⟩
  obtain ⟨ms, e, h1, h2⟩ := key (src.bytes.length + 1) src [] (by omega)
  exact ⟨ms, e, by simpa [loadRawAll] using h1, h2⟩

/-- C21. A stream cut inside a message (`k` bytes of it are left, `0 < k`): all complete messages are returned, then an error. The error is
`io.EOF` exactly if the cut is right behind the header of a message with data. -/
theorem C21_truncated_exact (ms : List NetlinkMessage) (h : ∀ m ∈ ms, WellFormed m) (m : NetlinkMessage) (hm : WellFormed m) (k : Nat)
    (h0 : 0 < k) (hk : k < (encodeMsg m).length) :
    loadRawAll ⟨ms.flatMap encodeMsg ++ (encodeMsg m).take k, .eof⟩ = some (ms, if k = 16 then .eof else .unexpectedEOF) := by
  apply load_all ms h
  have hlen := encodeMsg_length m
  have hE : encodeMsg m = hdrBytes m ++ m.data := by simp [encodeMsg, hdrBytes]
  have hH := hdrBytes_length m
  by_cases h16 : k < 16
  · have hne : ((encodeMsg m).take k) ≠ [] := by
      intro he; have := congrArg List.length he; rw [List.length_take, List.length_nil] at this; omega
    unfold loadRawNetlinkMessage Source.readFull
    rw [if_neg (by simp only [List.length_take]; omega)]
    simp only
    rw [if_pos ⟨trivial, hne⟩, if_neg (by omega)]
    rfl
  · have ht : (encodeMsg m).take k = hdrBytes m ++ m.data.take (k - 16) := by
      rw [hE, List.take_append, List.take_of_length_le (by omega), hH]
    unfold loadRawNetlinkMessage
    have r1 := readFull_ok ⟨(encodeMsg m).take k, .eof⟩ (hdrBytes m) (m.data.take (k - 16)) ht
    rw [hH] at r1
    rw [r1]
    simp only [Res.bind, parse_hdr]
    rw [hdr_len, len_sub m hm]
    unfold Source.readFull
    rw [if_neg (by simp only [List.length_take]; omega)]
    simp only
    by_cases hk16 : k = 16
    · subst hk16
      simp
    · have hne : m.data.take (k - 16) ≠ [] := by
        intro he; have := congrArg List.length he; rw [List.length_take, List.length_nil] at this; omega
      rw [if_pos ⟨trivial, hne⟩, if_neg hk16]

/-- C21 (partial: the cut is not exactly behind a header). All complete messages, then an error that is not `io.EOF`. -/
theorem C21_truncated_partial (ms : List NetlinkMessage) (h : ∀ m ∈ ms, WellFormed m) (m : NetlinkMessage) (hm : WellFormed m) (k : Nat)
    (h0 : 0 < k) (hk : k < (encodeMsg m).length) (h16 : k ≠ 16) :
    ∃ e, e ≠ .eof ∧ loadRawAll ⟨ms.flatMap encodeMsg ++ (encodeMsg m).take k, .eof⟩ = some (ms, e) :=
  ⟨.unexpectedEOF, by simp, by rw [C21_truncated_exact ms h m hm k h0 hk, if_neg h16]⟩

/-- A message with 4 bytes of data. -/
def exRaw : NetlinkMessage := { header := ⟨20, 20, 0, 7, 1⟩, data := [1, 2, 3, 4] }

example : WellFormed exRaw := ⟨by decide, rfl⟩
example : loadRawAll ⟨[exRaw, exRaw].flatMap encodeMsg, .eof⟩ = some ([exRaw, exRaw], .eof) := by decide +kernel
example : loadRawAll ⟨[exRaw].flatMap encodeMsg ++ (encodeMsg exRaw).take 18, .eof⟩ = some ([exRaw], .unexpectedEOF) := by decide +kernel

/-- C21 violated: a file cut right behind a header looks like a complete file with one message less. -/
theorem C21_violated : ∃ (m : NetlinkMessage) (ms : List NetlinkMessage) (k : Nat), WellFormed m ∧ (∀ x ∈ ms, WellFormed x) ∧ 0 < k ∧ k < (encodeMsg m).length
    ∧ loadRawAll ⟨ms.flatMap encodeMsg ++ (encodeMsg m).take k, .eof⟩ = loadRawAll ⟨ms.flatMap encodeMsg, .eof⟩ := by
  refine ⟨exRaw, [exRaw], 16, ⟨by decide, rfl⟩, ?_, by decide, by decide, by decide +kernel⟩
  intro x hx
  rw [List.mem_singleton] at hx; subst hx
  exact ⟨by decide, rfl⟩

end TcpInfo
